import Verif.Onnx.Create
import Mathlib.Tactic.Linarith

/-!
# Facts about tensors

A tensor of rank at most four whose extended shape is `(1, C, H, W)` has the elements of a three-dimensional array.
-/

namespace Verif.Onnx
open Net Layers
variable {K : Type}

theorem length_indices (d : List Nat) : (indices d).length = prod d := by
  induction d with
  | nil => rfl
  | cons n ds ih =>
    simp only [indices, List.length_flatMap, List.length_map, ih, prod, List.foldr_cons]
    simp

theorem length_of_mem {d ix : List Nat} (h : ix ∈ indices d) : ix.length = d.length := by
  induction d generalizing ix with
  | nil => simp [indices] at h; simp [h]
  | cons n ds ih =>
    simp only [indices, List.mem_flatMap, List.mem_map] at h
    obtain ⟨i, _, jx, hj, rfl⟩ := h
    simp [ih hj]

theorem mk_ok (d : List Nat) (v : List Nat → K) : (mk d v).Ok := by
  simp [Nd.Ok, mk, length_indices]

theorem indices_one (d : List Nat) : indices (1 :: d) = (indices d).map (0 :: ·) := by
  simp [indices]

theorem padTo_cons {r : Nat} {d : List Nat} (h : d.length ≤ r) : padTo (r + 1) d = 1 :: padTo r d := by
  simp only [padTo, show r + 1 - d.length = (r - d.length) + 1 by omega, List.replicate_succ, List.cons_append]

theorem padTo_self (d : List Nat) : padTo d.length d = d := by simp [padTo]

theorem length_padTo {r : Nat} {d : List Nat} (h : d.length ≤ r) : (padTo r d).length = r := by
  simp [padTo]; omega

theorem prod_padTo (r : Nat) (d : List Nat) : prod (padTo r d) = prod d := by
  simp only [padTo]
  generalize r - d.length = k
  induction k with
  | zero => rfl
  | succ k ih => simp only [List.replicate_succ, List.cons_append, prod, List.foldr_cons] at ih ⊢; rw [ih, Nat.one_mul]

variable [Zero K]

theorem bget_zero (t : Nd K) (ix : List Nat) (h : t.dims.length ≤ ix.length) : t.bget (0 :: ix) = t.bget ix := by
  simp only [Nd.bget, List.length_cons, padTo_cons h, mask, if_true, ravel, Nat.zero_mul, Nat.zero_add]

/-- the three dimensions without the batch -/
def shapeOf (d : List Nat) : Option Shape := batch1 (pad4 d)

/-- the four forms of the dimensions of a tensor with a three-dimensional shape -/
theorem shapeOf_cases {d : List Nat} {s : Shape} (h : shapeOf d = some s) :
    (d = [] ∧ s = ⟨1, 1, 1⟩) ∨ (∃ w, d = [w] ∧ s = ⟨1, 1, w⟩) ∨ (∃ h w, d = [h, w] ∧ s = ⟨1, h, w⟩) ∨
      (∃ c h w, d = [c, h, w] ∧ s = ⟨c, h, w⟩) ∨ ∃ c h w, d = [1, c, h, w] ∧ s = ⟨c, h, w⟩ := by
  unfold shapeOf pad4 at h
  match d, h with
  | [], h => left; simpa [padTo, batch1, eq_comm] using h
  | [w], h => right; left; exact ⟨w, rfl, by simpa [padTo, batch1, eq_comm] using h⟩
  | [a, w], h => right; right; left; exact ⟨a, w, rfl, by simpa [padTo, batch1, eq_comm] using h⟩
  | [c, a, w], h => right; right; right; left; exact ⟨c, a, w, rfl, by simpa [padTo, batch1, eq_comm] using h⟩
  | [n, c, a, w], h =>
    right; right; right; right
    simp only [padTo, List.length_cons, List.length_nil] at h
    by_cases hn : n = 1
    · subst hn; exact ⟨c, a, w, rfl, by simpa [batch1, eq_comm] using h⟩
    · exfalso
      revert h
      simp only [Nat.reduceAdd, Nat.sub_self, List.replicate_zero, List.nil_append]
      unfold batch1
      split <;> simp_all
  | a :: b :: c :: e :: f :: g, h =>
    exfalso
    simp only [padTo, List.length_cons, show 4 - (g.length + 1 + 1 + 1 + 1 + 1) = 0 by omega, List.replicate_zero,
      List.nil_append, batch1] at h
    simp at h

theorem shapeOf_length {d : List Nat} {s : Shape} (h : shapeOf d = some s) : d.length ≤ 4 := by
  rcases shapeOf_cases h with ⟨rfl, _⟩ | ⟨_, rfl, _⟩ | ⟨_, _, rfl, _⟩ | ⟨_, _, _, rfl, _⟩ | ⟨_, _, _, rfl, _⟩ <;> simp

theorem shapeOf_pad {d : List Nat} {s : Shape} (h : shapeOf d = some s) : pad4 d = [1, s.C, s.H, s.W] := by
  rcases shapeOf_cases h with ⟨rfl, rfl⟩ | ⟨_, rfl, rfl⟩ | ⟨_, _, rfl, rfl⟩ | ⟨_, _, _, rfl, rfl⟩ | ⟨_, _, _, rfl, rfl⟩ <;>
    simp [pad4, padTo]

theorem shapeOf_size {d : List Nat} {s : Shape} (h : shapeOf d = some s) : prod d = s.size := by
  have := prod_padTo 4 d
  rw [← this]
  have h2 := shapeOf_pad h
  unfold pad4 at h2
  rw [h2]
  simp [prod, Shape.size]
  ring

/-- the index of rank `d.length` that corresponds to the index `c, h, w` -/
def cut (d : List Nat) (c h w : Nat) : List Nat := [0, c, h, w].drop (4 - d.length)

theorem flatMap_one {A B : Type} (l : List A) (g : A → B) : (l.flatMap fun a => [g a]) = l.map g := by
  induction l with
  | nil => rfl
  | cons a l ih => simp [ih]

theorem indices_four (C H W : Nat) (f : List Nat → K) :
    (indices [1, C, H, W]).map f = tensor3 C H W fun c h w => f [0, c, h, w] := by
  simp [indices, tensor3, List.map_flatMap, List.flatMap_map, Function.comp_def, List.map_map, flatMap_one]

omit [Zero K] in
theorem indices_cut {d : List Nat} {s : Shape} (h : shapeOf d = some s) (f : List Nat → K) :
    (indices d).map f = tensor3 s.C s.H s.W fun c h w => f (cut d c h w) := by
  rcases shapeOf_cases h with ⟨rfl, rfl⟩ | ⟨_, rfl, rfl⟩ | ⟨_, _, rfl, rfl⟩ | ⟨_, _, _, rfl, rfl⟩ | ⟨_, _, _, rfl, rfl⟩ <;>
    simp [indices, tensor3, List.map_flatMap, List.flatMap_map, Function.comp_def, List.map_map, cut, flatMap_one]

theorem bget_four (t : Nd K) {s : Shape} (h : shapeOf t.dims = some s) (c i j : Nat) :
    t.bget [0, c, i, j] = t.data.getD (at3 s.H s.W (Np.bidx s.C c) (Np.bidx s.H i) (Np.bidx s.W j)) 0 := by
  have h2 := shapeOf_pad h
  unfold pad4 at h2
  simp only [Nd.bget, List.length_cons, List.length_nil, Nat.reduceAdd, h2, mask, ravel, prod, List.foldr_cons, List.foldr_nil,
    at3, Np.bidx, if_true]
  congr 1
  ring

/-- a tensor broadcast to the rank of `d` -/
theorem bget_cut (t : Nd K) {d : List Nat} {s : Shape} (hs : shapeOf d = some s) (h : t.dims.length ≤ d.length)
    {c i j : Nat} (hc : c < s.C) (hi : i < s.H) (hj : j < s.W) : t.bget (cut d c i j) = t.bget [0, c, i, j] := by
  have hd := shapeOf_length hs
  have hc : d.length ≤ 2 → c = 0 := by
    intro hl
    rcases shapeOf_cases hs with ⟨rfl, rfl⟩ | ⟨_, rfl, rfl⟩ | ⟨_, _, rfl, rfl⟩ | ⟨_, _, _, rfl, rfl⟩ | ⟨_, _, _, rfl, rfl⟩ <;> simp_all
  have hi : d.length ≤ 1 → i = 0 := by
    intro hl
    rcases shapeOf_cases hs with ⟨rfl, rfl⟩ | ⟨_, rfl, rfl⟩ | ⟨_, _, rfl, rfl⟩ | ⟨_, _, _, rfl, rfl⟩ | ⟨_, _, _, rfl, rfl⟩ <;> simp_all
  have hj : d.length = 0 → j = 0 := by
    intro hl
    rcases shapeOf_cases hs with ⟨rfl, rfl⟩ | ⟨_, rfl, rfl⟩ | ⟨_, _, rfl, rfl⟩ | ⟨_, _, _, rfl, rfl⟩ | ⟨_, _, _, rfl, rfl⟩ <;> simp_all
  unfold cut
  have : d.length = 0 ∨ d.length = 1 ∨ d.length = 2 ∨ d.length = 3 ∨ d.length = 4 := by omega
  rcases this with e | e | e | e | e
  · rw [e, hc (by omega), hi (by omega), hj e]; rw [e] at h
    simp only [Nat.sub_zero, List.drop_succ_cons, List.drop]
    rw [bget_zero, bget_zero, bget_zero, bget_zero] <;> simp <;> first | omega | (apply List.eq_nil_of_length_eq_zero; omega)
  · rw [e, hc (by omega), hi (by omega)]; rw [e] at h
    simp only [Nat.add_one_sub_one, List.drop_succ_cons, List.drop_zero, Nat.reduceSub]
    rw [bget_zero, bget_zero, bget_zero] <;> simp <;> omega
  · rw [e, hc (by omega)]; rw [e] at h
    simp only [List.drop_succ_cons, List.drop_zero, Nat.reduceSub]
    rw [bget_zero, bget_zero] <;> simp <;> omega
  · rw [e]; rw [e] at h
    simp only [List.drop_succ_cons, List.drop_zero, Nat.reduceSub]
    rw [bget_zero]; simp; omega
  · rw [e]; simp

/-- the elements of a tensor, by the index of its rank -/
theorem get_cut (t : Nd K) {s : Shape} (h : shapeOf t.dims = some s) {c i j : Nat} (hc : c < s.C) (hi : i < s.H) (hj : j < s.W) :
    t.get (cut t.dims c i j) = (arrOf s t.data).v c i j := by
  rcases shapeOf_cases h with ⟨e, rfl⟩ | ⟨_, e, rfl⟩ | ⟨_, _, e, rfl⟩ | ⟨_, _, _, e, rfl⟩ | ⟨_, _, _, e, rfl⟩ <;>
    simp only [Nd.get, e, cut, List.length_cons, List.length_nil, Nat.reduceAdd, Nat.reduceSub, List.drop_succ_cons, List.drop_zero,
      ravel, prod, List.foldr_cons, List.foldr_nil, arrOf, at3, List.drop_nil, Nat.sub_zero, List.drop] <;>
    congr 1
  · simp at hc hi hj; omega
  · simp at hc hi; subst hc hi; simp
  · simp at hc; subst hc; ring
  · ring
  · ring

/-! ## Broadcasting in rank four -/

omit [Zero K] in
theorem bdims_one (a b : List Nat) : bdims (1 :: a) (1 :: b) = (bdims a b).map (1 :: ·) := by
  simp [bdims, bdim, Option.map_eq_bind]

omit [Zero K] in
theorem bdims_length {a b d : List Nat} (h : bdims a b = some d) : d.length = a.length := by
  induction a generalizing b d with
  | nil => cases b <;> simp_all [bdims]
  | cons x a ih =>
    cases b with
    | nil => simp [bdims] at h
    | cons y b =>
      simp only [bdims, Option.bind_eq_bind, Option.bind_eq_some_iff, Option.some.injEq] at h
      obtain ⟨_, _, ds, h2, rfl⟩ := h
      simp [ih h2]

omit [Zero K] in
/-- extending both shapes further does not change a broadcast -/
theorem bshape_four {a b d : List Nat} (h : bshape a b = some d) (ha : a.length ≤ 4) (hb : b.length ≤ 4) :
    d.length = max a.length b.length ∧ bdims (pad4 a) (pad4 b) = some (pad4 d) := by
  unfold bshape at h
  have hl : d.length = max a.length b.length := by
    rw [bdims_length h, length_padTo (le_max_left _ _)]
  refine ⟨hl, ?_⟩
  have key : ∀ k, bdims (padTo (max a.length b.length + k) a) (padTo (max a.length b.length + k) b)
      = some (padTo (max a.length b.length + k) d) := by
    intro k
    induction k with
    | zero => rw [Nat.add_zero, ← hl, padTo_self, hl]; exact h
    | succ k ih =>
      rw [← Nat.add_assoc, padTo_cons (by omega), padTo_cons (by omega), padTo_cons (by omega), bdims_one, ih]
      rfl
  have := key (4 - max a.length b.length)
  rwa [show max a.length b.length + (4 - max a.length b.length) = 4 by omega] at this

/-- broadcasting two tensors is numpy's on their three-dimensional arrays -/
theorem bcast_arr {op : K → K → K} {a b y : Nd K} {sa sb : Shape} (ha : shapeOf a.dims = some sa) (hb : shapeOf b.dims = some sb)
    (h : bcast op a b = some y) :
    ∃ s, shapeOf y.dims = some s ∧ y.Ok ∧ Np.bdim sa.C sb.C = some s.C ∧ Np.bdim sa.H sb.H = some s.H ∧ Np.bdim sa.W sb.W = some s.W ∧
      y.data = tensor3 s.C s.H s.W fun c i j => op (Np.bget (arrOf sa a.data) c i j) (Np.bget (arrOf sb b.data) c i j) := by
  simp only [bcast, Option.bind_eq_bind, Option.bind_eq_some_iff, Option.some.injEq] at h
  obtain ⟨d, hd, rfl⟩ := h
  obtain ⟨hl, h4⟩ := bshape_four hd (shapeOf_length ha) (shapeOf_length hb)
  rw [shapeOf_pad ha, shapeOf_pad hb] at h4
  simp only [bdims, Option.bind_eq_bind, Option.bind_eq_some_iff, Option.some.injEq] at h4
  obtain ⟨n, hn, _, ⟨c, hc, _, ⟨i, hi, _, ⟨j, hj, _, rfl, rfl⟩, rfl⟩, rfl⟩, hp⟩ := h4
  have hn1 : n = 1 := by simpa [bdim, eq_comm] using hn
  subst hn1
  have hs : shapeOf d = some ⟨c, i, j⟩ := by simp [shapeOf, ← hp, batch1]
  refine ⟨⟨c, i, j⟩, hs, mk_ok _ _, hc, hi, hj, ?_⟩
  simp only [mk]
  rw [indices_cut hs]
  apply tensor3_congr
  intro f p q hf hp' hq
  rw [bget_cut a hs (by omega) hf hp' hq, bget_cut b hs (by omega) hf hp' hq, bget_four a ha, bget_four b hb]
  rfl

end Verif.Onnx

import Verif.Keras.Load
import Verif.Keras.Spec
import Verif.Onnx.LocalPad

/-!
# Keras tensors and the arrays of the reference interpreter

The interpreter holds an image `(H, W, C)` as an array `(C, H, W)`.
-/

namespace Verif.Keras
open Net Layers
open Onnx (prod indices ravel mk bcast shapeOf cut)
open scoped Classical

/-- an image with its channels first -/
noncomputable def chw (t : Nd ℝ) : Nd ℝ :=
  match t.dims with
  | [H, W, C] => mk [C, H, W] fun ix => t.get [ix.getD 1 0, ix.getD 2 0, ix.getD 0 0]
  | _ => t

/-- The array `z` of the interpreter holds the Keras tensor `t`: an image with its channels first, or the elements of a vector. -/
def Rep (t z : Nd ℝ) : Prop :=
  t.Ok ∧ match t.dims with
  | [_, _, _] => z = chw t
  | [_] => z.data = t.data
  | _ => False

theorem get_mk {d ix : List Nat} (h : ix ∈ indices d) (v : List Nat → ℝ) : (mk d v).get ix = v ix := by
  obtain ⟨k, hk, rfl⟩ := List.mem_iff_getElem.mp h
  have hr : ravel d (indices d)[k] = k := by
    have := congrArg (fun l => l[k]?) (Onnx.map_ravel d)
    simp only [List.getElem?_map, List.getElem?_eq_getElem hk, Option.map_some] at this
    rw [List.getElem?_range (by rw [← Onnx.length_indices]; exact hk)] at this
    exact Option.some.inj this
  simp [Nd.get, mk, hr, hk]

theorem mem3 {A B C i j k : Nat} (hi : i < A) (hj : j < B) (hk : k < C) : [i, j, k] ∈ indices [A, B, C] := by
  simp [indices, hi, hj, hk]

theorem mem3' {A B C : Nat} {ix : List Nat} (h : ix ∈ indices [A, B, C]) : ∃ i j k, ix = [i, j, k] ∧ i < A ∧ j < B ∧ k < C := by
  simp only [indices, List.mem_flatMap, List.mem_range, List.mem_map] at h
  obtain ⟨i, hi, _, ⟨j, hj, _, ⟨k, hk, _, h1, rfl⟩, rfl⟩, rfl⟩ := h
  simp at h1
  subst h1
  exact ⟨i, j, k, rfl, hi, hj, hk⟩

theorem mk_congr {d : List Nat} {v w : List Nat → ℝ} (h : ∀ ix ∈ indices d, v ix = w ix) : mk d v = mk d w := by
  unfold mk
  rw [List.map_congr_left h]

theorem mk3_congr {A B C : Nat} {v w : List Nat → ℝ} (h : ∀ i j k, i < A → j < B → k < C → v [i, j, k] = w [i, j, k]) :
    mk [A, B, C] v = mk [A, B, C] w := by
  apply mk_congr
  intro ix hix
  obtain ⟨i, j, k, rfl, hi, hj, hk⟩ := mem3' hix
  exact h i j k hi hj hk

theorem mk3_data (A B C : Nat) (v : List Nat → ℝ) : (mk [A, B, C] v).data = tensor3 A B C fun i j k => v [i, j, k] :=
  Onnx.indices_cut (s := ⟨A, B, C⟩) rfl v

/-- an image is determined by its elements -/
theorem eq_mk {t : Nd ℝ} (h : t.Ok) : t = mk t.dims t.get := by
  have : t.data = (mk t.dims t.get).data := by
    refine List.ext_getElem (by rw [Onnx.mk_ok, h]; rfl) fun k h1 h2 => ?_
    have hk : k < (indices t.dims).length := by simpa [mk] using h2
    have hr : ravel t.dims (indices t.dims)[k] = k := by
      have := congrArg (fun l => l[k]?) (Onnx.map_ravel t.dims)
      simp only [List.getElem?_map, List.getElem?_eq_getElem hk, Option.map_some] at this
      rw [List.getElem?_range (by rw [← Onnx.length_indices]; exact hk)] at this
      exact Option.some.inj this
    simp [mk, Nd.get, hr, h1]
  cases t
  simp only at this
  simp only [mk] at this ⊢
  rw [← this]

theorem chw_mk (H W C : Nat) (v : List Nat → ℝ) : chw (mk [H, W, C] v) = mk [C, H, W] fun ix => v [ix.getD 1 0, ix.getD 2 0, ix.getD 0 0] := by
  unfold chw
  simp only [mk]
  apply mk3_congr
  intro f i j hf hi hj
  exact get_mk (mem3 hi hj hf) v

theorem chw_dims {t : Nd ℝ} {H W C : Nat} (h : t.dims = [H, W, C]) : (chw t).dims = [C, H, W] := by
  unfold chw; rw [h]; rfl

theorem chw_get {t : Nd ℝ} {H W C : Nat} (h : t.dims = [H, W, C]) {f i j : Nat} (hf : f < C) (hi : i < H) (hj : j < W) :
    (chw t).get [f, i, j] = t.get [i, j, f] := by
  unfold chw; rw [h]
  exact get_mk (mem3 hf hi hj) _

theorem chw_ok {t : Nd ℝ} (h : t.Ok) : (chw t).Ok := by
  unfold chw; split
  · exact Onnx.mk_ok _ _
  · exact h

theorem chw_shape {t : Nd ℝ} {H W C : Nat} (h : t.dims = [H, W, C]) : shapeOf (chw t).dims = some ⟨C, H, W⟩ := by rw [chw_dims h]; rfl

/-- the element `f, i, j` of the array of an image -/
theorem chw_arr {t : Nd ℝ} {H W C : Nat} (h : t.dims = [H, W, C]) {f i j : Nat} (hf : f < C) (hi : i < H) (hj : j < W) :
    (arrOf ⟨C, H, W⟩ (chw t).data).v f i j = t.get [i, j, f] := by
  have := Onnx.get_cut (chw t) (chw_shape h) hf hi hj
  rw [chw_dims h] at this
  rw [← this]
  exact chw_get h hf hi hj

theorem chw_reshape {t : Nd ℝ} {H W C : Nat} (h : t.dims = [H, W, C]) : (chw t).reshape3 ⟨C, H, W⟩ = some (arrOf ⟨C, H, W⟩ (chw t).data) := by
  apply Net.reshape3_eq
  unfold chw; rw [h]
  have := Onnx.mk_ok [C, H, W] fun ix => t.get [ix.getD 1 0, ix.getD 2 0, ix.getD 0 0]
  rw [this]
  simp [mk, prod, Shape.size, Nat.mul_assoc]

theorem rep3 {t z : Nd ℝ} (h : Rep t z) {H W C : Nat} (hd : t.dims = [H, W, C]) : z = chw t := by
  have := h.2; rw [hd] at this; exact this

theorem rep1 {t z : Nd ℝ} (h : Rep t z) {n : Nat} (hd : t.dims = [n]) : z.data = t.data ∧ t.data.length = n := by
  have := h.2; rw [hd] at this
  refine ⟨this, ?_⟩
  rw [h.1, hd]; simp [prod]

/-- an array of the interpreter that holds an image -/
theorem rep_mk {H W C : Nat} {v : List Nat → ℝ} {z : Nd ℝ} (h1 : z.dims = [C, H, W])
    (h2 : z.data = tensor3 C H W fun f i j => v [i, j, f]) : Rep (mk [H, W, C] v) z := by
  refine ⟨Onnx.mk_ok _ _, ?_⟩
  show z = chw (mk [H, W, C] v)
  rw [chw_mk]
  cases z
  simp only at h1 h2
  subst h1
  rw [h2]
  simp only [mk]
  congr 1
  exact (mk3_data C H W fun ix => v [ix.getD 1 0, ix.getD 2 0, ix.getD 0 0]).symm

theorem rep_of_chw {t z : Nd ℝ} {H W C : Nat} (hd : t.dims = [H, W, C]) (hok : t.Ok) (hz : z = chw t) : Rep t z := by
  refine ⟨hok, ?_⟩
  rw [hd]; exact hz

theorem rep_vec {t z : Nd ℝ} {n : Nat} (hd : t.dims = [n]) (hok : t.Ok) (hz : z.data = t.data) : Rep t z := by
  refine ⟨hok, ?_⟩
  rw [hd]; exact hz

theorem rep_rank {t z : Nd ℝ} (h : Rep t z) : (∃ n, t.dims = [n]) ∨ ∃ H W C, t.dims = [H, W, C] := by
  have := h.2
  split at this
  · exact .inr ⟨_, _, _, by assumption⟩
  · exact .inl ⟨_, by assumption⟩
  · exact absurd this id

theorem unary_mk (f : ℝ → ℝ) (d : List Nat) (v : List Nat → ℝ) : Onnx.Spec.unary f (mk d v) = mk d fun ix => f (v ix) := by
  simp [Onnx.Spec.unary, mk]

/-! ## Broadcasting and concatenation with the channels first -/

theorem bget3 {a : Nd ℝ} {H W C : Nat} (h : a.dims = [H, W, C]) (i j k : Nat) :
    a.bget [i, j, k] = a.get [Np.bidx H i, Np.bidx W j, Np.bidx C k] := by
  simp [Nd.bget, Nd.get, h, Onnx.padTo, Onnx.mask, Np.bidx]

theorem bdims3 {H W C H' W' C' : Nat} {d : List Nat} (h : Onnx.bshape [H, W, C] [H', W', C'] = some d) :
    ∃ h w c, d = [h, w, c] ∧ Onnx.bdim H H' = some h ∧ Onnx.bdim W W' = some w ∧ Onnx.bdim C C' = some c := by
  simp only [Onnx.bshape, List.length_cons, List.length_nil, Onnx.padTo, Nat.reduceAdd, Nat.max_self, Nat.sub_self, List.replicate_zero, List.nil_append,
    Onnx.bdims, Option.bind_eq_bind] at h
  obtain ⟨a, ha, h⟩ := Option.bind_eq_some_iff.mp h
  obtain ⟨_, hx, h⟩ := Option.bind_eq_some_iff.mp h
  obtain ⟨b, hb, hx⟩ := Option.bind_eq_some_iff.mp hx
  obtain ⟨_, hy, hx⟩ := Option.bind_eq_some_iff.mp hx
  obtain ⟨c, hc, hy⟩ := Option.bind_eq_some_iff.mp hy
  simp at h hx hy
  subst hy
  subst hx
  exact ⟨a, b, c, h.symm, ha, hb, hc⟩

theorem bdim_bidx {a b c : Nat} (h : Onnx.bdim a b = some c) {k : Nat} (hk : k < c) : Np.bidx a k < a ∧ Np.bidx b k < b := by
  unfold Onnx.bdim at h
  unfold Np.bidx
  split at h
  · simp at h; subst h; constructor <;> split <;> omega
  · split at h
    · simp at h; subst h; constructor <;> split <;> omega
    · split at h
      · simp at h; subst h; constructor <;> split <;> omega
      · simp at h

/-- position, with the channels first, of the axis `a` of an image -/
def rot (a : Nat) : Nat := if a = 2 then 0 else a + 1

theorem chw_concat2 {k : Nat} (hk : k < 3) {x y z : Nd ℝ} {H W C H' W' C' : Nat} (hx : x.dims = [H, W, C]) (hy : y.dims = [H', W', C'])
    (h : Onnx.Spec.concat2 k x y = some z) : Onnx.Spec.concat2 (rot k) (chw x) (chw y) = some (chw z) ∧ z.Ok ∧ ∃ p q r, z.dims = [p, q, r] := by
  unfold Onnx.Spec.concat2 at h
  simp only [Option.ite_none_right_eq_some, Option.some.injEq, hx, hy] at h
  obtain ⟨⟨_, he⟩, rfl⟩ := h
  have hk : k = 0 ∨ k = 1 ∨ k = 2 := by omega
  unfold Onnx.Spec.concat2
  rw [chw_dims hx, chw_dims hy]
  rcases hk with rfl | rfl | rfl
  all_goals
    simp at he
    obtain ⟨rfl, rfl⟩ := he
    refine ⟨?_, Onnx.mk_ok _ _, _, _, _, rfl⟩
    rw [if_pos (by simp [rot])]
    simp only [rot, List.getD_cons_zero, List.getD_cons_succ, List.set_cons_zero, List.set_cons_succ, Nat.reduceAdd, OfNat.zero_ne_ofNat, if_false,
      if_true, OfNat.one_ne_ofNat, chw_mk, Option.some.injEq]
    apply mk3_congr
    intro f i j hf hi hj
    simp only [List.getD_cons_zero, List.getD_cons_succ, List.set_cons_zero, List.set_cons_succ]
    split
    · rename_i hlt
      rw [chw_get hx (by omega) (by omega) (by omega)]
    · rename_i hlt
      rw [chw_get hy (by omega) (by omega) (by omega)]

end Verif.Keras

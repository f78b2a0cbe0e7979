import Verif.CMem.Spec
import Mathlib.Algebra.BigOperators.Intervals
import Mathlib.Tactic.Ring

/-!
# Loop nests, three-dimensional tensors, and rules for the common shapes of generated code
-/

namespace Verif
open Prog
variable {α β γ : Type}

/-- `for (f < C) for (i < H) for (j < W) body(f, i, j)` -/
def loop3 (C H W : Nat) (body : Nat → Nat → Nat → Prog α Unit) : Prog α Unit :=
  forN C fun f => forN H fun i => forN W fun j => body f i j

/-- the flat index `j + W*(i + H*f)` used by all CHW templates -/
def at3 (H W f i j : Nat) : Nat := j + W * (i + H * f)

/-- `for (k = 0; k < n; ++k) dst[k] = f(src[k]);`, the closing loop of most templates -/
def copyMap (n : Nat) (src dst : Buf) (f : α → α) : Prog α Unit :=
  forN n fun k => andThen (load src (k : Int)) fun v => store dst (k : Int) (f v)

/-- The flat, C-order contents of a `C × H × W` tensor. -/
def tensor3 (C H W : Nat) (v : Nat → Nat → Nat → α) : List α :=
  (List.range C).flatMap fun f => (List.range H).flatMap fun i => (List.range W).map fun j => v f i j

/-- The flat, C-order contents of an `M × N` matrix. -/
def matrix (M N : Nat) (v : Nat → Nat → α) : List α :=
  (List.range M).flatMap fun i => (List.range N).map fun j => v i j

/-! ## Index arithmetic -/

theorem pair_lt {A B a b : Nat} (ha : a < A) (hb : b < B) : a + A * b < A * B :=
  calc a + A * b < A + A * b := by omega
    _ = A * (b + 1) := by ring
    _ ≤ A * B := Nat.mul_le_mul_left _ hb

theorem pair_div {A a b : Nat} (ha : a < A) : (a + A * b) / A = b := by
  rw [Nat.add_mul_div_left _ _ (by omega), Nat.div_eq_of_lt ha, Nat.zero_add]

theorem pair_mod {A a b : Nat} (ha : a < A) : (a + A * b) % A = a := by
  rw [Nat.add_mul_mod_self_left, Nat.mod_eq_of_lt ha]

theorem at3_lt {C H W f i j : Nat} (hf : f < C) (hi : i < H) (hj : j < W) :
    at3 H W f i j < C * H * W := by
  have h1 := pair_lt hi hf
  have h2 := pair_lt hj h1
  unfold at3
  calc _ < W * (H * C) := h2
    _ = C * H * W := by ring

theorem at3_inj {H W f i j f' i' j' : Nat} (hi : i < H) (hj : j < W) (hi' : i' < H) (hj' : j' < W)
    (h : at3 H W f i j = at3 H W f' i' j') : f = f' ∧ i = i' ∧ j = j' := by
  unfold at3 at h
  have hj2 : j = j' := by
    have := congrArg (· % W) h
    simpa [pair_mod hj, pair_mod hj'] using this
  have h2 : i + H * f = i' + H * f' := by
    have := congrArg (· / W) h
    simpa [pair_div hj, pair_div hj'] using this
  have hi2 : i = i' := by
    have := congrArg (· % H) h2
    simpa [pair_mod hi, pair_mod hi'] using this
  have hf2 : f = f' := by
    have := congrArg (· / H) h2
    simpa [pair_div hi, pair_div hi'] using this
  exact ⟨hf2, hi2, hj2⟩

theorem at3_surj {C H W a : Nat} (h : a < C * H * W) :
    ∃ f i j, f < C ∧ i < H ∧ j < W ∧ at3 H W f i j = a := by
  have hW : 0 < W := by rcases Nat.eq_zero_or_pos W with h0 | h0 <;> simp_all
  have hH : 0 < H := by rcases Nat.eq_zero_or_pos H with h0 | h0 <;> simp_all
  refine ⟨a / W / H, a / W % H, a % W, ?_, Nat.mod_lt _ hH, Nat.mod_lt _ hW, ?_⟩
  · apply Nat.div_lt_of_lt_mul
    apply Nat.div_lt_of_lt_mul
    calc a < C * H * W := h
      _ = W * (H * C) := by ring
  · unfold at3
    rw [Nat.mod_add_div, Nat.mod_add_div]

theorem at2_surj {M N a : Nat} (h : a < M * N) : ∃ i j, i < M ∧ j < N ∧ i * N + j = a := by
  have hN : 0 < N := by rcases Nat.eq_zero_or_pos N with h0 | h0 <;> simp_all
  refine ⟨a / N, a % N, Nat.div_lt_of_lt_mul (by rw [Nat.mul_comm]; exact h), Nat.mod_lt _ hN, ?_⟩
  rw [Nat.mul_comm]; exact Nat.div_add_mod a N

/-! ## Flat tensors -/

theorem flatMap_length_const {A : Type} (n k : Nat) (g : Nat → List A) (h : ∀ i, (g i).length = k) :
    ((List.range n).flatMap g).length = n * k := by
  induction n with
  | zero => simp
  | succ n ih => rw [List.range_succ, List.flatMap_append, List.length_append, ih]; simp [h]; ring

theorem flatMap_get_const {A : Type} (n k : Nat) (g : Nat → List A) (h : ∀ i, (g i).length = k)
    {i a : Nat} (hi : i < n) (ha : a < k) (hh : i * k + a < ((List.range n).flatMap g).length) :
    ((List.range n).flatMap g)[i * k + a] = (g i)[a]'(by rw [h]; exact ha) := by
  induction n with
  | zero => omega
  | succ n ih =>
    have hl := flatMap_length_const n k g h
    rcases Nat.lt_succ_iff_lt_or_eq.1 hi with h1 | h1
    · have hlt : i * k + a < n * k := by
        calc i * k + a < i * k + k := by omega
          _ = (i + 1) * k := by ring
          _ ≤ n * k := Nat.mul_le_mul_right _ h1
      simp only [List.range_succ, List.flatMap_append]
      rw [List.getElem_append_left (by rw [hl]; exact hlt)]
      exact ih h1 (by rw [hl]; exact hlt)
    · subst h1
      simp only [List.range_succ, List.flatMap_append]
      rw [List.getElem_append_right (by rw [hl]; omega)]
      simp [hl]

theorem tensor3_length (C H W : Nat) (v : Nat → Nat → Nat → α) :
    (tensor3 C H W v).length = C * H * W := by
  unfold tensor3
  rw [flatMap_length_const C (H * W)]
  · ring
  · intro f; rw [flatMap_length_const H W]; simp

theorem tensor3_get (C H W : Nat) (v : Nat → Nat → Nat → α) {f i j : Nat} (hf : f < C) (hi : i < H)
    (hj : j < W) (h : at3 H W f i j < (tensor3 C H W v).length) :
    (tensor3 C H W v)[at3 H W f i j] = v f i j := by
  have e : at3 H W f i j = f * (H * W) + (i * W + j) := by unfold at3; ring
  have hin : i * W + j < H * W := by
    have := pair_lt hj hi; calc i * W + j = j + W * i := by ring
      _ < W * H := this
      _ = H * W := by ring
  have hlen : ∀ f, ((List.range H).flatMap fun i => (List.range W).map fun j => v f i j).length = H * W := by
    intro f; rw [flatMap_length_const H W]; simp
  have h2 : f * (H * W) + (i * W + j) < (tensor3 C H W v).length := by rw [← e]; exact h
  have : (tensor3 C H W v)[at3 H W f i j] = (tensor3 C H W v)[f * (H * W) + (i * W + j)] := by
    congr 1
  rw [this]
  unfold tensor3 at h2 ⊢
  rw [flatMap_get_const C (H * W) _ hlen hf hin]
  rw [flatMap_get_const H W (fun i => (List.range W).map fun j => v f i j) (by simp) hi hj]
  simp

theorem matrix_length (M N : Nat) (v : Nat → Nat → α) : (matrix M N v).length = M * N := by
  unfold matrix; rw [flatMap_length_const M N]; simp

theorem matrix_get (M N : Nat) (v : Nat → Nat → α) {i j : Nat} (hi : i < M) (hj : j < N)
    (h : i * N + j < (matrix M N v).length) : (matrix M N v)[i * N + j] = v i j := by
  unfold matrix at h ⊢
  rw [flatMap_get_const M N _ (by simp) hi hj]
  simp

theorem holds_tensor3 {m : Mem α} {b : Buf} {C H W : Nat} {v : Nat → Nat → Nat → α} :
    Holds m b (tensor3 C H W v) ↔ C * H * W ≤ m.size b ∧
      ∀ f i j, f < C → i < H → j < W → m.val b (at3 H W f i j) = v f i j := by
  have hl := tensor3_length C H W v
  constructor
  · rintro ⟨h1, h2⟩
    refine ⟨by rw [← hl]; exact h1, fun f i j hf hi hj => ?_⟩
    rw [h2 _ (by rw [hl]; exact at3_lt hf hi hj), tensor3_get C H W v hf hi hj]
  · rintro ⟨h1, h2⟩
    refine ⟨by rw [hl]; exact h1, fun a ha => ?_⟩
    rw [hl] at ha
    obtain ⟨f, i, j, hf, hi, hj, rfl⟩ := at3_surj ha
    rw [h2 f i j hf hi hj, tensor3_get C H W v hf hi hj]

theorem holds_matrix {m : Mem α} {b : Buf} {M N : Nat} {v : Nat → Nat → α} :
    Holds m b (matrix M N v) ↔ M * N ≤ m.size b ∧
      ∀ i j, i < M → j < N → m.val b (i * N + j) = v i j := by
  have hl := matrix_length M N v
  constructor
  · rintro ⟨h1, h2⟩
    refine ⟨by rw [← hl]; exact h1, fun i j hi hj => ?_⟩
    have hlt : i * N + j < M * N := by
      have := pair_lt hj hi; rw [Nat.mul_comm M N, Nat.mul_comm i N, Nat.add_comm]; exact this
    rw [h2 _ (by rw [hl]; exact hlt), matrix_get M N v hi hj]
  · rintro ⟨h1, h2⟩
    refine ⟨by rw [hl]; exact h1, fun a ha => ?_⟩
    rw [hl] at ha
    obtain ⟨i, j, hi, hj, rfl⟩ := at2_surj ha
    rw [h2 i j hi hj, matrix_get M N v hi hj]

theorem tensor3_map (C H W : Nat) (v : Nat → Nat → Nat → α) (g : α → β) :
    (tensor3 C H W v).map g = tensor3 C H W (fun f i j => g (v f i j)) := by
  simp [tensor3, List.map_flatMap]
  rfl

theorem tensor3_congr {C H W : Nat} {v w : Nat → Nat → Nat → α}
    (h : ∀ f i j, f < C → i < H → j < W → v f i j = w f i j) : tensor3 C H W v = tensor3 C H W w := by
  apply List.ext_getElem
  · simp [tensor3_length]
  · intro a h1 h2
    rw [tensor3_length] at h1
    obtain ⟨f, i, j, hf, hi, hj, rfl⟩ := at3_surj h1
    rw [tensor3_get C H W v hf hi hj, tensor3_get C H W w hf hi hj, h f i j hf hi hj]

theorem tensor3_ext_iff {C H W : Nat} {v w : Nat → Nat → Nat → α} :
    tensor3 C H W v = tensor3 C H W w ↔ ∀ f i j, f < C → i < H → j < W → v f i j = w f i j := by
  refine ⟨?_, tensor3_congr⟩
  intro h f i j hf hi hj
  have h1 : at3 H W f i j < (tensor3 C H W v).length := by rw [tensor3_length]; exact at3_lt hf hi hj
  have h2 : at3 H W f i j < (tensor3 C H W w).length := by rw [← h]; exact h1
  rw [← tensor3_get C H W v hf hi hj h1, ← tensor3_get C H W w hf hi hj h2]
  congr 1

/-! ## Loop rules -/

/-- A triple loop whose iteration `(f, i, j)` stores `v f i j` at its own flat address of array `b`
(the value may depend on memory outside `b` only). -/
theorem loop3_fill {m : Mem α} (b : Buf) (C H W : Nat) (body : Nat → Nat → Nat → Prog α Unit)
    (v : Nat → Nat → Nat → α)
    (h : ∀ f i j u, f < C → i < H → j < W → body f i j (m.upd b u)
      = some ((), (m.upd b u).upd b (single (at3 H W f i j) (v f i j)))) :
    ∃ w, loop3 C H W body m = some ((), m.upd b w) ∧
      (∀ f i j, f < C → i < H → j < W → w (at3 H W f i j) = some (v f i j)) ∧
      ∀ a, (∀ f i j, f < C → i < H → j < W → at3 H W f i j ≠ a) → w a = none := by
  refine ⟨_, forN_upd C _ m b
    (fun f => joinW H fun i => joinW W fun j => single (at3 H W f i j) (v f i j)) ?_, ?_, ?_⟩
  · intro f u hf
    refine forN_upd' H _ m b u (fun i => joinW W fun j => single (at3 H W f i j) (v f i j)) ?_
    intro i u hi
    exact forN_upd' W _ m b u (fun j => single (at3 H W f i j) (v f i j))
      (fun j u hj => h f i j u hf hi hj)
  · intro f i j hf hi hj
    have hne : ∀ f' i' j', i' < H → j' < W → (f', i', j') ≠ (f, i, j) →
        single (at3 H W f' i' j') (v f' i' j') (at3 H W f i j) = none := by
      intro f' i' j' hi' hj' hne
      simp only [single]
      rw [if_neg]
      intro he
      obtain ⟨a, b, c⟩ := at3_inj hi hj hi' hj' he
      exact hne (by rw [a, b, c])
    apply joinW_some hf
    · apply joinW_some hi
      · apply joinW_some hj
        · simp [single]
        · intro j' h1 h2; left; exact hne f i j' hi h2 (by simp; omega)
      · intro i' h1 h2; left
        apply joinW_none; intro j' hj'; exact hne f i' j' h2 hj' (by simp; omega)
    · intro f' h1 h2; left
      apply joinW_none; intro i' hi'
      apply joinW_none; intro j' hj'; exact hne f' i' j' hi' hj' (by simp; omega)
  · intro a ha
    apply joinW_none; intro f hf
    apply joinW_none; intro i hi
    apply joinW_none; intro j hj
    simp only [single]; rw [if_neg]
    exact fun he => ha f i j hf hi hj he.symm

/-- A triple loop filling an array `b` with a tensor. -/
theorem loop3_holds {m : Mem α} (b : Buf) (C H W : Nat) (body : Nat → Nat → Nat → Prog α Unit)
    (v : Nat → Nat → Nat → α) (hsz : C * H * W ≤ m.size b)
    (h : ∀ f i j u, f < C → i < H → j < W → body f i j (m.upd b u)
      = some ((), (m.upd b u).upd b (single (at3 H W f i j) (v f i j)))) :
    ∃ m', loop3 C H W body m = some ((), m') ∧ Holds m' b (tensor3 C H W v) ∧ OnlyChanges [b] m m' := by
  obtain ⟨w, e, hw, _⟩ := loop3_fill b C H W body v h
  refine ⟨_, e, holds_tensor3.2 ⟨hsz, fun f i j hf hi hj => ?_⟩, OnlyChanges.upd m (by simp) w⟩
  rw [Mem.upd_val_same, hw f i j hf hi hj]; rfl

/-- A loop filling an array `b`, address by address. -/
theorem forN_holds {m : Mem α} (b : Buf) (n : Nat) (body : Nat → Prog α Unit)
    (v : Nat → α) (hsz : n ≤ m.size b)
    (h : ∀ i u, i < n → body i (m.upd b u) = some ((), (m.upd b u).upd b (single i (v i)))) :
    ∃ m', forN n body m = some ((), m') ∧ Holds m' b (tensor n v) ∧ OnlyChanges [b] m m' := by
  refine ⟨_, forN_upd n body m b _ h, holds_tensor.2 ⟨hsz, fun a ha => ?_⟩,
    OnlyChanges.upd m (by simp) _⟩
  rw [Mem.upd_val_same, joinW_single_id, if_pos ha]; rfl

/-- A double loop filling an array `b` with a matrix, row by row. -/
theorem loop2_holds {m : Mem α} (b : Buf) (M N : Nat) (body : Nat → Nat → Prog α Unit)
    (v : Nat → Nat → α) (hsz : M * N ≤ m.size b)
    (h : ∀ i j u, i < M → j < N → body i j (m.upd b u)
      = some ((), (m.upd b u).upd b (single (i * N + j) (v i j)))) :
    ∃ m', forN M (fun i => forN N fun j => body i j) m = some ((), m') ∧ Holds m' b (matrix M N v) ∧
      OnlyChanges [b] m m' := by
  refine ⟨_, forN_upd M _ m b (fun i => joinW N fun j => single (i * N + j) (v i j)) ?_, ?_,
    OnlyChanges.upd m (by simp) _⟩
  · intro i u hi
    exact forN_upd' N _ m b u (fun j => single (i * N + j) (v i j)) (fun j u hj => h i j u hi hj)
  · refine holds_matrix.2 ⟨hsz, fun i j hi hj => ?_⟩
    have hne : ∀ i' j', j' < N → (i', j') ≠ (i, j) →
        single (i' * N + j') (v i' j') (i * N + j) = none := by
      intro i' j' hj' hne
      simp only [single]
      rw [if_neg]
      intro he
      have he' : j + N * i = j' + N * i' := by rw [Nat.mul_comm N, Nat.mul_comm N]; omega
      have h1 := congrArg (· % N) he'
      have h2 := congrArg (· / N) he'
      simp only [pair_mod hj, pair_mod hj', pair_div hj, pair_div hj'] at h1 h2
      exact hne (by rw [h1, h2])
    rw [Mem.upd_val_same]
    rw [joinW_some (v := v i j) hi]
    · rfl
    · apply joinW_some hj
      · simp [single]
      · intro j' h1 h2; left; exact hne i j' h2 (by simp; omega)
    · intro i' h1 h2; left
      apply joinW_none; intro j' hj'; exact hne i' j' hj' (by simp; omega)

/-- Code that fills `tensor_temp` with `t` and then copies it to `dst` through `f`. -/
theorem computes_of_temp {m : Mem α} {c : Prog α Unit} {k : Nat} {t : List α} {n : Nat} (f : α → α)
    (hn : t.length = n) (hd : n ≤ m.size (.out k))
    (hc : ∃ m', c m = some ((), m') ∧ Holds m' .temp t ∧ OnlyChanges [.temp] m m') :
    Computes (andThen c fun _ => copyMap n .temp (.out k) f) m (.out k) (t.map f) := by
  obtain ⟨m1, e1, h1, c1⟩ := hc
  subst hn
  obtain ⟨m2, e2, h2, c2⟩ := copy_holds (fun _ => f) h1 (dst := .out k) (by rw [c1.1]; exact hd)
  refine ⟨m2, by rw [andThen_run e1]; exact e2, ?_, ?_⟩
  · have : t.mapIdx (fun _ => f) = t.map f := by apply List.ext_getElem <;> simp
    rw [this] at h2; exact h2
  · refine ⟨by rw [c2.1, c1.1], fun b hb => ?_⟩
    simp only [List.mem_cons, List.not_mem_nil, or_false, not_or] at hb
    rw [c2.2 b (by simp [hb.1]), c1.2 b (by simp [hb.2])]

/-- An accumulation loop: `acc += g(i)`. -/
theorem foldN_sum {R : Type} [AddCommMonoid R] (n : Nat) (init : R) (body : Nat → R → Prog α R)
    (m : Mem α) (g : Nat → R) (h : ∀ i b, i < n → body i b m = some (b + g i, m)) :
    foldN n init body m = some (init + ∑ i ∈ Finset.range n, g i, m) := by
  induction n with
  | zero => simp [foldN_zero]
  | succ n ih =>
    rw [foldN_succ, andThen_run (ih (fun i b hi => h i b (by omega))), h n _ (by omega),
      Finset.sum_range_succ, add_assoc]

theorem store_upd {m : Mem α} {b : Buf} {u : Nat → Option α} {a : Nat} {v : α} (h : a < m.size b) :
    store b (a : Int) v (m.upd b u) = some ((), (m.upd b u).upd b (single a v)) :=
  store_nat (by simpa using h)

theorem load_upd_ne {m : Mem α} {b b' : Buf} (hne : b' ≠ b) {u : Nat → Option α} {a : Nat}
    (h : a < m.size b') : load b' (a : Int) (m.upd b u) = some (m.val b' a, m.upd b u) := by
  rw [load_nat (by simpa using h), Mem.upd_val_ne _ hne]

end Verif

namespace Verif
open Prog
variable {α : Type}

/-- value of a loop-carried cell after `n` iterations -/
def iter {β : Type} (step : Nat → β → β) (t0 : β) : Nat → β
  | 0 => t0
  | n + 1 => step n (iter step t0 n)

theorem iter_add {R : Type} [AddCommMonoid R] (g : Nat → R) (t0 : R) (n : Nat) :
    iter (fun k t => t + g k) t0 n = t0 + ∑ k ∈ Finset.range n, g k := by
  induction n with
  | zero => simp [iter]
  | succ n ih => rw [iter, ih, Finset.sum_range_succ, add_assoc]

/-- A loop that repeatedly updates one cell of the array it writes. -/
theorem forN_accum {m : Mem α} {b : Buf} {u : Nat → Option α} {a : Nat} (n : Nat)
    (body : Nat → Prog α Unit) (step : Nat → α → α) (t0 : α)
    (h : ∀ k t, k < n → body k (m.upd b (overW u (single a t)))
      = some ((), m.upd b (overW u (single a (step k t))))) :
    forN n body (m.upd b (overW u (single a t0)))
      = some ((), m.upd b (overW u (single a (iter step t0 n)))) := by
  unfold forN
  induction n with
  | zero => rfl
  | succ n ih =>
    rw [foldN_succ, andThen_run (ih (fun k t hk => h k t (by omega))), h n _ (by omega)]
    rfl

theorem foldN_iter {β : Type} (n : Nat) (init : β) (body : Nat → β → Prog α β) (m : Mem α)
    (step : Nat → β → β) (h : ∀ i b, i < n → body i b m = some (step i b, m)) :
    foldN n init body m = some (iter step init n, m) := by
  induction n with
  | zero => rfl
  | succ n ih =>
    rw [foldN_succ, andThen_run (ih (fun i b hi => h i b (by omega))), h n _ (by omega)]
    rfl

theorem overW_single_same (u : Nat → Option α) (a : Nat) (s t : α) :
    overW (overW u (single a s)) (single a t) = overW u (single a t) := by
  funext x; simp only [overW, single]; by_cases h : x = a <;> simp [h]

theorem upd_cell_val {m : Mem α} {b : Buf} {u : Nat → Option α} {a : Nat} {t : α} :
    (m.upd b (overW u (single a t))).val b a = t := by
  simp [Mem.upd_val_same, overW, single]

/-- re-writing the cell that has just been written -/
theorem store_cell {m : Mem α} {b : Buf} {u : Nat → Option α} {a : Nat} {s t : α} (h : a < m.size b) :
    store b (a : Int) t (m.upd b (overW u (single a s)))
      = some ((), m.upd b (overW u (single a t))) := by
  rw [store_upd h, Mem.upd_upd, overW_single_same]

theorem load_cell {m : Mem α} {b : Buf} {u : Nat → Option α} {a : Nat} {s : α} (h : a < m.size b) :
    load b (a : Int) (m.upd b (overW u (single a s))) = some (s, m.upd b (overW u (single a s))) := by
  rw [load_nat (by simpa using h), upd_cell_val]

theorem andThen_assoc {β γ δ : Type} (p : Prog α β) (q : β → Prog α γ) (r : γ → Prog α δ) :
    andThen (andThen p q) r = andThen p fun b => andThen (q b) r := by
  funext m
  simp only [andThen]
  cases p m with
  | none => rfl
  | some x => rfl

end Verif

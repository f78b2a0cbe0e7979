import Verif.Layers.Norm
import Verif.Props.Move
import Mathlib.Algebra.Field.Rat
import Mathlib.Analysis.SpecialFunctions.Exp
import Mathlib.Analysis.SpecialFunctions.Sqrt
import Mathlib.Tactic.FieldSimp

/-!
# C25 and C26: Softmax and BatchNormalization
-/

namespace Verif.Layers
open Prog
variable {α : Type}

/-! ## C25 Softmax -/

theorem computes_of_changes {m m' : Mem α} {c : Prog α Unit} {b : Buf} {t : List α}
    (e : c m = some ((), m')) (h : Holds m' b t) (k : OnlyChanges [b] m m') : Computes c m b t :=
  ⟨m', e, h, k.mono (by simp)⟩

/-- the size of the line of the tensor along an axis -/
def axisDim (C H W : Nat) : Axis → Nat
  | .c => C
  | .h => H
  | .w => W

/-- The element of `x` at distance `k` along the axis, on the line through `(f, i, j)`. -/
def along (x : Nat → Nat → Nat → α) (axis : Axis) (f i j k : Nat) : α :=
  match axis with
  | .c => x k i j
  | .h => x f k j
  | .w => x f i k

/-- **Specification of softmax** of the `C × H × W` tensor `x` along an axis. -/
def softmaxSpec [AddCommMonoid α] [Div α] (exp : α → α) (C H W : Nat) (axis : Axis) (x : Nat → Nat → Nat → α)
    (f i j : Nat) : α :=
  exp (x f i j) / ∑ k ∈ Finset.range (axisDim C H W axis), exp (along x axis f i j k)

/-- The Python reference, for a tensor that is not one-dimensional, is softmax along the axis. -/
theorem C25_forward [AddCommMonoid α] [Div α] (exp : α → α) (C H W : Nat) (axis : Axis)
    (x : Nat → Nat → Nat → α) (f i j : Nat) :
    softmaxForward3 exp C H W axis x f i j = softmaxSpec exp C H W axis x f i j := by
  cases axis <;> rfl

/-- the one-dimensional branch -/
theorem softmax1_computes [AddCommMonoid α] [Div α] (exp : α → α) (n road : Nat) (act : α → α) (src : Buf)
    (x : Nat → α) (m : Mem α) (hx : Holds m src (tensor n x)) (ho : n ≤ m.size (.out road)) :
    Computes (softmaxCode1 exp n act src road) m (.out road)
      (tensor n fun i => act (softmaxForward1 exp n x i)) := by
  have hx' := holds_tensor.1 hx
  have hsum : foldN n 0 (fun i sum => load src (i : Int) >>= fun v => pure (sum + exp v)) m
      = some (∑ k ∈ Finset.range n, exp (x k), m) := by
    have := foldN_sum n 0 (fun i sum => load src (i : Int) >>= fun v => (pure (sum + exp v) : Prog α α)) m
      (fun k => exp (x k)) (fun i b hi => by
        refine (andThen_run (load_nat (by omega))).trans ?_
        rw [hx'.2 i hi]; rfl)
    rwa [zero_add] at this
  have hloop := forN_fresh (m := m) (b := .out road) n (fun j => load src (j : Int) >>= fun v =>
      store (.out road) (j : Int) (exp v / ∑ k ∈ Finset.range n, exp (x k)) >>= fun _ =>
      load (.out road) (j : Int) >>= fun y => store (.out road) (j : Int) (act y))
    (fun i => act (softmaxForward1 exp n x i)) (fun j u hj hu => by
      refine (andThen_run (load_fresh hu (by omega))).trans ?_
      rw [hx'.2 j hj]
      have ha : j < m.size (.out road) := by omega
      refine (andThen_run (store_upd ha)).trans ?_
      rw [Mem.upd_upd]
      refine (andThen_run (load_cell ha)).trans ?_
      rw [store_cell ha, Mem.upd_upd]; rfl)
  refine computes_of_changes (m' := m.upd (.out road) (firstN n fun i => act (softmaxForward1 exp n x i)))
    ?_ (holds_tensor.2 ⟨ho, fun a ha => ?_⟩) (OnlyChanges.upd m (by simp) _)
  · exact (andThen_run hsum).trans hloop
  · rw [Mem.upd_val_same, firstN, if_pos ha]; rfl

/-- first loop nest: the sums along the axis, in `tensor_temp` -/
theorem softmax_sums [AddCommMonoid α] {exp : α → α} {d1 d2 red : Nat} {pos1 : Nat → Nat → Nat}
    {pos2 : Nat → Nat → Nat → Nat} {src : Buf} {e : Nat → Nat → Nat → α} {m : Mem α} (hs : src ≠ .temp)
    (hpos1 : ∀ f i, pos1 f i = i + d2 * f) (ht : d1 * d2 ≤ m.size .temp)
    (hl : ∀ f i j, f < d1 → i < d2 → j < red → pos2 f i j < m.size src ∧ exp (m.val src (pos2 f i j)) = e f i j) :
    ∃ m', (forN d1 fun f => forN d2 fun i => (do
        store .temp (pos1 f i : Int) 0
        forN red fun j => do
          let t ← load .temp (pos1 f i : Int)
          let x ← load src (pos2 f i j : Int)
          store .temp (pos1 f i : Int) (t + exp x) : Prog α Unit)) m = some ((), m') ∧
      Holds m' .temp (matrix d1 d2 fun f i => ∑ k ∈ Finset.range red, e f i k) ∧ OnlyChanges [.temp] m m' := by
  refine loop2_holds .temp d1 d2 _ _ ht ?_
  intro f i u hf hi
  have hz : (pos1 f i : Int) = ((f * d2 + i : Nat) : Int) := by rw [hpos1]; push_cast; ring
  have ha : f * d2 + i < m.size .temp := by
    have := pair_lt hi hf
    calc f * d2 + i = i + d2 * f := by ring
      _ < d2 * d1 := this
      _ ≤ _ := by rw [Nat.mul_comm]; exact ht
  have hup : Updates .temp m (forN red fun j => do
          let t ← load .temp (pos1 f i : Int)
          let x ← load src (pos2 f i j : Int)
          store .temp (pos1 f i : Int) (t + exp x)) (f * d2 + i) 0 (iter (fun j t => t + e f i j) 0 red) := by
    refine Updates.forN fun j t hj => ?_
    obtain ⟨h1, h2⟩ := hl f i j hf hi hj
    refine Updates.loadSelf ha hz ?_
    refine Updates.bind (Evals.load hs h1) ?_
    exact Updates.store ha hz (by rw [h2])
  rw [iter_add, zero_add] at hup
  exact Stores.seq (Stores.store hz ha rfl) hup u

/-- the general branch -/
theorem softmax3_computes [AddCommMonoid α] [Div α] (exp : α → α) (C H W road : Nat) (axis : Axis) (src : Buf)
    (x : Nat → Nat → Nat → α) (m : Mem α) (hs : src ≠ .temp) (hx : Holds m src (tensor3 C H W x))
    (hpos : 0 < C ∧ 0 < H ∧ 0 < W)
    (ht : C * H * W ≤ m.size .temp) (ho : C * H * W ≤ m.size (.out road)) :
    Computes (softmaxCode3 exp C H W axis src road) m (.out road)
      (tensor3 C H W (softmaxSpec exp C H W axis x)) := by
  have hx' := holds_tensor3.1 hx
  obtain ⟨hC, hH, hW⟩ := hpos
  -- the second loop nest, given the sums
  have second : ∀ (m1 : Mem α) (indice : Nat → Nat → Nat → Nat), OnlyChanges [.temp] m m1 →
      (∀ f i j, f < C → i < H → j < W → indice f i j < m1.size .temp ∧ m1.val .temp (indice f i j) =
        ∑ k ∈ Finset.range (axisDim C H W axis), exp (along x axis f i j k)) →
      ∃ m2, loop3 C H W (fun f i j => (do
          let x ← load src (at3 H W f i j : Int)
          let s ← load .temp (indice f i j : Int)
          store (.out road) (at3 H W f i j : Int) (exp x / s) : Prog α Unit)) m1 = some ((), m2) ∧
        Holds m2 (.out road) (tensor3 C H W (softmaxSpec exp C H W axis x)) ∧ OnlyChanges [.out road] m1 m2 := by
    intro m1 indice hc hind
    refine loop3_fresh (.out road) C H W _ _ (by rw [hc.1]; exact ho) ?_
    intro f i j u hf hi hj hu
    have hlt := at3_lt hf hi hj
    refine (andThen_run (load_fresh hu (by rw [hc.1]; exact Nat.lt_of_lt_of_le hlt hx'.1))).trans ?_
    obtain ⟨h1, h2⟩ := hind f i j hf hi hj
    refine (andThen_run (load_upd_ne (by simp) h1)).trans ?_
    rw [h2, hc.2 src (by simpa using hs), hx'.2 f i j hf hi hj]
    exact store_upd (by rw [hc.1]; omega)
  have fin : ∀ {p : Prog α Unit} {q : Prog α Unit} {m1 m2 : Mem α}, p m = some ((), m1) → OnlyChanges [.temp] m m1 →
      q m1 = some ((), m2) → Holds m2 (.out road) (tensor3 C H W (softmaxSpec exp C H W axis x)) →
      OnlyChanges [.out road] m1 m2 →
      Computes (p >>= fun _ => q) m (.out road) (tensor3 C H W (softmaxSpec exp C H W axis x)) := by
    intro p q m1 m2 e1 k1 e2 h2 k2
    exact ⟨m2, (andThen_run e1).trans e2, h2, (k1.mono (by simp)).trans (k2.mono (by simp))⟩
  cases axis with
  | c =>
    obtain ⟨m1, e1, h1, k1⟩ := softmax_sums (exp := exp) (d1 := H) (d2 := W) (red := C) (pos1 := fun f i => i + W * f)
      (pos2 := fun f i j => i + W * (f + H * j)) (src := src) (e := fun i j k => exp (x k i j)) (m := m) hs
      (fun _ _ => rfl) (le_trans (by rw [Nat.mul_assoc]; exact Nat.le_mul_of_pos_left _ hC) ht) (fun f i j hf hi hj => by
        have : i + W * (f + H * j) = at3 H W j f i := rfl
        rw [this, hx'.2 j f i hj hf hi]
        exact ⟨Nat.lt_of_lt_of_le (at3_lt hj hf hi) hx'.1, rfl⟩)
    rw [holds_matrix] at h1
    obtain ⟨m2, e2, h2, k2⟩ := second m1 (fun f i j => j + W * i) k1 (fun f i j hf hi hj => by
      have e : j + W * i = i * W + j := by ring
      have := pair_lt hj hi
      rw [e, h1.2 i j hi hj]
      exact ⟨Nat.lt_of_lt_of_le (by rw [← e, Nat.mul_comm H W]; exact this) h1.1, rfl⟩)
    exact fin e1 k1 e2 h2 k2
  | h =>
    obtain ⟨m1, e1, h1, k1⟩ := softmax_sums (exp := exp) (d1 := C) (d2 := W) (red := H) (pos1 := fun f i => i + W * f)
      (pos2 := fun f i j => i + W * (j + H * f)) (src := src) (e := fun f j k => exp (x f k j)) (m := m) hs
      (fun _ _ => rfl) (le_trans (by nlinarith [Nat.mul_le_mul_left C (Nat.mul_le_mul_right W hH)]) ht)
      (fun f i j hf hi hj => by
        have : i + W * (j + H * f) = at3 H W f j i := rfl
        rw [this, hx'.2 f j i hf hj hi]
        exact ⟨Nat.lt_of_lt_of_le (at3_lt hf hj hi) hx'.1, rfl⟩)
    rw [holds_matrix] at h1
    obtain ⟨m2, e2, h2, k2⟩ := second m1 (fun f i j => j + W * f) k1 (fun f i j hf hi hj => by
      have e : j + W * f = f * W + j := by ring
      have := pair_lt hj hf
      rw [e, h1.2 f j hf hj]
      exact ⟨Nat.lt_of_lt_of_le (by rw [← e, Nat.mul_comm C W]; exact this) h1.1, rfl⟩)
    exact fin e1 k1 e2 h2 k2
  | w =>
    obtain ⟨m1, e1, h1, k1⟩ := softmax_sums (exp := exp) (d1 := C) (d2 := H) (red := W) (pos1 := fun f i => i + H * f)
      (pos2 := fun f i j => j + W * (i + H * f)) (src := src) (e := fun f i k => exp (x f i k)) (m := m) hs
      (fun _ _ => rfl) (le_trans (Nat.le_mul_of_pos_right _ hW) ht)
      (fun f i j hf hi hj => by
        have : j + W * (i + H * f) = at3 H W f i j := rfl
        rw [this, hx'.2 f i j hf hi hj]
        exact ⟨Nat.lt_of_lt_of_le (at3_lt hf hi hj) hx'.1, rfl⟩)
    rw [holds_matrix] at h1
    obtain ⟨m2, e2, h2, k2⟩ := second m1 (fun f i j => i + H * f) k1 (fun f i j hf hi hj => by
      have e : i + H * f = f * H + i := by ring
      have := pair_lt hi hf
      rw [e, h1.2 f i hf hi]
      exact ⟨Nat.lt_of_lt_of_le (by rw [← e, Nat.mul_comm C H]; exact this) h1.1, rfl⟩)
    exact fin e1 k1 e2 h2 k2

/-- what the constructor calls "one-dimensional": one of the dimensions is the whole size -/
theorem softmaxOneDim_iff {C H W : Nat} : softmaxOneDim (C * H * W) C H W = true ↔
    C * H * W = 1 ∨ C * H * W = C ∨ C * H * W = H ∨ C * H * W = W := by
  simp [softmaxOneDim]

/-- **C25.** Whatever the shape, the axis and the memory (the source may be the destination), if the
dimension along the axis is the whole tensor whenever the tensor is treated as one-dimensional, the
generated code leaves the softmax along the axis and the Python reference computes the same. -/
theorem C25_softmax_partial [AddCommMonoid α] [Div α] (exp : α → α) (C H W road : Nat) (axis : Axis) (src : Buf)
    (x : Nat → Nat → Nat → α) (m : Mem α) (hs : src ≠ .temp) (hx : Holds m src (tensor3 C H W x))
    (hax : softmaxOneDim (C * H * W) C H W = true → axisDim C H W axis = C * H * W)
    (ht : C * H * W ≤ m.size .temp) (ho : C * H * W ≤ m.size (.out road)) :
    ∃ code, softmaxCode exp (C * H * W) C H W (some axis) id src road = some code ∧
      Computes code m (.out road) (tensor3 C H W (softmaxSpec exp C H W axis x)) ∧
      (softmaxOneDim (C * H * W) C H W = true → ∀ f i j, f < C → i < H → j < W →
        softmaxForward1 exp (C * H * W) (fun a => x (a / W / H) (a / W % H) (a % W)) (at3 H W f i j) =
          softmaxSpec exp C H W axis x f i j) ∧
      (softmaxOneDim (C * H * W) C H W = false → ∀ f i j, f < C → i < H → j < W →
        softmaxForward3 exp C H W axis x f i j = softmaxSpec exp C H W axis x f i j) := by
  have fwd : softmaxOneDim (C * H * W) C H W = true → ∀ f i j, f < C → i < H → j < W →
        softmaxForward1 exp (C * H * W) (fun a => x (a / W / H) (a / W % H) (a % W)) (at3 H W f i j) =
          softmaxSpec exp C H W axis x f i j := by
    intro h1 f i j hf hi hj
    have hd := hax h1
    have ev : ∀ f i j, i < H → j < W → (fun a => x (a / W / H) (a / W % H) (a % W)) (at3 H W f i j) = x f i j := by
      intro f i j hi hj
      simp only [at3, pair_div hj, pair_div hi, pair_mod hj, pair_mod hi]
    unfold softmaxForward1 softmaxSpec
    rw [ev f i j hi hj, hd]
    congr 1
    refine Finset.sum_congr rfl fun k hk => ?_
    rw [Finset.mem_range] at hk
    congr 1
    have hCp : 0 < C := by omega
    have hHp : 0 < H := by omega
    have hWp : 0 < W := by omega
    have one : ∀ {a b : Nat}, 0 < a → a * b = a → b = 1 := by
      intro a b ha h; exact Nat.eq_of_mul_eq_mul_left ha (by rw [h, Nat.mul_one])
    cases axis with
    | c =>
      simp only [axisDim] at hd
      have h2 : H * W = 1 := one hCp (by rw [← Nat.mul_assoc, ← hd])
      have h3 : H = 1 := Nat.eq_one_of_mul_eq_one_right h2
      have h4 : W = 1 := Nat.eq_one_of_mul_eq_one_left h2
      subst h3; subst h4
      obtain rfl : i = 0 := by omega
      obtain rfl : j = 0 := by omega
      simp [along, Nat.mod_one]
    | h =>
      simp only [axisDim] at hd
      have h2 : C * W = 1 := one hHp (by rw [← Nat.mul_assoc, Nat.mul_comm H C, ← hd])
      have h3 : C = 1 := Nat.eq_one_of_mul_eq_one_right h2
      have h4 : W = 1 := Nat.eq_one_of_mul_eq_one_left h2
      subst h3; subst h4
      obtain rfl : f = 0 := by omega
      obtain rfl : j = 0 := by omega
      have hk' : k < H := by simpa using hk
      simp [along, Nat.mod_one, Nat.div_eq_of_lt hk', Nat.mod_eq_of_lt hk']
    | w =>
      simp only [axisDim] at hd
      have h2 : C * H = 1 := one hWp (by rw [Nat.mul_comm, ← hd])
      have h3 : C = 1 := Nat.eq_one_of_mul_eq_one_right h2
      have h4 : H = 1 := Nat.eq_one_of_mul_eq_one_left h2
      subst h3; subst h4
      obtain rfl : f = 0 := by omega
      obtain rfl : i = 0 := by omega
      have hk' : k < W := by simpa using hk
      simp [along, Nat.div_eq_of_lt hk', Nat.mod_eq_of_lt hk']
  unfold softmaxCode
  by_cases h1 : softmaxOneDim (C * H * W) C H W = true
  · rw [if_pos h1]
    refine ⟨_, rfl, ?_, fwd, by simp [h1]⟩
    have hfl : tensor3 C H W x = tensor (C * H * W) (fun a => x (a / W / H) (a / W % H) (a % W)) := by
      apply List.ext_getElem
      · simp [tensor3_length]
      · intro a ha hb
        rw [tensor3_length] at ha
        obtain ⟨f, i, j, hf, hi, hj, rfl⟩ := at3_surj ha
        rw [tensor3_get _ _ _ _ hf hi hj]
        simp [at3, pair_div hj, pair_div hi, pair_mod hj, pair_mod hi]
    rw [hfl] at hx
    refine Eq.mp (congrArg (Computes _ _ _) ?_)
      (softmax1_computes exp (C * H * W) road id src _ m hx ho)
    apply List.ext_getElem
    · simp [tensor3_length]
    · intro a ha hb
      simp only [tensor_length] at ha
      obtain ⟨f, i, j, hf, hi, hj, rfl⟩ := at3_surj ha
      rw [tensor3_get _ _ _ _ hf hi hj]
      simpa using fwd h1 f i j hf hi hj
  · rw [if_neg h1]
    refine ⟨_, rfl, ?_, fwd, fun _ f i j _ _ _ => C25_forward exp C H W axis x f i j⟩
    refine softmax3_computes exp C H W road axis src x m hs hx ?_ ht ho
    rw [softmaxOneDim_iff] at h1
    push Not at h1
    refine ⟨?_, ?_, ?_⟩ <;> rcases Nat.eq_zero_or_pos _ with h0 | h0 <;> first | exact h0 | skip
    all_goals subst h0; simp at h1

/-- **C25, probability distribution.** Over the reals the softmax of a non-empty line is positive and
sums to one along the axis. -/
theorem C25_distribution (C H W : Nat) (axis : Axis) (x : Nat → Nat → Nat → ℝ) (f i j : Nat)
    (hpos : 0 < axisDim C H W axis) :
    0 < softmaxSpec Real.exp C H W axis x f i j ∧
    ∑ k ∈ Finset.range (axisDim C H W axis), along (softmaxSpec Real.exp C H W axis x) axis f i j k = 1 := by
  have hs : 0 < ∑ k ∈ Finset.range (axisDim C H W axis), Real.exp (along x axis f i j k) :=
    Finset.sum_pos (fun _ _ => Real.exp_pos _) ⟨0, Finset.mem_range.2 hpos⟩
  refine ⟨div_pos (Real.exp_pos _) hs, ?_⟩
  have e : ∀ k, along (softmaxSpec Real.exp C H W axis x) axis f i j k =
      Real.exp (along x axis f i j k) / ∑ k ∈ Finset.range (axisDim C H W axis), Real.exp (along x axis f i j k) := by
    intro k; cases axis <;> rfl
  simp only [e]
  simp only [div_eq_mul_inv]
  rw [← Finset.sum_mul, mul_inv_cancel₀ hs.ne']

/-- The axis is ignored when the tensor has one dimension only: for the shape `(1, 2, 1, 1)` and the
axis 3 every line has one element, so softmax is 1 everywhere, but the generated code and the
reference normalise over the two channels (here with the function `x ↦ x + 1` for `exp`). -/
theorem C25_fails_ignored_axis :
    softmaxSpec (α := ℚ) (fun v => v + 1) 2 1 1 .w (fun _ _ _ => 0) 0 0 0 = 1 ∧
    softmaxForward1 (α := ℚ) (fun v => v + 1) 2 (fun _ => 0) 0 = 1 / 2 ∧
    ∃ code, softmaxCode (α := ℚ) (fun v => v + 1) 2 2 1 1 (some .w) id (.out 0) 1 = some code ∧
      (code ⟨fun _ => 2, fun _ _ => 0⟩).map (fun r => r.2.val (.out 1) 0) = some (1 / 2) := by
  refine ⟨by simp [softmaxSpec, axisDim, along], ?_, _, rfl, ?_⟩
  · simp [softmaxForward1]
  · decide +kernel

/-- With no axis and a tensor of several dimensions no C is generated, though the reference normalises
over the whole tensor. -/
theorem C25_fails_no_axis [Zero α] [Add α] [Div α] (exp act : α → α) (src : Buf) (road : Nat) :
    softmaxCode exp 4 1 2 2 none act src road = none := rfl

/-- the hypotheses of `C25_softmax_partial` are met: a `2 × 2 × 1` tensor, in place -/
example : ∃ code, softmaxCode (fun v : ℚ => v + 1) 4 2 2 1 (some .c) id (.out 0) 0 = some code ∧
    Computes code ⟨fun _ => 4, fun _ a => (a : ℚ)⟩ (.out 0) [1 / 4, 2 / 6, 3 / 4, 4 / 6] := by
  obtain ⟨code, h1, h2, -⟩ := C25_softmax_partial (fun v : ℚ => v + 1) 2 2 1 0 .c (.out 0)
    (fun f i j => (at3 2 1 f i j : ℚ)) ⟨fun _ => 4, fun _ a => (a : ℚ)⟩ (by simp)
    (holds_tensor3.2 ⟨by simp, fun f i j _ _ _ => rfl⟩) (by simp [softmaxOneDim]) (by simp) (by simp)
  refine ⟨code, h1, Eq.mp (congrArg (Computes _ _ _) ?_) h2⟩
  simp [tensor3, softmaxSpec, axisDim, along, at3, List.range_succ, Finset.sum_range_succ]
  norm_num

/-! ## C26 BatchNormalization -/

/-- **C26.** For every shape, parameters and memory (the source may be the destination) the generated
code leaves the Python reference in the output array, in any field and with any function `sqrt`. -/
theorem C26_batch_norm [Field α] (sqrt : α → α) (C H W idx road : Nat) (eps : α) (act : α → α) (src : Buf)
    (scale mean var bias : Nat → α) (x : Nat → Nat → Nat → α) (m : Mem α)
    (hx : Holds m src (tensor3 C H W x))
    (hsc : Holds m (.par .scale idx) (tensor C scale)) (hme : Holds m (.par .mean idx) (tensor C mean))
    (hva : Holds m (.par .var idx) (tensor C var)) (hbi : Holds m (.par .biases idx) (tensor C bias))
    (ho : C * H * W ≤ m.size (.out road)) :
    Computes (batchNormCode sqrt C (H * W) idx eps act src road) m (.out road)
      (tensor3 C H W (batchNormForward sqrt eps act scale mean var bias x)) := by
  have hx' := holds_tensor3.1 hx
  rw [holds_tensor] at hsc hme hva hbi
  have he : matrix C (H * W) (fun f a => batchNormForward sqrt eps act scale mean var bias x f (a / W) (a % W)) =
      tensor3 C H W (batchNormForward sqrt eps act scale mean var bias x) := by
    apply List.ext_getElem
    · rw [matrix_length, tensor3_length]; ring
    · intro a ha hb
      have hb' := hb
      rw [tensor3_length] at hb'
      obtain ⟨f, i, j, hf, hi, hj, rfl⟩ := at3_surj hb'
      rw [tensor3_get _ _ _ _ hf hi hj]
      have hk : i * W + j < H * W := by
        have := pair_lt hj hi; rwa [Nat.mul_comm W i, Nat.mul_comm W H, Nat.add_comm] at this
      have e4 : at3 H W f i j = f * (H * W) + (i * W + j) := by unfold at3; ring
      have e1 : (i * W + j) / W = i := by rw [Nat.mul_comm i W, Nat.add_comm, pair_div hj]
      have e2 : (i * W + j) % W = j := by rw [Nat.mul_comm i W, Nat.add_comm, pair_mod hj]
      have := matrix_get C (H * W) (fun f a => batchNormForward sqrt eps act scale mean var bias x f (a / W) (a % W))
        hf hk (by rw [← e4]; exact ha)
      simp only [e1, e2] at this
      simpa only [e4] using this
  rw [← he]
  have hm : C * (H * W) = C * H * W := by ring
  obtain ⟨m', e, h, k⟩ := loop2_fresh (m := m) (.out road) C (H * W) (fun f k => (do
    let scale ← load (.par .scale idx) (f : Int)
    let x ← load src ((k + H * W * f : Nat) : Int)
    let mean ← load (.par .mean idx) (f : Int)
    let var ← load (.par .var idx) (f : Int)
    let bias ← load (.par .biases idx) (f : Int)
    store (.out road) ((k + H * W * f : Nat) : Int) (scale * (x - mean) / sqrt (var + eps) + bias)
    let y ← load (.out road) ((k + H * W * f : Nat) : Int)
    store (.out road) ((k + H * W * f : Nat) : Int) (act y) : Prog α Unit))
    (fun f a => batchNormForward sqrt eps act scale mean var bias x f (a / W) (a % W)) (by rw [hm]; exact ho)
    (fun f k u hf hk hu => by
      have hlt : k + H * W * f < C * H * W := by
        have := pair_lt hk hf; rwa [Nat.mul_comm (H * W) C, hm] at this
      obtain ⟨i, j, hi, hj, rfl⟩ := at2_surj hk
      have e1 : (i * W + j) / W = i := by rw [Nat.mul_comm i W, Nat.add_comm, pair_div hj]
      have e2 : (i * W + j) % W = j := by rw [Nat.mul_comm i W, Nat.add_comm, pair_mod hj]
      have e3 : i * W + j + H * W * f = at3 H W f i j := by unfold at3; ring
      have e4 : f * (H * W) + (i * W + j) = at3 H W f i j := by unfold at3; ring
      rw [e4] at hu ⊢
      rw [e3] at hlt ⊢
      rw [e1, e2]
      have ha : at3 H W f i j < m.size (.out road) := by omega
      refine (andThen_run (load_upd_ne (by simp) (by omega))).trans ?_
      refine (andThen_run (load_fresh hu (by omega))).trans ?_
      refine (andThen_run (load_upd_ne (by simp) (by omega))).trans ?_
      refine (andThen_run (load_upd_ne (by simp) (by omega))).trans ?_
      refine (andThen_run (load_upd_ne (by simp) (by omega))).trans ?_
      refine (andThen_run (store_upd ha)).trans ?_
      rw [Mem.upd_upd]
      refine (andThen_run (load_cell ha)).trans ?_
      rw [store_cell ha, Mem.upd_upd, hx'.2 f i j hf hi hj, hsc.2 f hf, hme.2 f hf, hva.2 f hf, hbi.2 f hf]
      have : scale f * (x f i j - mean f) / sqrt (var f + eps) + bias f =
        (x f i j - mean f) / sqrt (var f + eps) * scale f + bias f := by ring
      rw [this]; rfl)
  exact computes_of_changes e h k

/-- An element equal to the mean of its channel becomes the bias of the channel. -/
theorem C26_centre (eps : ℝ) (scale mean var bias : Nat → ℝ) (x : Nat → Nat → Nat → ℝ) (f i j : Nat)
    (h : x f i j = mean f) : batchNormForward Real.sqrt eps id scale mean var bias x f i j = bias f := by
  simp [batchNormForward, h]

/-- the hypotheses of `C26_batch_norm` are met: in place, two channels -/
example : Computes (batchNormCode id 2 2 7 (0 : ℚ) id (.out 0) 0) ⟨fun _ => 4, fun _ a => ((a + 1 : Nat) : ℚ)⟩ (.out 0)
    [1, 2, 3, 4] := by
  refine Eq.mp (congrArg (Computes _ _ _) ?_) (C26_batch_norm id 2 1 2 7 0 (0 : ℚ) id (.out 0)
    (fun a => ((a + 1 : Nat) : ℚ)) (fun a => ((a + 1 : Nat) : ℚ)) (fun a => ((a + 1 : Nat) : ℚ))
    (fun a => ((a + 1 : Nat) : ℚ)) (fun f i j => ((at3 1 2 f i j + 1 : Nat) : ℚ)) ⟨fun _ => 4, fun _ a => ((a + 1 : Nat) : ℚ)⟩
    (holds_tensor3.2 ⟨by simp, fun f i j _ _ _ => rfl⟩)
    (holds_tensor.2 ⟨by simp, fun _ _ => rfl⟩) (holds_tensor.2 ⟨by simp, fun _ _ => rfl⟩)
    (holds_tensor.2 ⟨by simp, fun _ _ => rfl⟩) (holds_tensor.2 ⟨by simp, fun _ _ => rfl⟩) (by simp))
  simp [tensor3, batchNormForward, at3, List.range_succ]
  norm_num

end Verif.Layers

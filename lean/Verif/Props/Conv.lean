import Verif.Layers.Conv
import Verif.CMem.Rows
import Verif.Props.Pad
import Mathlib.Algebra.BigOperators.Ring.Finset

/-!
# C11, C12: convolutions
-/

namespace Verif
variable {α : Type}

theorem tensor4_length (A B C D : Nat) (v : Nat → Nat → Nat → Nat → α) :
    (tensor4 A B C D v).length = A * (B * C * D) := by
  unfold tensor4
  exact flatMap_length_const _ _ _ (fun i => tensor3_length _ _ _ _)

theorem tensor4_get (A B C D : Nat) (v : Nat → Nat → Nat → Nat → α) {a b c d : Nat} (ha : a < A) (hb : b < B)
    (hc : c < C) (hd : d < D) (h : d + D * (c + C * (b + B * a)) < (tensor4 A B C D v).length) :
    (tensor4 A B C D v)[d + D * (c + C * (b + B * a))] = v a b c d := by
  have hlt : at3 C D b c d < (tensor3 B C D (v a)).length := by
    rw [tensor3_length]; exact at3_lt hb hc hd
  have hlt' : at3 C D b c d < B * C * D := at3_lt hb hc hd
  have e : d + D * (c + C * (b + B * a)) = a * (B * C * D) + at3 C D b c d := by unfold at3; ring
  have h' : a * (B * C * D) + at3 C D b c d < ((List.range A).flatMap fun a => tensor3 B C D (v a)).length := by
    rw [← e]; exact h
  have := flatMap_get_const A (B * C * D) (fun a => tensor3 B C D (v a)) (fun i => tensor3_length _ _ _ _)
    ha hlt' h'
  simp only [e]
  refine this.trans ?_
  exact tensor3_get B C D (v a) hb hc hd hlt

theorem Evals.load4 {b b' : Buf} {m : Mem α} {A B C D a b0 c d : Nat} {v : Nat → Nat → Nat → Nat → α} {z : Int}
    (hne : b' ≠ b) (h : Holds m b' (tensor4 A B C D v)) (ha : a < A) (hb : b0 < B) (hc : c < C) (hd : d < D)
    (hz : z = ((d + D * (c + C * (b0 + B * a)) : Nat) : Int)) : Evals b m (Prog.load b' z) (v a b0 c d) := by
  have hlt : d + D * (c + C * (b0 + B * a)) < (tensor4 A B C D v).length := by
    rw [tensor4_length]
    have h1 := at3_lt hb hc hd
    have h2 : d + D * (c + C * (b0 + B * a)) = at3 C D b0 c d + (B * C * D) * a := by unfold at3; ring
    rw [h2, Nat.mul_comm A]
    exact pair_lt h1 ha
  refine Evals.load' hne hz (Nat.lt_of_lt_of_le hlt h.1) ?_
  rw [h.2 _ hlt, tensor4_get A B C D v ha hb hc hd hlt]


namespace Layers
open Prog

/-! ## Specification -/

/-- the input extended by zeros outside its bounds -/
def zeroExt [Zero α] (H W : Nat) (x : Nat → Nat → Nat → α) (p : Nat) (a b : Int) : α :=
  if 0 ≤ a ∧ a < H ∧ 0 ≤ b ∧ b < W then x p a.toNat b.toNat else 0

/-- The convolution: for filter `f` and output position `(i, j)`, the weights times the zero-extended input
at the strided, dilated positions, plus the bias, activated. -/
def convSpec [AddCommMonoid α] [Mul α] (c : ConvP) (act : α → α) (wt : Nat → Nat → Nat → Nat → α)
    (bias : Nat → α) (x : Nat → Nat → Nat → α) (f i j : Nat) : α :=
  act ((∑ p ∈ Finset.range c.inC, ∑ h ∈ Finset.range c.kh, ∑ w ∈ Finset.range c.kw,
    wt f p h w * zeroExt c.inH c.inW x p ((i : Int) * c.stride + h * c.dil - c.padTop)
      ((j : Int) * c.stride + w * c.dil - c.padLeft)) + bias f)

/-! ## C11 the 6loops implementation -/

/-- **C11, code.** The generated 6loops code computes the (strided, dilated, zero-padded) convolution,
for all dimensions, without out-of-bounds access, also in place. -/
theorem C11_conv6_code [CommSemiring α] (c : ConvP) (size idx road : Nat) (act : α → α) (src : Buf)
    (wt : Nat → Nat → Nat → Nat → α) (bias : Nat → α) (x : Nat → Nat → Nat → α) (m : Mem α)
    (hsrc : src ≠ .temp) (hx : Holds m src (tensor3 c.inC c.inH c.inW x))
    (hw : Holds m (.par .weights idx) (tensor4 c.filters c.inC c.kh c.kw wt))
    (hb : Holds m (.par .biases idx) (tensor c.filters bias))
    (hsize : size = c.filters * c.outH * c.outW)
    (ht : size ≤ m.size .temp) (ho : size ≤ m.size (.out road)) :
    Computes (conv6Code c size idx act src road) m (.out road)
      (tensor3 c.filters c.outH c.outW (convSpec c act wt bias x)) := by
  refine kernel3 (h := id) hsize ht ho fun f i j hf hi hj ha => ?_
  refine Stores.bind (v := ∑ p ∈ Finset.range c.inC, ∑ h ∈ Finset.range c.kh, ∑ w ∈ Finset.range c.kw,
    wt f p h w * zeroExt c.inH c.inW x p ((i : Int) * c.stride + h * c.dil - c.padTop)
      ((j : Int) * c.stride + w * c.dil - c.padLeft)) ?_
    (Stores.bind (Evals.load1 (by simp) hb hf rfl) (Stores.store rfl ha rfl))
  rw [← zero_add (∑ p ∈ _, _)]
  refine Evals.foldN_sum fun p acc hp => Evals.foldN_sum fun h acc hh => Evals.foldN_sum fun w acc hw' => ?_
  unfold zeroExt
  by_cases hc : (0 ≤ (i : Int) * c.stride + h * c.dil - c.padTop ∧
      (i : Int) * c.stride + h * c.dil - c.padTop < c.inH ∧
      0 ≤ (j : Int) * c.stride + w * c.dil - c.padLeft ∧ (j : Int) * c.stride + w * c.dil - c.padLeft < c.inW)
  · rw [if_pos hc, if_pos hc]
    obtain ⟨h1, h2, h3, h4⟩ := hc
    generalize (i : Int) * c.stride + h * c.dil - c.padTop = ii at *
    generalize (j : Int) * c.stride + w * c.dil - c.padLeft = jj at *
    refine (Evals.load3 hsrc hx hp (i := ii.toNat) (j := jj.toNat) (by omega) (by omega) ?_).bind
      ((Evals.load4 (by simp) hw hf hp hh hw' rfl).bind ?_)
    · unfold at3; push_cast [Int.toNat_of_nonneg h1, Int.toNat_of_nonneg h3]; ring
    · rw [mul_comm (wt f p h w)]; exact Evals.pure _ _ _
  · rw [if_neg hc, if_neg hc, mul_zero, add_zero]
    exact Evals.pure _ _ _

/-- the zero-extended input at a position of the padded array -/
theorem convPadded_eq [Zero α] (c : ConvP) (x : Nat → Nat → Nat → α) (p a b : Nat)
    (ha : a < c.inH + c.padTop + c.padBottom) (hb : b < c.inW + c.padLeft + c.padRight) :
    convPadded c x p a b = zeroExt c.inH c.inW x p ((a : Int) - c.padTop) ((b : Int) - c.padLeft) := by
  unfold convPadded zeroExt
  split
  · next h =>
    dsimp only
    by_cases hc : c.padTop ≤ a ∧ a < c.padTop + c.inH ∧ c.padLeft ≤ b ∧ b < c.padLeft + c.inW
    · rw [if_pos hc, if_pos (by omega)]
      congr 1 <;> omega
    · rw [if_neg hc, if_neg (by omega)]
  · next h =>
    have h1 : c.padTop = 0 := by omega
    have h2 : c.padLeft = 0 := by omega
    rw [if_pos (by omega)]
    congr 1 <;> omega

/-- The checks of the constructor make every window fit in the padded input. -/
theorem accepted_fits (c : ConvP) (h : c.Accepted) :
    (∀ i, i < c.outH → i * c.stride + (c.kh - 1) * c.dil + 1 ≤ c.inH + c.padTop + c.padBottom) ∧
    (∀ j, j < c.outW → j * c.stride + (c.kw - 1) * c.dil + 1 ≤ c.inW + c.padLeft + c.padRight) := by
  obtain ⟨hs, hd, hkh, hkw, e1, e2⟩ := h
  have fits : ∀ (out inp k pad : Nat), 1 ≤ k → 
      (out : Int) = Int.fdiv ((inp : Int) + pad - k - ((k : Int) - 1) * ((c.dil : Int) - 1)) c.stride + 1 →
      ∀ i, i < out → i * c.stride + (k - 1) * c.dil + 1 ≤ inp + pad := by
    intro out inp k pad hk e i hi
    have hs0 : (0 : Int) < c.stride := by omega
    rw [Int.fdiv_eq_ediv_of_nonneg _ (by omega)] at e
    have hle := Int.mul_ediv_self_le (x := (inp : Int) + pad - k - ((k : Int) - 1) * ((c.dil : Int) - 1))
      (k := c.stride) (by omega)
    have hi' : (i : Int) ≤ (out : Int) - 1 := by omega
    rw [e] at hi'
    have h2 : (c.stride : Int) * i ≤ c.stride * (((inp : Int) + pad - k - ((k : Int) - 1) * ((c.dil : Int) - 1)) / c.stride) :=
      Int.mul_le_mul_of_nonneg_left (by omega) (by omega)
    have h3 : (i * c.stride : Int) ≤ (inp : Int) + pad - k - ((k : Int) - 1) * ((c.dil : Int) - 1) := by
      rw [mul_comm]; omega
    zify [hk]
    linarith
  refine ⟨fun i hi => ?_, fun j hj => ?_⟩
  · have := fits c.outH c.inH c.kh (c.padTop + c.padBottom) hkh (by rw [e1]; congr 2; push_cast; ring) i hi
    omega
  · have := fits c.outW c.inW c.kw (c.padLeft + c.padRight) hkw (by rw [e2]; congr 2; push_cast; ring) j hj
    omega

/-- **C11, reference** (partial: dilation rate 1). For every layer the constructor accepts, the Python
reference is defined and is the convolution. -/
theorem C11_conv_forward_partial [CommSemiring α] (c : ConvP) (act : α → α)
    (wt : Nat → Nat → Nat → Nat → α) (bias : Nat → α) (x : Nat → Nat → Nat → α) (hacc : c.Accepted)
    (hdil : c.dil = 1) :
    ∃ r, convForward c act wt bias x = some r ∧ r.C = c.filters ∧ r.H = c.outH ∧ r.W = c.outW ∧
      r.flat = tensor3 c.filters c.outH c.outW (convSpec c act wt bias x) := by
  obtain ⟨f1, f2⟩ := accepted_fits c hacc
  obtain ⟨-, -, hkh, hkw, -, -⟩ := hacc
  have hfit : (∀ i, i < c.outH → i * c.stride + c.kh ≤ c.inH + c.padTop + c.padBottom) ∧
     (∀ j, j < c.outW → j * c.stride + c.kw ≤ c.inW + c.padLeft + c.padRight) := by
    refine ⟨fun i hi => ?_, fun j hj => ?_⟩
    · have := f1 i hi; rw [hdil] at this; omega
    · have := f2 j hj; rw [hdil] at this; omega
  refine ⟨_, if_pos hfit, rfl, rfl, rfl, ?_⟩
  unfold Arr.flat
  apply tensor3_congr
  intro f i j hf hi hj
  unfold convSpec
  dsimp only
  congr 2
  apply Finset.sum_congr rfl; intro p _
  apply Finset.sum_congr rfl; intro h hh
  apply Finset.sum_congr rfl; intro w hw
  rw [Finset.mem_range] at hh hw
  have g1 := hfit.1 i hi
  have g2 := hfit.2 j hj
  rw [convPadded_eq c x p _ _ (by omega) (by omega), hdil]
  push_cast
  simp only [mul_one]

/-- **C11** (partial: dilation rate 1; see `C11_fails_dilation`). The generated 6loops code leaves the result
of the Python reference. -/
theorem C11_conv6_partial [CommSemiring α] (c : ConvP) (size idx road : Nat) (act : α → α) (src : Buf)
    (wt : Nat → Nat → Nat → Nat → α) (bias : Nat → α) (x : Nat → Nat → Nat → α) (m : Mem α)
    (hacc : c.Accepted) (hdil : c.dil = 1)
    (hsrc : src ≠ .temp) (hx : Holds m src (tensor3 c.inC c.inH c.inW x))
    (hw : Holds m (.par .weights idx) (tensor4 c.filters c.inC c.kh c.kw wt))
    (hb : Holds m (.par .biases idx) (tensor c.filters bias))
    (hsize : size = c.filters * c.outH * c.outW)
    (ht : size ≤ m.size .temp) (ho : size ≤ m.size (.out road)) :
    ∃ r, convForward c act wt bias x = some r ∧
      Computes (conv6Code c size idx act src road) m (.out road) r.flat := by
  obtain ⟨r, e, -, -, -, hf⟩ := C11_conv_forward_partial c act wt bias x hacc hdil
  refine ⟨r, e, ?_⟩
  rw [hf]
  exact C11_conv6_code c size idx road act src wt bias x m hsrc hx hw hb hsize ht ho


/-- **C11 fails** for dilation rates above one: the 6loops code of this accepted layer (kernel 1×2, dilation 2,
input `[1, 2, 4]`, weights 1) leaves `5`, the Python reference `3`. -/
theorem C11_fails_dilation :
    ∃ (c : ConvP) (wt : Nat → Nat → Nat → Nat → Int) (bias : Nat → Int) (x : Nat → Nat → Nat → Int) (r : Arr Int),
      c.Accepted ∧ convForward c id wt bias x = some r ∧
      ∀ (m : Mem Int) (src : Buf) (idx road : Nat), src ≠ .temp →
        Holds m src (tensor3 c.inC c.inH c.inW x) →
        Holds m (.par .weights idx) (tensor4 c.filters c.inC c.kh c.kw wt) →
        Holds m (.par .biases idx) (tensor c.filters bias) → 1 ≤ m.size .temp → 1 ≤ m.size (.out road) →
        ¬ Computes (conv6Code c 1 idx id src road) m (.out road) r.flat := by
  refine ⟨⟨1, 1, 1, 3, 1, 1, 1, 2, 1, 2, 0, 0, 0, 0⟩, fun _ _ _ _ => 1, fun _ => 0,
    fun _ _ j => if j = 0 then 1 else if j = 1 then 2 else 4,
    _, ?_, if_pos ?_, ?_⟩
  · refine ⟨by decide, by decide, by decide, by decide, by decide, by decide⟩
  · exact ⟨fun i hi => by dsimp only at hi ⊢; omega, fun i hi => by dsimp only at hi ⊢; omega⟩
  · intro m src idx road hsrc hx hw hb ht ho hcon
    have h := C11_conv6_code ⟨1, 1, 1, 3, 1, 1, 1, 2, 1, 2, 0, 0, 0, 0⟩ 1 idx road id src _ _ _ m hsrc hx hw hb rfl ht ho
    have e := Computes.unique hcon h (by simp [Arr.flat, tensor3_length])
    revert e
    simp [Arr.flat, tensor3, convSpec, zeroExt, convPadded, Finset.sum_range_succ]

/-- hypotheses of C11 satisfiable: 3×3 kernel, stride 2, paddings 1, on a 2-channel 5×5 image -/
example (m : Mem Int) (wt : Nat → Nat → Nat → Nat → Int) (bias : Nat → Int) (x : Nat → Nat → Nat → Int)
    (hx : Holds m (.out 0) (tensor3 2 5 5 x)) (hw : Holds m (.par .weights 3) (tensor4 4 2 3 3 wt))
    (hb : Holds m (.par .biases 3) (tensor 4 bias)) (ht : 36 ≤ m.size .temp) (ho : 36 ≤ m.size (.out 0)) :
    ∃ r, convForward ⟨4, 2, 5, 5, 3, 3, 3, 3, 2, 1, 1, 1, 1, 1⟩ id wt bias x = some r ∧
      Computes (conv6Code ⟨4, 2, 5, 5, 3, 3, 3, 3, 2, 1, 1, 1, 1, 1⟩ 36 3 id (.out 0) 0) m (.out 0) r.flat :=
  C11_conv6_partial _ 36 3 0 id (.out 0) wt bias x m ⟨by decide, by decide, by decide, by decide, by decide, by decide⟩
    rfl (by simp) hx hw hb rfl ht ho

/-! ## C12 the std_gemm_nn implementation -/

theorem sum_range_mul {M : Type} [AddCommMonoid M] (n k : Nat) (g : Nat → M) :
    ∑ p ∈ Finset.range (n * k), g p = ∑ i ∈ Finset.range n, ∑ j ∈ Finset.range k, g (j + k * i) := by
  induction n with
  | zero => simp
  | succ n ih =>
    rw [Nat.succ_mul, Finset.sum_range_add, ih, Finset.sum_range_succ]
    congr 1
    apply Finset.sum_congr rfl
    intro j _
    congr 1; ring

/-- the row index of the patch matrix as channel, kernel row, kernel column -/
theorem patch_index {kh kw q h w : Nat} (hh : h < kh) (hw : w < kw) :
    (w + kw * (h + kh * q)) % kw = w ∧ (w + kw * (h + kh * q)) / kw % kh = h ∧
    (w + kw * (h + kh * q)) / kh / kw = q := by
  refine ⟨pair_mod hw, ?_, ?_⟩
  · rw [pair_div hw, pair_mod hh]
  · rw [Nat.div_div_eq_div_mul, Nat.mul_comm kh kw, ← Nat.div_div_eq_div_mul, pair_div hw, pair_div hh]

/-- element of the patch matrix (no dilation) -/
def patchElem [Zero α] (c : ConvP) (x : Nat → Nat → Nat → α) (i h w : Nat) : α :=
  zeroExt c.inH c.inW x (i / c.kh / c.kw) ((h : Int) * c.stride - c.padTop + (i / c.kw % c.kh : Nat))
    ((w : Int) * c.stride - c.padLeft + (i % c.kw : Nat))

theorem im2col_holds [Zero α] (c : ConvP) (src : Buf) (road : Nat) (x : Nat → Nat → Nat → α) (m : Mem α)
    (hsrc : src ≠ .out road) (hx : Holds m src (tensor3 c.inC c.inH c.inW x))
    (ho : c.inC * c.kh * c.kw * c.outH * c.outW ≤ m.size (.out road)) :
    ∃ m', im2colCode c src road m = some ((), m') ∧
      Holds m' (.out road) (tensor3 (c.inC * c.kh * c.kw) c.outH c.outW (patchElem c x)) ∧
      OnlyChanges [.out road] m m' := by
  refine loop3_holds (.out road) (c.inC * c.kh * c.kw) c.outH c.outW _ _ ho ?_
  intro i h w u hi hh hw
  have hadr : i * (c.outH * c.outW) + (h * c.outW + w) = at3 c.outH c.outW i h w := by unfold at3; ring
  have ha : at3 c.outH c.outW i h w < m.size (.out road) := Nat.lt_of_lt_of_le (at3_lt hi hh hw) ho
  rw [hadr]
  refine (?_ : Stores (.out road) m _ (at3 c.outH c.outW i h w) (patchElem c x i h w)) u
  have hkw : 0 < c.kw := by
    rcases Nat.eq_zero_or_pos c.kw with h0 | h0
    · rw [h0] at hi; simp at hi
    · exact h0
  have hkh : 0 < c.kh := by
    rcases Nat.eq_zero_or_pos c.kh with h0 | h0
    · rw [h0] at hi; simp at hi
    · exact h0
  have hq : i / c.kh / c.kw < c.inC := by
    rw [Nat.div_div_eq_div_mul]
    apply Nat.div_lt_of_lt_mul
    calc i < c.inC * c.kh * c.kw := hi
      _ = c.kh * c.kw * c.inC := by ring
  unfold patchElem zeroExt
  generalize (h : Int) * c.stride - c.padTop + (i / c.kw % c.kh : Nat) = ii
  generalize (w : Int) * c.stride - c.padLeft + (i % c.kw : Nat) = jj
  by_cases hc : 0 ≤ ii ∧ ii < c.inH ∧ 0 ≤ jj ∧ jj < c.inW
  · rw [if_pos hc, if_pos hc]
    refine Stores.bind (Evals.load3 hsrc hx hq (i := ii.toNat) (j := jj.toNat) (by omega) (by omega) ?_)
      (Stores.store rfl ha rfl)
    unfold at3; push_cast [Int.toNat_of_nonneg hc.1, Int.toNat_of_nonneg hc.2.2.1]; ring
  · rw [if_neg hc, if_neg hc]
    exact Stores.store rfl ha rfl

theorem gemm_holds [CommSemiring α] (M N K idx road : Nat) (act : α → α) (A B : Nat → Nat → α) (bias : Nat → α)
    (m : Mem α) (hz : Holds m .temp (matrix M N fun _ _ => 0))
    (hA : ∀ i p, i < M → p < K → i * K + p < m.size (.par .weights idx) ∧ m.val (.par .weights idx) (i * K + p) = A i p)
    (hB : ∀ p j, p < K → j < N → p * N + j < m.size (.out road) ∧ m.val (.out road) (p * N + j) = B p j)
    (hb : Holds m (.par .biases idx) (tensor M bias)) :
    ∃ m', gemmNNCode M N K idx act road m = some ((), m') ∧
      Holds m' .temp (matrix M N fun i j => act (∑ p ∈ Finset.range K, A i p * B p j + bias i)) ∧
      OnlyChanges [.temp] m m' := by
  let res : Nat → Nat → α := fun i j => act (∑ p ∈ Finset.range K, A i p * B p j + bias i)
  let W : Nat → Nat → Option α := fun i a =>
    if a < i * N then some (res (a / N) (a % N)) else if a < M * N then some 0 else none
  rw [holds_matrix] at hz
  have hm : m = m.upd .temp (W 0) := by
    refine Mem.ext' rfl ?_
    funext b a
    by_cases hbt : b = .temp
    · subst hbt
      rw [Mem.upd_val_same]
      simp only [W, Nat.zero_mul, Nat.not_lt_zero, if_false]
      by_cases h : a < M * N
      · obtain ⟨i, j, hi, hj, e⟩ := at2_surj h
        rw [if_pos h, ← e]; exact hz.2 i j hi hj
      · rw [if_neg h]; rfl
    · rw [Mem.upd_val_ne _ hbt]
  have hrow : ∀ i, i < M → (W i) = overRow (i * N) N (fun _ => 0) (W i) := by
    intro i hi
    funext a
    have : (i + 1) * N ≤ M * N := Nat.mul_le_mul_right _ hi
    rw [Nat.succ_mul] at this
    simp only [W, overRow]
    by_cases h1 : i * N ≤ a ∧ a < i * N + N
    · rw [if_pos h1, if_neg (by omega), if_pos (by omega)]
    · rw [if_neg h1]
  have hnext : ∀ i, i < M → overRow (i * N) N (res i) (W i) = W (i + 1) := by
    intro i hi
    funext a
    have hsucc : (i + 1) * N = i * N + N := by ring
    simp only [W, overRow, hsucc]
    by_cases h1 : i * N ≤ a ∧ a < i * N + N
    · rw [if_pos h1, if_pos h1.2]
      obtain ⟨j, rfl⟩ : ∃ j, a = j + N * i := ⟨a - i * N, by rw [Nat.mul_comm N]; omega⟩
      have hj : j < N := by rw [Nat.mul_comm N] at h1; omega
      rw [pair_div hj, pair_mod hj]
      congr 2
      rw [Nat.mul_comm N]; omega
    · rw [if_neg h1]
      by_cases h2 : a < i * N
      · rw [if_pos h2, if_pos (by omega)]
      · rw [if_neg h2, if_neg (fun h3 : a < i * N + N => h1 ⟨by omega, h3⟩)]
  have hadr : ∀ i j, i < M → j < N → i * N + j < m.size .temp := by
    intro i j hi hj
    have h := pair_lt hj hi
    refine Nat.lt_of_lt_of_le ?_ hz.1
    rw [Nat.mul_comm i, Nat.mul_comm M, Nat.add_comm]; exact h
  have hload : ∀ (i j : Nat) (u : Nat → Option α) (t : α), i < M → j < N → u (i * N + j) = some t →
      load .temp ((i * N + j : Nat) : Int) (m.upd .temp u) = some (t, m.upd .temp u) := by
    intro i j u t hi hj hu
    rw [load_nat (by simpa using hadr i j hi hj), Mem.upd_val_same, hu]; rfl
  have key : ∀ k, k ≤ M → forN k (fun i => (do
      forN K fun p => do
        let weight ← load (.par .weights idx) ((i * K + p : Nat) : Int)
        forN N fun j => do
          let t ← load .temp ((i * N + j : Nat) : Int)
          let b ← load (.out road) ((p * N + j : Nat) : Int)
          store .temp ((i * N + j : Nat) : Int) (t + weight * b)
      forN N fun j => do
        let output ← load .temp ((i * N + j : Nat) : Int)
        let bias ← load (.par .biases idx) (i : Int)
        store .temp ((i * N + j : Nat) : Int) (act (output + bias)))) m = some ((), m.upd .temp (W k)) := by
    intro k
    induction k with
    | zero => intro _; rw [← hm]; rfl
    | succ i ih =>
      intro hi
      unfold forN at ih ⊢
      rw [foldN_succ, andThen_run (ih (by omega))]
      rw [hrow i (by omega)]
      refine (andThen_run (row_loops (step := fun p j t => t + A i p * B p j) ?_)).trans ?_
      · intro p r' hp
        obtain ⟨a1, a2⟩ := hA i p (by omega) hp
        refine (andThen_run (load_upd_ne (by simp) a1)).trans ?_
        rw [a2]
        refine row_loop (step := fun j t => t + A i p * B p j) ?_
        intro j u t hj hu
        obtain ⟨b1, b2⟩ := hB p j hp hj
        refine (andThen_run (hload i j u t (by omega) hj hu)).trans ?_
        refine (andThen_run (load_upd_ne (by simp) b1)).trans ?_
        rw [b2]
        exact store_upd (hadr i j (by omega) hj)
      · refine (row_loop (step := fun j t => act (t + bias i)) ?_).trans ?_
        · intro j u t hj hu
          rw [holds_tensor] at hb
          refine (andThen_run (hload i j u t (by omega) hj hu)).trans ?_
          refine (andThen_run (load_upd_ne (by simp) (by have := hb.1; omega))).trans ?_
          rw [hb.2 i (by omega)]
          exact store_upd (hadr i j (by omega) hj)
        · rw [← hnext i (by omega)]
          congr 3
          apply overRow_congr
          intro j hj
          rw [iter_add, zero_add]
  refine ⟨_, key M le_rfl, holds_matrix.2 ⟨hz.1, ?_⟩, OnlyChanges.upd m (by simp) _⟩
  intro i j hi hj
  rw [Mem.upd_val_same]
  have hlt : i * N + j < M * N := by
    have h := pair_lt hj hi
    rw [Nat.mul_comm i, Nat.mul_comm M, Nat.add_comm]; exact h
  simp only [W]
  rw [if_pos hlt, Nat.add_comm, Nat.mul_comm i, pair_div hj, pair_mod hj]
  rfl


/-- the copy loops of the templates -/
theorem copyMap_holds {m : Mem α} {src dst : Buf} {t : List α} {n : Nat} (f : α → α) (hn : t.length = n)
    (hs : Holds m src t) (hd : n ≤ m.size dst) :
    ∃ m', copyMap n src dst f m = some ((), m') ∧ Holds m' dst (t.map f) ∧ OnlyChanges [dst] m m' := by
  subst hn
  obtain ⟨m', e, h, c⟩ := copy_holds (m := m) (src := src) (dst := dst) (t := t) (fun _ v => f v) hs hd
  refine ⟨m', e, ?_, c⟩
  have : t.mapIdx (fun _ v => f v) = t.map f := by apply List.ext_getElem <;> simp
  rw [← this]; exact h

/-- the convolution computed by std_gemm_nn: the dilation rate is ignored -/
def convGemmSpec [AddCommMonoid α] [Mul α] (c : ConvP) := convSpec (α := α) { c with dil := 1 }

/-- **C12, code.** The generated std_gemm_nn code computes the convolution *without dilation*, provided
the producer's tensor is in the layer's own array (as C07 guarantees for a single consumer) or in a
`cst_k`/parameter array, and the arrays are large enough for the patches (C32). -/
theorem C12_std_gemm_code [CommSemiring α] (c : ConvP) (size idx road : Nat) (act : α → α) (src : Buf)
    (wt : Nat → Nat → Nat → Nat → α) (bias : Nat → α) (x : Nat → Nat → Nat → α) (m : Mem α)
    (hsrc : src = .out road ∨ ((∀ k, src ≠ .out k) ∧ src ≠ .temp))
    (hx : Holds m src (tensor3 c.inC c.inH c.inW x))
    (hw : Holds m (.par .weights idx) (tensor4 c.filters c.inC c.kh c.kw wt))
    (hb : Holds m (.par .biases idx) (tensor c.filters bias))
    (hsize : size = c.filters * c.outH * c.outW)
    (htx : c.inC * c.inH * c.inW ≤ m.size .temp) (ht : size ≤ m.size .temp)
    (ho : size ≤ m.size (.out road))
    (hop : c.inC * c.kh * c.kw * c.outH * c.outW ≤ m.size (.out road)) :
    Computes (stdGemmCode c size idx act src road) m (.out road)
      (tensor3 c.filters c.outH c.outW (convGemmSpec c act wt bias x)) := by
  -- building the patches
  have h1 : ∃ m1, (match src with
      | .out _ => (do
        copyMap (c.inC * c.inH * c.inW) (.out road) .temp id
        im2colCode c .temp road)
      | b => im2colCode c b road : Prog α Unit) m = some ((), m1) ∧
      Holds m1 (.out road) (tensor3 (c.inC * c.kh * c.kw) c.outH c.outW (patchElem c x)) ∧
      OnlyChanges [.out road, .temp] m m1 := by
    rcases hsrc with h | ⟨h, h'⟩
    · subst h
      obtain ⟨ma, e1, hh, oc⟩ := copyMap_holds (dst := .temp) id (tensor3_length _ _ _ _) hx htx
      rw [List.map_id] at hh
      obtain ⟨mb, e2, hh2, oc2⟩ := im2col_holds c .temp road x ma (by simp) hh (by rw [oc.1]; exact hop)
      refine ⟨mb, (andThen_run e1).trans e2, hh2, ⟨by rw [oc2.1, oc.1], fun b hb => ?_⟩⟩
      simp only [List.mem_cons, List.not_mem_nil, or_false, not_or] at hb
      rw [oc2.2 b (by simp [hb.1]), oc.2 b (by simp [hb.2])]
    · obtain ⟨mb, e2, hh2, oc2⟩ := im2col_holds c src road x m (h road) hx hop
      refine ⟨mb, ?_, hh2, ⟨oc2.1, fun b hb => oc2.2 b ?_⟩⟩
      · cases src with
        | out k => exact absurd rfl (h k)
        | _ => exact e2
      · simp only [List.mem_cons, List.not_mem_nil, or_false, not_or] at hb ⊢; exact hb.1
  obtain ⟨m1, e1, hp, oc1⟩ := h1
  have hsz : c.filters * (c.outH * c.outW) = size := by rw [hsize]; ring
  -- clearing the accumulator
  obtain ⟨m2, e2, hz, oc2⟩ := forN_holds (m := m1) .temp (c.filters * (c.outH * c.outW))
    (fun k => store .temp (k : Int) (0 : α)) (fun _ => 0) (by rw [oc1.1, hsz]; exact ht)
    (fun i u hi => store_upd (by rw [oc1.1]; omega))
  -- the product
  have hA : ∀ i p, i < c.filters → p < c.inC * c.kh * c.kw →
      i * (c.inC * c.kh * c.kw) + p < m2.size (.par .weights idx) ∧
      m2.val (.par .weights idx) (i * (c.inC * c.kh * c.kw) + p)
        = wt i (p / c.kh / c.kw) (p / c.kw % c.kh) (p % c.kw) := by
    intro i p hi hp'
    obtain ⟨q, h, w, hq, hh, hw', e⟩ := at3_surj hp'
    have e' : p = w + c.kw * (h + c.kh * q) := e.symm
    subst e'
    obtain ⟨d1, d2, d3⟩ := patch_index (q := q) hh hw'
    have hlt : i * (c.inC * c.kh * c.kw) + (w + c.kw * (h + c.kh * q)) < (tensor4 c.filters c.inC c.kh c.kw wt).length := by
      rw [tensor4_length]
      have := pair_lt hp' hi
      rw [Nat.mul_comm i, Nat.mul_comm c.filters, Nat.add_comm]; exact this
    have hw2 := hw.congr (m' := m2) (by rw [oc2.1, oc1.1]) (by rw [oc2.2 _ (by simp), oc1.2 _ (by simp)])
    refine ⟨Nat.lt_of_lt_of_le hlt hw2.1, ?_⟩
    rw [hw2.2 _ hlt, d1, d2, d3]
    have hadr : i * (c.inC * c.kh * c.kw) + (w + c.kw * (h + c.kh * q))
        = w + c.kw * (h + c.kh * (q + c.inC * i)) := by ring
    simp only [hadr]
    exact tensor4_get _ _ _ _ wt hi hq hh hw' _
  have hB : ∀ p j, p < c.inC * c.kh * c.kw → j < c.outH * c.outW →
      p * (c.outH * c.outW) + j < m2.size (.out road) ∧
      m2.val (.out road) (p * (c.outH * c.outW) + j) = patchElem c x p (j / c.outW) (j % c.outW) := by
    intro p j hp' hj
    have hp2 := hp.congr (m' := m2) oc2.1 (oc2.2 _ (by simp))
    rw [holds_tensor3] at hp2
    obtain ⟨a, b, ha, hb', e⟩ := at2_surj hj
    have hadr : p * (c.outH * c.outW) + j = at3 c.outH c.outW p a b := by rw [← e]; unfold at3; ring
    have e3 : j = b + c.outW * a := by rw [← e, Nat.mul_comm a, Nat.add_comm]
    rw [hadr]
    refine ⟨Nat.lt_of_lt_of_le (at3_lt hp' ha hb') hp2.1, ?_⟩
    rw [hp2.2 p a b hp' ha hb', e3, pair_div hb', pair_mod hb']
  have hz2 : Holds m2 .temp (matrix c.filters (c.outH * c.outW) fun _ _ => (0 : α)) := by
    rw [holds_tensor] at hz
    rw [holds_matrix]
    refine ⟨hz.1, fun i j hi hj => hz.2 _ ?_⟩
    have := pair_lt hj hi
    rw [Nat.mul_comm i, Nat.mul_comm c.filters, Nat.add_comm]; exact this
  have hb2 := hb.congr (m' := m2) (by rw [oc2.1, oc1.1]) (by rw [oc2.2 _ (by simp), oc1.2 _ (by simp)])
  obtain ⟨m3, e3, hg, oc3⟩ := gemm_holds c.filters (c.outH * c.outW) (c.inC * c.kh * c.kw) idx road act
    (fun i p => wt i (p / c.kh / c.kw) (p / c.kw % c.kh) (p % c.kw))
    (fun p j => patchElem c x p (j / c.outW) (j % c.outW)) bias m2 hz2 hA hB hb2
  -- it is the convolution
  have hg' : Holds m3 .temp (tensor3 c.filters c.outH c.outW (convGemmSpec c act wt bias x)) := by
    rw [holds_matrix] at hg
    rw [holds_tensor3]
    refine ⟨by rw [Nat.mul_assoc]; exact hg.1, fun f i j hf hi hj => ?_⟩
    have hj' : i * c.outW + j < c.outH * c.outW := by
      have := pair_lt hj hi
      rw [Nat.mul_comm i, Nat.mul_comm c.outH, Nat.add_comm]; exact this
    have hadr : at3 c.outH c.outW f i j = f * (c.outH * c.outW) + (i * c.outW + j) := by unfold at3; ring
    rw [hadr, hg.2 f _ hf hj']
    unfold convGemmSpec convSpec
    have e4 : i * c.outW + j = j + c.outW * i := by ring
    congr 2
    rw [sum_range_mul, sum_range_mul]
    apply Finset.sum_congr rfl; intro p _
    apply Finset.sum_congr rfl; intro h hh
    apply Finset.sum_congr rfl; intro w hw'
    rw [Finset.mem_range] at hh hw'
    obtain ⟨d1, d2, d3⟩ := patch_index (q := p) hh hw'
    unfold patchElem
    rw [d1, d2, d3, e4, pair_div hj, pair_mod hj]
    congr 2
    · push_cast; ring
    · push_cast; ring
  -- the copy to the output
  obtain ⟨m4, e4, hf, oc4⟩ := copyMap_holds (dst := .out road) id (n := size)
    (by rw [tensor3_length, hsize]) hg' (by rw [oc3.1, oc2.1, oc1.1]; exact ho)
  rw [List.map_id] at hf
  refine ⟨m4, ?_, hf, ⟨by rw [oc4.1, oc3.1, oc2.1, oc1.1], fun b hb => ?_⟩⟩
  · exact (andThen_run e1).trans ((andThen_run e2).trans ((andThen_run e3).trans e4))
  · have hb' := hb
    simp only [List.mem_cons, List.not_mem_nil, or_false, not_or] at hb'
    rw [oc4.2 b (by simp [hb'.1]), oc3.2 b (by simp [hb'.2]), oc2.2 b (by simp [hb'.2]), oc1.2 b hb]

/-- **C12** (partial: dilation rate 1). Both implementations leave the same tensor. -/
theorem C12_std_gemm_partial [CommSemiring α] (c : ConvP) (size idx road : Nat) (act : α → α) (src : Buf)
    (wt : Nat → Nat → Nat → Nat → α) (bias : Nat → α) (x : Nat → Nat → Nat → α) (m : Mem α)
    (hdil : c.dil = 1)
    (hsrc : src = .out road ∨ ((∀ k, src ≠ .out k) ∧ src ≠ .temp))
    (hx : Holds m src (tensor3 c.inC c.inH c.inW x))
    (hw : Holds m (.par .weights idx) (tensor4 c.filters c.inC c.kh c.kw wt))
    (hb : Holds m (.par .biases idx) (tensor c.filters bias))
    (hsize : size = c.filters * c.outH * c.outW)
    (htx : c.inC * c.inH * c.inW ≤ m.size .temp) (ht : size ≤ m.size .temp)
    (ho : size ≤ m.size (.out road))
    (hop : c.inC * c.kh * c.kw * c.outH * c.outW ≤ m.size (.out road)) :
    ∃ t, Computes (stdGemmCode c size idx act src road) m (.out road) t ∧
      Computes (conv6Code c size idx act src road) m (.out road) t ∧ t.length = size := by
  refine ⟨_, C12_std_gemm_code c size idx road act src wt bias x m hsrc hx hw hb hsize htx ht ho hop, ?_, ?_⟩
  · have : ({ c with dil := 1 } : ConvP) = c := by cases c; simp at hdil ⊢; exact hdil.symm
    unfold convGemmSpec
    rw [this]
    refine C11_conv6_code c size idx road act src wt bias x m ?_ hx hw hb hsize ht ho
    rcases hsrc with h | h
    · rw [h]; simp
    · exact h.2
  · rw [tensor3_length, hsize]

/-- **C12, reference.** The std_gemm_nn code agrees with the Python reference on every accepted layer,
whatever the dilation rate (both ignore it). -/
theorem C12_std_gemm_forward [CommSemiring α] (c : ConvP) (size idx road : Nat) (act : α → α) (src : Buf)
    (wt : Nat → Nat → Nat → Nat → α) (bias : Nat → α) (x : Nat → Nat → Nat → α) (m : Mem α)
    (hacc : c.Accepted)
    (hsrc : src = .out road ∨ ((∀ k, src ≠ .out k) ∧ src ≠ .temp))
    (hx : Holds m src (tensor3 c.inC c.inH c.inW x))
    (hw : Holds m (.par .weights idx) (tensor4 c.filters c.inC c.kh c.kw wt))
    (hb : Holds m (.par .biases idx) (tensor c.filters bias))
    (hsize : size = c.filters * c.outH * c.outW)
    (htx : c.inC * c.inH * c.inW ≤ m.size .temp) (ht : size ≤ m.size .temp)
    (ho : size ≤ m.size (.out road))
    (hop : c.inC * c.kh * c.kw * c.outH * c.outW ≤ m.size (.out road)) :
    ∃ r, convForward c act wt bias x = some r ∧
      Computes (stdGemmCode c size idx act src road) m (.out road) r.flat := by
  have hcode := C12_std_gemm_code c size idx road act src wt bias x m hsrc hx hw hb hsize htx ht ho hop
  obtain ⟨f1, f2⟩ := accepted_fits c hacc
  obtain ⟨-, hd, hkh, hkw, -, -⟩ := hacc
  have hfit : (∀ i, i < c.outH → i * c.stride + c.kh ≤ c.inH + c.padTop + c.padBottom) ∧
     (∀ j, j < c.outW → j * c.stride + c.kw ≤ c.inW + c.padLeft + c.padRight) := by
    refine ⟨fun i hi => ?_, fun j hj => ?_⟩
    · have := f1 i hi
      have h2 : (c.kh - 1) * 1 ≤ (c.kh - 1) * c.dil := Nat.mul_le_mul_left _ hd
      omega
    · have := f2 j hj
      have h2 : (c.kw - 1) * 1 ≤ (c.kw - 1) * c.dil := Nat.mul_le_mul_left _ hd
      omega
  refine ⟨_, if_pos hfit, ?_⟩
  refine Eq.mp (congrArg (Computes _ _ _) ?_) hcode
  unfold Arr.flat
  apply tensor3_congr
  intro f i j hf hi hj
  unfold convGemmSpec convSpec
  dsimp only
  congr 2
  apply Finset.sum_congr rfl; intro p _
  apply Finset.sum_congr rfl; intro h hh
  apply Finset.sum_congr rfl; intro w hw
  rw [Finset.mem_range] at hh hw
  have g1 := hfit.1 i hi
  have g2 := hfit.2 j hj
  rw [convPadded_eq c x p _ _ (by omega) (by omega)]
  push_cast
  simp only [mul_one]


/-- **C12 fails** for dilation rates above one: on the layer of `C11_fails_dilation` std_gemm_nn leaves `3`
where 6loops leaves `5`. -/
theorem C12_fails_dilation :
    ∃ (c : ConvP) (wt : Nat → Nat → Nat → Nat → Int) (bias : Nat → Int) (x : Nat → Nat → Nat → Int),
      c.Accepted ∧
      ∀ (m : Mem Int) (idx road : Nat),
        Holds m (.out road) (tensor3 c.inC c.inH c.inW x) →
        Holds m (.par .weights idx) (tensor4 c.filters c.inC c.kh c.kw wt) →
        Holds m (.par .biases idx) (tensor c.filters bias) → 3 ≤ m.size .temp → 3 ≤ m.size (.out road) →
        Computes (stdGemmCode c 1 idx id (.out road) road) m (.out road) [3] ∧
        Computes (conv6Code c 1 idx id (.out road) road) m (.out road) [5] := by
  refine ⟨⟨1, 1, 1, 3, 1, 1, 1, 2, 1, 2, 0, 0, 0, 0⟩, fun _ _ _ _ => 1, fun _ => 0,
    fun _ _ j => if j = 0 then 1 else if j = 1 then 2 else 4, ?_, ?_⟩
  · refine ⟨by decide, by decide, by decide, by decide, by decide, by decide⟩
  · intro m idx road hx hw hb ht ho
    constructor
    · have h := C12_std_gemm_code ⟨1, 1, 1, 3, 1, 1, 1, 2, 1, 2, 0, 0, 0, 0⟩ 1 idx road id (.out road) _ _ _ m
        (Or.inl rfl) hx hw hb rfl (by dsimp only; omega) (by omega) (by omega) (by dsimp only; omega)
      refine Eq.mp (congrArg (Computes _ _ _) ?_) h
      simp [tensor3, convGemmSpec, convSpec, zeroExt, Finset.sum_range_succ]
    · have h := C11_conv6_code ⟨1, 1, 1, 3, 1, 1, 1, 2, 1, 2, 0, 0, 0, 0⟩ 1 idx road id (.out road) _ _ _ m
        (by simp) hx hw hb rfl (by omega) (by omega)
      refine Eq.mp (congrArg (Computes _ _ _) ?_) h
      simp [tensor3, convSpec, zeroExt, Finset.sum_range_succ]

/-- hypotheses of C12 satisfiable: 3×3 kernel, stride 2, paddings 1, on a 2-channel 5×5 image, in place -/
example (m : Mem Int) (wt : Nat → Nat → Nat → Nat → Int) (bias : Nat → Int) (x : Nat → Nat → Nat → Int)
    (hx : Holds m (.out 0) (tensor3 2 5 5 x)) (hw : Holds m (.par .weights 3) (tensor4 4 2 3 3 wt))
    (hb : Holds m (.par .biases 3) (tensor 4 bias)) (ht : 50 ≤ m.size .temp) (ho : 162 ≤ m.size (.out 0)) :
    ∃ r, convForward ⟨4, 2, 5, 5, 3, 3, 3, 3, 2, 1, 1, 1, 1, 1⟩ id wt bias x = some r ∧
      Computes (stdGemmCode ⟨4, 2, 5, 5, 3, 3, 3, 3, 2, 1, 1, 1, 1, 1⟩ 36 3 id (.out 0) 0) m (.out 0) r.flat :=
  C12_std_gemm_forward _ 36 3 0 id (.out 0) wt bias x m ⟨by decide, by decide, by decide, by decide, by decide, by decide⟩
    (Or.inl rfl) hx hw hb rfl (by dsimp only; omega) (by omega) (by omega) (by dsimp only; omega)

end Layers
end Verif

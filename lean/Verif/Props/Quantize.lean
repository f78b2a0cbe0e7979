/-
C44: the shift activation of quantised layers.
-/
import Verif.Gen.Quantize
import Verif.Props.Text
import Verif.Props.Activations
import Verif.Props.Linear
import Mathlib.Tactic.Linarith
import Mathlib.Tactic.FieldSimp
import Mathlib.Tactic.Push

namespace Verif.Gen
open Verif.Layers

/-! ### Specification -/

/-- The rescaled integer: floor of the accumulator divided by `2^shift`. -/
def rescaled (shift : Nat) (z : Int) : Int := ⌊(z : ℚ) / 2 ^ shift⌋

/-- The number an integer stands for in a format with `m` fractional bits. -/
def fixedPoint (m : Nat) (z : Int) : ℚ := (z : ℚ) / 2 ^ m

/-! ### Lemmas -/

theorem rescaled_eq (shift : Nat) (z : Int) : rescaled shift z = z / 2 ^ shift := by
  unfold rescaled
  have := Rat.floor_intCast_div_natCast z (2 ^ shift)
  push_cast at this
  exact this

/-- conversion to a type that can hold the value changes nothing -/
theorem wrapS_of_fits {w : Nat} (hw : 0 < w) {z : Int} (h : FitsS w z) : wrapS w z = z := by
  unfold wrapS
  obtain ⟨k, rfl⟩ : ∃ k, w = k + 1 := ⟨w - 1, by omega⟩
  obtain ⟨h1, h2⟩ := h
  simp only [Nat.add_sub_cancel] at h1 h2
  have e : ((2 ^ (k + 1) : Nat) : Int) = 2 * 2 ^ k := by push_cast; ring
  apply Int.bmod_eq_of_le_mul_two
  · rw [e]; linarith
  · rw [e]; linarith

/-- `np.right_shift` is the floor of the quotient, also for shifts beyond the width of the type. -/
theorem npRightShift_eq (w : Nat) (z : Int) (shift : Nat) (h : FitsS w z) :
    npRightShift w z shift = rescaled shift z := by
  rw [rescaled_eq]
  unfold npRightShift
  split
  · rfl
  · next hs =>
    obtain ⟨h1, h2⟩ := h
    have hp : (2 : Int) ^ (w - 1) ≤ 2 ^ shift := by
      apply pow_le_pow_right₀ (by norm_num); omega
    split
    · next hz =>
      symm
      rw [Int.ediv_eq_iff_of_pos (by positivity)]
      constructor <;> linarith
    · next hz =>
      symm
      rw [Int.ediv_eq_zero_of_lt (by omega) (by linarith)]

/-! ### C44 -/

/-- C44, the shift: `max(m_in + m_param - m_out, 0)` for well-formed formats. -/
theorem C44_shift (tab : DigitTable) (qparam qin qout : List Char) (xp xi xo : Int)
    (mp mi mo : Nat) (hp : parseQFormat tab qparam = some (xp, mp))
    (hi : parseQFormat tab qin = some (xi, mi)) (ho : parseQFormat tab qout = some (xo, mo)) :
    postShift tab qparam qin qout = some (mi + mp - mo) := by
  unfold postShift
  rw [hp, hi, ho]
  dsimp only
  split
  · congr 1; omega
  · congr 1; omega

/-- C44, the Python reference: activation of the floor of the quotient, converted to the output
type. -/
theorem C44_reference (wt wo shift : Nat) (a : Act ℝ) (z : Int) (hz : FitsS wt z) :
    qshiftCompute wt wo shift a z = a.compute ((wrapS wo (rescaled shift z) : Int) : ℝ) := by
  unfold qshiftCompute
  rw [npRightShift_eq wt z shift hz]

set_option maxRecDepth 8000 in
set_option maxHeartbeats 2000000 in
/-- C44, the generated text: whatever activation is wrapped, a C compiler reads the text as that
activation of the shifted and cast value. -/
theorem C44_text (wo shift : Nat) (a : Act ℝ) (ha : a.accepted) (env : Nat → ℝ) (x : Nat) (z : Int)
    (hx : env x = z) :
    cValue (qSem wo) env (qshiftText shift a x)
      = some (a.compute ((wrapS wo (rescaled shift z) : Int) : ℝ)) := by
  have hv : (qSem wo).cast ((qSem wo).shr (env x) (shift : ℝ))
      = ((wrapS wo (rescaled shift z) : Int) : ℝ) := by
    rw [rescaled_eq]
    simp only [qSem, hx, Int.floor_intCast, Int.floor_natCast, Int.toNat_natCast]
  rw [← hv]
  generalize hc : (qSem wo).cast ((qSem wo).shr (env x) (shift : ℝ)) = v
  have hexp : (qSem wo).exp = Real.exp := rfl
  have hdiv : (qSem wo).div = (· / ·) := rfl
  have hlog : (qSem wo).log = Real.log := rfl
  unfold qshiftText
  cases a with
  | sigmoid =>
    show some _ = some _
    simp only [CExpr.eval, Act.compute, hc, hexp, hdiv]
    by_cases h : v < 0 <;> simp [h]
  | silu =>
    show some _ = some _
    simp only [CExpr.eval, Act.compute, hc, hexp, hdiv]
  | relu =>
    show some _ = some _
    simp only [CExpr.eval, Act.compute, hc]
    by_cases h : 0 < v
    · simp [h, max_eq_right h.le]
    · simp [h, max_eq_left (not_lt.1 h)]
  | leakyRelu alpha =>
    have hn : numToks alpha = [.num alpha] := by
      simp only [Act.accepted] at ha; simp [numToks, not_lt.2 ha]
    simp only [Act.text, hn]
    show some _ = some _
    simp only [CExpr.eval, Act.compute, hc]
    rcases lt_trichotomy v 0 with h | h | h
    · simp [h, not_lt.2 h.le]
    · simp [h]
    · simp [h, not_lt.2 h.le]
  | tanh =>
    show some _ = some _
    simp only [CExpr.eval, Act.compute, hc, hexp, hdiv]
    by_cases h : v < 0 <;> simp [h]
  | linear =>
    show some _ = some _
    simp only [CExpr.eval, Act.compute, hc]
  | exponential =>
    show some _ = some _
    simp only [CExpr.eval, Act.compute, hc, hexp]
  | logarithm =>
    show some _ = some _
    simp only [CExpr.eval, Act.compute, hc, hlog]
  | clip hi lo =>
    simp only [Act.accepted] at ha
    have key : (if hi < v then hi else if v < lo then lo else v) = min (max v lo) hi := by
      by_cases h1 : hi < v
      · rw [if_pos h1, min_eq_right (h1.le.trans (le_max_left _ _))]
      · rw [if_neg h1]
        by_cases h2 : v < lo
        · rw [if_pos h2, max_eq_right h2.le, min_eq_left ha]
        · rw [if_neg h2, max_eq_left (not_lt.1 h2), min_eq_left (not_lt.1 h1)]
    simp only [Act.compute]
    rw [← key]
    by_cases h1 : hi < 0 <;> by_cases h2 : lo < 0 <;>
      simp only [Act.text, numToks, h1, h2, if_true, if_false]
    all_goals
      show some _ = some _
      simp only [CExpr.eval, neg_neg, hc]
      by_cases h3 : hi < v <;> by_cases h4 : v < lo <;> simp [h3, h4]

/-- C44, generated text and reference agree on every accumulator value.  The hypothesis on the shift
is what gives the C expression a meaning at all (see `C44_fails_undefined`). -/
theorem C44_agree (wt wo shift : Nat) (_hs : ShiftDefined wt shift) (a : Act ℝ) (ha : a.accepted) (env : Nat → ℝ) (x : Nat)
    (z : Int) (hz : FitsS wt z) (hx : env x = z) :
    cValue (qSem wo) env (qshiftText shift a x) = some (qshiftCompute wt wo shift a z) := by
  rw [C44_text wo shift a ha env x z hx, C44_reference wt wo shift a z hz]

/-- C44, precision: when the shift is not clamped and the result fits the output type, the rescaled
output is below the exact value by less than one unit in the last place. -/
theorem C44_precision_partial (wo mi mp mo : Nat) (hwo : 0 < wo) (z : Int) (hm : mo ≤ mi + mp)
    (hfit : FitsS wo (rescaled (mi + mp - mo) z)) :
    let out := wrapS wo (rescaled (mi + mp - mo) z)
    fixedPoint mo out ≤ fixedPoint (mi + mp) z ∧
      fixedPoint (mi + mp) z - fixedPoint mo out < 1 / 2 ^ mo := by
  intro out
  have ho : out = rescaled (mi + mp - mo) z := wrapS_of_fits hwo hfit
  rw [ho]
  unfold fixedPoint rescaled
  set q : ℚ := (z : ℚ) / 2 ^ (mi + mp - mo) with hq
  have h1 : ((⌊q⌋ : Int) : ℚ) ≤ q := Int.floor_le q
  have h2 : q < (⌊q⌋ : Int) + 1 := Int.lt_floor_add_one q
  have e : (z : ℚ) / 2 ^ (mi + mp) = q / 2 ^ mo := by
    rw [hq, div_div, ← pow_add]
    congr 2; omega
  rw [e]
  have hpos : (0 : ℚ) < 2 ^ mo := by positivity
  constructor
  · exact div_le_div_of_nonneg_right h1 hpos.le
  · rw [← sub_div]
    exact div_lt_div_of_pos_right (by linarith) hpos

/-- No accumulator of a quantised product overflows when the operand widths and the number of terms
allow it: the exact sums of the theorem below are then the machine's. -/
theorem C44_no_overflow (wa wb wt K : Nat) (x y : Nat → Int)
    (hx : ∀ k < K, FitsS wa (x k)) (hy : ∀ k < K, FitsS wb (y k))
    (hK : K * 2 ^ (wa - 1 + (wb - 1)) < 2 ^ (wt - 1)) (n : Nat) (hn : n ≤ K) :
    FitsS wt (∑ k ∈ Finset.range n, x k * y k) := by
  have hp : ∀ k < K, |x k * y k| ≤ 2 ^ (wa - 1 + (wb - 1)) := by
    intro k hk
    rw [abs_mul, pow_add]
    obtain ⟨a1, a2⟩ := hx k hk
    obtain ⟨b1, b2⟩ := hy k hk
    exact mul_le_mul (abs_le.2 ⟨a1, a2.le⟩) (abs_le.2 ⟨b1, b2.le⟩) (abs_nonneg _) (by positivity)
  have hs : |∑ k ∈ Finset.range n, x k * y k| ≤ n * 2 ^ (wa - 1 + (wb - 1)) := by
    refine (Finset.abs_sum_le_sum_abs _ _).trans ?_
    refine (Finset.sum_le_sum (g := fun _ => (2 : Int) ^ (wa - 1 + (wb - 1))) ?_).trans ?_
    · intro k hk
      exact hp k (lt_of_lt_of_le (Finset.mem_range.1 hk) hn)
    · simp
  have hK' : ((K : Int) * 2 ^ (wa - 1 + (wb - 1))) < 2 ^ (wt - 1) := by exact_mod_cast hK
  have hn' : (n : Int) * 2 ^ (wa - 1 + (wb - 1)) ≤ K * 2 ^ (wa - 1 + (wb - 1)) := by
    apply mul_le_mul_of_nonneg_right (by exact_mod_cast hn) (by positivity)
  have := abs_le.1 (hs.trans (hn'.trans hK'.le))
  exact ⟨this.1, lt_of_le_of_lt ((le_abs_self _).trans (hs.trans hn')) hK'⟩

/-- C44, a quantised MatMul: the generated code computes, in every cell, the reference activation of
the integer product. -/
theorem C44_matmul (C H W K size road wt wo shift : Nat) (hs : ShiftDefined wt shift) (a : Act ℝ) (ha : a.accepted)
    (left right : Buf) (x y : Nat → Nat → Nat → Int) (m : Mem ℝ)
    (hl : left ≠ .temp) (hr : right ≠ .temp)
    (hx : Holds m left (tensor3 C H K fun f i k => (x f i k : ℝ)))
    (hy : Holds m right (tensor3 C K W fun f k j => (y f k j : ℝ)))
    (hsz : size = W * H * C) (ht : size ≤ m.size .temp) (ho : size ≤ m.size (.out road))
    (hfit : ∀ f < C, ∀ i < H, ∀ j < W, FitsS wt (∑ k ∈ Finset.range K, x f i k * y f k j)) :
    Computes (matmulCode C H W K size
        (fun v => (cValue (qSem wo) (fun _ => v) (qshiftText shift a 0)).getD 0) left right road)
      m (.out road)
      (tensor3 C H W fun f i j =>
        qshiftCompute wt wo shift a (∑ k ∈ Finset.range K, x f i k * y f k j)) := by
  have h := C09_matmul_code C H W K size road
    (fun v => (cValue (qSem wo) (fun _ => v) (qshiftText shift a 0)).getD 0) left right _ _ m hl hr
    hx hy hsz ht ho
  refine Eq.mp (congrArg (Computes _ _ _) ?_) h
  apply tensor3_congr
  intro f i j hf hi hj
  rw [C44_agree wt wo shift hs a ha (fun _ => _) 0 _ (hfit f hf i hi j hj) (by push_cast; rfl)]
  rfl

/-- Quantised parameters are within half a unit of the parameters they stand for, if the rounded
values fit the type. -/
theorem C44_parameters (w m : Nat) (conv : Int → Int) (hconv : ∀ z, FitsS w z → conv z = z)
    (ws : List ℚ) (hfit : ∀ v ∈ ws, FitsS w (rint (v * 2 ^ m))) (i : Nat) (hi : i < ws.length) :
    ∃ z, (quantParams conv m ws).1[i]? = some z ∧ |fixedPoint m z - ws[i]| ≤ 1 / 2 ^ (m + 1) := by
  have hr : ∀ q : ℚ, |((rint q : Int) : ℚ) - q| ≤ 1 / 2 := by
    intro q
    have h1 := Int.floor_le q
    have h2 := Int.lt_floor_add_one q
    unfold rint
    dsimp only
    rw [abs_le]
    split_ifs <;> constructor <;> push_cast <;> linarith
  refine ⟨rint (ws[i] * 2 ^ m), ?_, ?_⟩
  · simp only [quantParams, List.getElem?_map, List.getElem?_eq_getElem hi, Option.map_some]
    rw [hconv _ (hfit _ (List.getElem_mem hi))]
  · have h := hr (ws[i] * 2 ^ m)
    have hpos : (0 : ℚ) < 2 ^ m := by positivity
    have e : fixedPoint m (rint (ws[i] * 2 ^ m)) - ws[i]
        = (((rint (ws[i] * 2 ^ m) : Int) : ℚ) - ws[i] * 2 ^ m) / 2 ^ m := by
      unfold fixedPoint; field_simp
    have e2 : (1 : ℚ) / 2 ^ (m + 1) = 1 / 2 / 2 ^ m := by rw [pow_succ]; field_simp
    rw [e, abs_div, abs_of_pos hpos, e2]
    exact div_le_div_of_nonneg_right h hpos.le

/-- Parameters are rounded to the nearest integer, and to the even one of two equally near ones. -/
theorem C44_rounding (q : ℚ) :
    (∀ z : Int, |((rint q : Int) : ℚ) - q| ≤ |(z : ℚ) - q|) ∧
      (|((rint q : Int) : ℚ) - q| = 1 / 2 → rint q % 2 = 0) := by
  have h1 := Int.floor_le q
  have h2 := Int.lt_floor_add_one q
  have hz : ∀ z : Int, z ≤ ⌊q⌋ ∨ ⌊q⌋ + 1 ≤ z := fun z => by omega
  have near : ∀ z : Int, min (q - ⌊q⌋) (⌊q⌋ + 1 - q) ≤ |(z : ℚ) - q| := by
    intro z
    rcases hz z with h | h
    · have h' : (z : ℚ) ≤ ⌊q⌋ := by exact_mod_cast h
      rw [abs_sub_comm]
      exact le_trans (min_le_left _ _) (le_trans (by linarith) (le_abs_self _))
    · have h' : ((⌊q⌋ : Int) : ℚ) + 1 ≤ z := by exact_mod_cast h
      exact le_trans (min_le_right _ _) (le_trans (by linarith) (le_abs_self _))
  have e1 : |((⌊q⌋ : Int) : ℚ) - q| = q - ⌊q⌋ := by
    rw [abs_sub_comm, abs_of_nonneg (by linarith)]
  have e2 : |(((⌊q⌋ + 1 : Int) : Int) : ℚ) - q| = ⌊q⌋ + 1 - q := by
    push_cast; rw [abs_of_nonneg (by linarith)]
  unfold rint
  dsimp only
  split_ifs with a b c
  · rw [e1]
    exact ⟨fun z => le_trans (le_min le_rfl (by linarith)) (near z), fun h => absurd h (by linarith)⟩
  · rw [e2]
    exact ⟨fun z => le_trans (le_min (by linarith) le_rfl) (near z), fun h => absurd h (by linarith)⟩
  · rw [e1]
    exact ⟨fun z => le_trans (le_min le_rfl (by linarith)) (near z), fun _ => c⟩
  · rw [e2]
    exact ⟨fun z => le_trans (le_min (by linarith) le_rfl) (near z), fun _ => by omega⟩

example : rint (5 / 2) = 2 ∧ rint (7 / 2) = 4 ∧ rint (-(5 / 2)) = -2 ∧ rint (8 / 3) = 3 := by decide +kernel

/-! ### Where the claim fails -/

/-- When the output has more fractional bits than the product, the shift is clamped to 0 and the
output stands for another number: formats `Q1.2`, `Q1.2` → `Q1.8`, accumulator 16 (the number 1):
the stored 16 stands for 1/16. -/
theorem C44_fails_clamped (tab : DigitTable) (ht : tab.Valid) :
    postShift tab "Q1.2".toList "Q1.2".toList "Q1.8".toList = some 0 ∧
    fixedPoint (2 + 2) 16 = 1 ∧ fixedPoint 8 (wrapS 16 (rescaled 0 16)) = 1 / 16 := by
  refine ⟨?_, ?_, ?_⟩
  · have h2 := C43_roundtrip tab ht 1 2
    have h8 := C43_roundtrip tab ht 1 8
    exact C44_shift tab _ _ _ 1 1 1 2 2 8 h2 h2 h8
  · norm_num [fixedPoint]
  · rw [rescaled_eq]; simp [fixedPoint, wrapS]; norm_num [Int.bmod]

/-- Nothing bounds the shift: with 20 fractional bits on both sides and none in the output it is 40,
which C leaves undefined on 32-bit accumulators. -/
theorem C44_fails_undefined (tab : DigitTable) (ht : tab.Valid) :
    postShift tab "Q0.20".toList "Q0.20".toList "Q31.0".toList = some 40 ∧
      ¬ ShiftDefined 32 40 := by
  refine ⟨?_, by norm_num [ShiftDefined]⟩
  exact C44_shift tab _ _ _ 0 0 31 20 20 0 (C43_roundtrip tab ht 0 20) (C43_roundtrip tab ht 0 20)
    (C43_roundtrip tab ht 31 0)

/-- A result that does not fit the output type is reduced modulo `2^wo` by both sides: with a shift of
4, the accumulator `2^19` becomes `-2^15` in 16 bits. -/
theorem C44_fails_saturation : wrapS 16 (rescaled 4 (2 ^ 19)) = -2 ^ 15 := by
  rw [rescaled_eq]; decide +kernel

/-- A parameter that does not fit is stored as another number without any warning, as soon as one
other parameter of the layer fits: the warning is logged only if *all* values changed. -/
theorem C44_fails_silent (conv : Int → Int) (h1 : conv 1 = 1) (h2 : conv (2 ^ 20) ≠ 2 ^ 20) :
    (quantParams conv 0 [1, 2 ^ 20]).2 = false ∧
      (quantParams conv 0 [1, 2 ^ 20]).1[1]? ≠ some (2 ^ 20) := by
  have e1 : rint 1 = 1 := by decide +kernel
  have e2 : rint (2 ^ 20) = 2 ^ 20 := by decide +kernel
  constructor
  · simp [quantParams, e1, h1]
  · simp only [quantParams, pow_zero, mul_one, List.map, e1, e2]
    simpa using h2

/-! ### Concrete cases -/

example : FitsS 32 (-1000001) := by constructor <;> norm_num
example : wrapS 16 (rescaled 7 (-1000001)) = -7813 := by rw [rescaled_eq]; decide +kernel
example : cValue (qSem 16) (fun _ => ((-1000001 : Int) : ℝ)) (qshiftText 7 .relu 0)
    = some (qshiftCompute 32 16 7 .relu (-1000001)) :=
  C44_agree 32 16 7 (by norm_num [ShiftDefined]) .relu trivial _ 0 _ (by constructor <;> norm_num) rfl
example : (4096 : Nat) * 2 ^ (8 - 1 + (8 - 1)) < 2 ^ (32 - 1) := by norm_num

end Verif.Gen

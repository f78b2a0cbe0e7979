import Verif.Layers.Activations
import Mathlib.Tactic.FieldSimp
import Mathlib.Tactic.Linarith
import Mathlib.Analysis.SpecialFunctions.Sigmoid
import Mathlib.Analysis.SpecialFunctions.Trigonometric.DerivHyp

/-!
# C29: an activation means the same in the generated C and in the Python reference
-/

namespace Verif.Layers
open Prog

/-- The mathematical functions the activation names stand for. -/
noncomputable def Act.math : Act ℝ → ℝ → ℝ
  | .sigmoid, x => Real.sigmoid x
  | .silu, x => x * Real.sigmoid x
  | .relu, x => max x 0
  | .leakyRelu alpha, x => max x 0 + alpha * min x 0
  | .tanh, x => Real.tanh x
  | .linear, x => x
  | .exponential, x => Real.exp x
  | .logarithm, x => Real.log x
  | .clip hi lo, x => max lo (min x hi)

set_option maxRecDepth 4000 in
/-- The text with a variable name in it, read by a C compiler, is the Python reference. -/
theorem C29_text (a : Act ℝ) (ha : a.accepted) (env : Nat → ℝ) (x : Nat) :
    cValue realSem env (a.text [.var x]) = some (a.compute (env x)) := by
  have h10 : (1 : ℝ) ≠ 0 := one_ne_zero
  cases a with
  | sigmoid =>
    show some _ = some _
    simp only [CExpr.eval, realSem, Act.compute]
    by_cases h : env x < 0 <;> simp [h]
  | silu => rfl
  | relu =>
    show some _ = some _
    simp only [CExpr.eval, realSem, Act.compute]
    by_cases h : 0 < env x
    · simp [h, max_eq_right h.le]
    · simp [h, max_eq_left (not_lt.1 h)]
  | leakyRelu alpha =>
    have hn : numToks alpha = [.num alpha] := by
      simp only [Act.accepted] at ha; simp [numToks, not_lt.2 ha]
    simp only [Act.text, hn]
    show some _ = some _
    simp only [CExpr.eval, realSem, Act.compute]
    rcases lt_trichotomy (env x) 0 with h | h | h
    · simp [h, not_lt.2 h.le]
    · simp [h]
    · simp [h, not_lt.2 h.le]
  | tanh =>
    show some _ = some _
    simp only [CExpr.eval, realSem, Act.compute]
    by_cases h : env x < 0 <;> simp [h]
  | linear => rfl
  | exponential => rfl
  | logarithm => rfl
  | clip hi lo =>
    simp only [Act.accepted] at ha
    have key : (if hi < env x then hi else if env x < lo then lo else env x) = min (max (env x) lo) hi := by
      by_cases h1 : hi < env x
      · rw [if_pos h1, min_eq_right (h1.le.trans (le_max_left _ _))]
      · rw [if_neg h1]
        by_cases h2 : env x < lo
        · rw [if_pos h2, max_eq_right h2.le, min_eq_left ha]
        · rw [if_neg h2, max_eq_left (not_lt.1 h2), min_eq_left (not_lt.1 h1)]
    simp only [Act.compute]
    rw [← key]
    by_cases h1 : hi < 0 <;> by_cases h2 : lo < 0 <;> simp only [Act.text, numToks, h1, h2, if_true, if_false]
    all_goals
      show some _ = some _
      simp only [CExpr.eval, neg_neg]
      by_cases h3 : hi < env x <;> by_cases h4 : env x < lo <;> simp [h3, h4]


set_option maxRecDepth 4000 in
/-- The average pooling splices the *compound* text `sum/count` (`AveragePooling2DDefault.py` 38) in
the pattern without parentheses; C's precedence rules still give the activation of the quotient. -/
theorem C29_text_quotient (a : Act ℝ) (ha : a.accepted) (env : Nat → ℝ) (x y : Nat) :
    cValue realSem env (a.text [.var x, .op .div, .var y]) = some (a.compute (env x / env y)) := by
  cases a with
  | sigmoid =>
    show some _ = some _
    simp only [CExpr.eval, realSem, Act.compute]
    by_cases h : env x / env y < 0 <;> simp [h, neg_div]
  | silu =>
    show some _ = some _
    simp only [CExpr.eval, realSem, Act.compute, neg_div]
  | relu =>
    show some _ = some _
    simp only [CExpr.eval, realSem, Act.compute]
    by_cases h : 0 < env x / env y
    · simp [h, max_eq_right h.le]
    · simp [h, max_eq_left (not_lt.1 h)]
  | leakyRelu alpha =>
    have hn : numToks alpha = [.num alpha] := by
      simp only [Act.accepted] at ha; simp [numToks, not_lt.2 ha]
    simp only [Act.text, hn]
    show some _ = some _
    simp only [CExpr.eval, realSem, Act.compute, mul_div_assoc]
    rcases lt_trichotomy (env x / env y) 0 with h | h | h
    · simp [h, not_lt.2 h.le]
    · simp [h]
    · simp [h, not_lt.2 h.le]
  | tanh =>
    show some _ = some _
    simp only [CExpr.eval, realSem, Act.compute, mul_div_assoc]
    by_cases h : env x / env y < 0 <;> simp [h]
  | linear => rfl
  | exponential => rfl
  | logarithm => rfl
  | clip hi lo =>
    simp only [Act.accepted] at ha
    have key : ∀ z : ℝ, (if hi < z then hi else if z < lo then lo else z) = min (max z lo) hi := by
      intro z
      by_cases h1 : hi < z
      · rw [if_pos h1, min_eq_right (h1.le.trans (le_max_left _ _))]
      · rw [if_neg h1]
        by_cases h2 : z < lo
        · rw [if_pos h2, max_eq_right h2.le, min_eq_left ha]
        · rw [if_neg h2, max_eq_left (not_lt.1 h2), min_eq_left (not_lt.1 h1)]
    simp only [Act.compute]
    rw [← key]
    by_cases h1 : hi < 0 <;> by_cases h2 : lo < 0 <;> simp only [Act.text, numToks, h1, h2, if_true, if_false]
    all_goals
      show some _ = some _
      simp only [CExpr.eval, realSem, neg_neg]
      by_cases h3 : hi < env x / env y <;> by_cases h4 : env x / env y < lo <;> simp [h3, h4]

/-- The Python reference is the mathematical function of that name. -/
theorem C29_reference (a : Act ℝ) (ha : a.accepted) (z : ℝ) : a.compute z = a.math z := by
  have e1 : ∀ z : ℝ, Real.exp z / (1 + Real.exp z) = (1 + Real.exp (-z))⁻¹ := by
    intro z
    have := Real.exp_pos z
    rw [Real.exp_neg]; field_simp
    rw [add_comm]
  have e2 : ∀ z : ℝ, (Real.exp (2 * z) - 1) / (Real.exp (2 * z) + 1) = Real.tanh z := by
    intro z
    rw [Real.tanh_eq_sinh_div_cosh, Real.sinh_eq, Real.cosh_eq, Real.exp_neg, two_mul, Real.exp_add]
    have := Real.exp_pos z
    field_simp
  have e3 : ∀ z : ℝ, (1 - Real.exp (-2 * z)) / (1 + Real.exp (-2 * z)) = Real.tanh z := by
    intro z
    rw [← e2 z, neg_mul, Real.exp_neg]
    have := Real.exp_pos (2 * z)
    field_simp
  cases a with
  | sigmoid => simp only [Act.compute, Act.math, Real.sigmoid, e1, one_div]; split <;> rfl
  | silu => simp only [Act.compute, Act.math, Real.sigmoid, div_eq_mul_inv]
  | relu => exact max_comm _ _
  | leakyRelu alpha =>
    simp only [Act.compute, Act.math]
    split
    · rename_i h; rw [max_eq_right h.le, min_eq_left h.le, zero_add]
    · rename_i h; rw [max_eq_left (not_lt.1 h), min_eq_right (not_lt.1 h)]; simp
  | tanh => simp only [Act.compute, Act.math, e2, e3]; split <;> rfl
  | linear => rfl
  | exponential => rfl
  | logarithm => rfl
  | clip hi lo =>
    simp only [Act.accepted] at ha
    simp only [Act.compute, Act.math]
    rcases le_total z lo with h | h
    · rw [max_eq_right h, min_eq_left (h.trans ha), min_eq_left ha, max_eq_left h]
    · rw [max_eq_left h]
      exact (max_eq_right (le_min h ha)).symm

/-- **C29.** The generated code of an activation layer applies, to each element of its input, the
mathematical function the activation is named after, and so does the Python reference. -/
theorem C29_layer (a : Act ℝ) (ha : a.accepted) {m : Mem ℝ} {src : Buf} {road : Nat} {t : List ℝ}
    (act : ℝ → ℝ) (hact : ∀ v, cValue realSem (fun _ => v) (a.text [.var 0]) = some (act v))
    (hs : Holds m src t) (ho : t.length ≤ m.size (.out road)) :
    Computes (activationLayerCode t.length act src road) m (.out road) (t.map a.math) ∧
      t.map a.compute = t.map a.math := by
  have he : act = a.math := by
    funext v
    have h1 := hact v
    rw [C29_text a ha, Option.some_inj] at h1
    rw [← h1, C29_reference a ha]
  have hr : a.compute = a.math := funext (C29_reference a ha)
  refine ⟨?_, by rw [hr]⟩
  obtain ⟨m', e, h, c⟩ := copy_holds (fun _ => a.math) hs ho
  refine ⟨m', by subst he; exact e, ?_, ⟨c.1, fun b hb => c.2 b fun hh => hb ?_⟩⟩
  · have : t.mapIdx (fun _ => a.math) = t.map a.math := by
      apply List.ext_getElem <;> simp
    rwa [this] at h
  · simp at hh; simp [hh]

/-- the hypotheses of `C29_layer` are met for every activation the constructors accept -/
example (a : Act ℝ) (ha : a.accepted) : ∃ act : ℝ → ℝ,
    ∀ v, cValue realSem (fun _ => v) (a.text [.var 0]) = some (act v) :=
  ⟨a.compute, fun v => C29_text a ha (fun _ => v) 0⟩
example : (Act.clip (6 : ℝ) 0).accepted ∧ (Act.leakyRelu (1 / 10 : ℝ)).accepted := by
  constructor <;> simp only [Act.accepted] <;> norm_num

/-- The constructor check of `Clip` is needed: with `min > max` the C text and the Python reference
would differ. -/
theorem C29_clip_check_needed : cValue realSem (fun _ => 0) ((Act.clip (1 : ℝ) 2).text [.var 0]) = some 2 ∧
    (Act.clip (1 : ℝ) 2).compute 0 = 1 := by
  constructor
  · have h1 : ¬ (1 : ℝ) < 0 := by norm_num
    have h2 : ¬ (2 : ℝ) < 0 := by norm_num
    simp only [Act.text, numToks, h1, h2, if_false]
    show some _ = some _
    simp [CExpr.eval, not_lt.2 (zero_le_one' ℝ)]
  · simp only [Act.compute]; norm_num

/-- Splicing is not safe for every text: with the compound text `x + y`, the SiLU of the sum is *not*
what C computes. -/
theorem C29_fails_sum_text : cValue realSem (fun _ => 1) (Act.silu.text [.var 0, .op .add, .var 1]) ≠
    some (Act.silu.compute 2) := by
  have e : cValue realSem (fun _ => 1) (Act.silu.text [.var 0, .op .add, .var 1]) =
      some (1 + 1 / (1 + Real.exp (-1 + 1))) := rfl
  rw [e]
  intro h
  rw [Option.some_inj] at h
  simp only [Act.compute] at h
  have h1 : (-1 + 1 : ℝ) = 0 := by norm_num
  rw [h1, Real.exp_zero] at h
  have hp : Real.exp (-2) < 1 := by rw [Real.exp_lt_one_iff]; norm_num
  have hp0 := Real.exp_pos (-2)
  have : (2 : ℝ) / (1 + Real.exp (-2)) = 3 / 2 := by rw [← h]; norm_num
  have h3 : Real.exp (-2) = 1 / 3 := by
    rw [div_eq_iff (by positivity)] at this; linarith
  -- exp(-2) = 1/3 is impossible: exp(-2) = exp(-1)^2 and exp(-1) < 1/2
  have h5 : Real.exp (-2) = Real.exp (-1) * Real.exp (-1) := by rw [← Real.exp_add]; norm_num
  have h6 : Real.exp (-1) ≤ 1 / 2 := by
    rw [Real.exp_neg, inv_eq_one_div]
    have := Real.add_one_le_exp (1 : ℝ)
    exact one_div_le_one_div_of_le (by norm_num) (by linarith)
  have h7 := Real.exp_pos (-1)
  nlinarith

end Verif.Layers

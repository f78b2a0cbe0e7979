import Verif.CText.IoCode
import Verif.CText.Rules

/-!
# The texts of Input, Flatten, Constant and of the copy to the prediction
-/

namespace Verif.CText
open Prog Layers
set_option linter.unusedVariables false
set_option linter.unusedSectionVars false
variable {K : Type} [Field K] [LinearOrder K] [FloorRing K]
variable {ints : Ident → Option (List Nat)}

theorem input_renders (L : Lib K) (fmt gen : DataFormat) (rank4 : Bool) (C H W size idx road : Nat) :
    Renders (std L ints) Tpl.input_Layer (inputHash fmt gen rank4 C H W size idx road)
      [((.f, none), .int), ((.i, none), .int), ((.j, none), .int), ((.k, none), .int)]
      (inputCode fmt gen rank4 C H W size road) := by
  have hcopy : ∀ h : Hash K, code Tpl.input_Layer h = some (inputKeepAst C H W size idx road) →
      Renders (std L ints) Tpl.input_Layer h [((.f, none), .int), ((.i, none), .int), ((.j, none), .int), ((.k, none), .int)]
        (copyMap size .input (.out road) id) := by
    intro h hh
    refine Renders.of_sim (size + 1) hh fun e he F hF => ?_
    exact Sim.copyAct (act := .linear) (by simp) (by simp) (by omega) (he.int _ (by simp)) rfl rfl (.inr (by simp))
  unfold inputHash inputCode
  cases rank4
  · simpa using hcopy _ (inputFlat_code C H W size idx road)
  · by_cases h1 : fmt = .first ∧ gen = .last
    · simp only [h1, and_self, if_true]
      refine Renders.of_sim (C + H + W + 1) (inputLast_code C H W size idx road) fun e he F hF => ?_
      refine Sim.loop3 (by simp) (by simp) (by simp) (by omega) (he.int _ (by simp)) (he.int _ (by simp))
        (he.int _ (by simp)) fun f i j _ _ _ => Sim.block' ?_ rfl
      exact Sim.store (by simp) (by simp [Expr.vars]) (by simp [Expr.vars]) (by ceval) (by ceval)
    · by_cases h2 : fmt = .last ∧ gen = .first
      · simp only [h2, if_true]
        refine Renders.of_sim (C + H + W + 1) (inputFirst_code C H W size idx road) fun e he F hF => ?_
        refine Sim.loop3 (by simp) (by simp) (by simp) (by omega) (he.int _ (by simp)) (he.int _ (by simp))
          (he.int _ (by simp)) fun f i j _ _ _ => Sim.block' ?_ rfl
        exact Sim.store (by simp) (by simp [Expr.vars]) (by simp [Expr.vars]) (by ceval) (by ceval)
      · simpa only [h1, h2, if_true, if_false, and_false] using hcopy _ (inputKeep_code C H W size idx road)

theorem output_renders (L : Lib K) (fmt gen : DataFormat) (rank4 : Bool) (C H W size path : Nat) :
    Renders (std L ints) Tpl.output (outputHash fmt gen rank4 C H W size path)
      [((.f, none), .int), ((.i, none), .int), ((.j, none), .int), ((.k, none), .int)]
      (outputCode fmt gen rank4 C H W size path) := by
  have hcopy : ∀ h : Hash K, code Tpl.output h = some (outputKeepAst C H W size path) →
      Renders (std L ints) Tpl.output h [((.f, none), .int), ((.i, none), .int), ((.j, none), .int), ((.k, none), .int)]
        (copyMap size (.out path) .pred id) := by
    intro h hh
    refine Renders.of_sim (size + 1) hh fun e he F hF => ?_
    exact Sim.copy (by simp) (by simp) (by omega) (he.int _ (by simp)) rfl rfl (.inl rfl)
  unfold outputHash outputCode
  cases rank4
  · simpa using hcopy _ (outputFlat_code C H W size path)
  · by_cases h1 : fmt = .first ∧ gen = .last
    · simp only [h1, and_self, if_true]
      refine Renders.of_sim (C + H + W + 1) (outputLast_code C H W size path) fun e he F hF => ?_
      refine Sim.loop3 (by simp) (by simp) (by simp) (by omega) (he.int _ (by simp)) (he.int _ (by simp))
        (he.int _ (by simp)) fun f i j _ _ _ => Sim.block' ?_ rfl
      exact Sim.store (by simp) (by simp [Expr.vars]) (by simp [Expr.vars]) (by ceval) (by ceval)
    · by_cases h2 : fmt = .last ∧ gen = .first
      · simp only [h2, if_true]
        refine Renders.of_sim (C + H + W + 1) (outputFirst_code C H W size path) fun e he F hF => ?_
        refine Sim.loop3 (by simp) (by simp) (by simp) (by omega) (he.int _ (by simp)) (he.int _ (by simp))
          (he.int _ (by simp)) fun f i j _ _ _ => Sim.block' ?_ rfl
        exact Sim.store (by simp) (by simp [Expr.vars]) (by simp [Expr.vars]) (by ceval) (by ceval)
      · simpa only [h1, h2, if_true, if_false, and_false] using hcopy _ (outputKeep_code C H W size path)

theorem flatten_renders (L : Lib K) (fmt : DataFormat) (C H W size idx path : Nat) :
    Renders (std L ints) Tpl.flatten (flattenHash fmt C H W size idx path)
      [((.f, none), .int), ((.i, none), .int), ((.j, none), .int), ((.k, none), .int)]
      (flattenCode fmt C H W size path) := by
  cases fmt
  · exact Renders.of_sim 0 flattenFirst_code fun e he F hF => Sim.skip
  · refine Renders.of_sim (C + H + W + size + 1) (flattenLast_code C H W size idx path) fun e he F hF => ?_
    refine Sim.seq (Sim.loop3 (by simp) (by simp) (by simp) (by omega) (he.int _ (by simp)) (he.int _ (by simp))
      (he.int _ (by simp)) fun f i j _ _ _ => Sim.block' ?_ rfl)
      fun _ => Sim.copy (by simp) (by simp) (by omega) (he.int _ (by simp)) rfl rfl (.inl rfl)
    exact Sim.store (by simp) (by simp [Expr.vars]) (by simp [Expr.vars]) (by ceval) (by ceval)

theorem constant_renders (L : Lib K) (size idx road : Nat) :
    Renders (std L ints) Tpl.constant (constantHash size idx road) [((.k, none), .int)] (constantCode size idx road) := by
  cases size with
  | zero => exact Renders.of_sim 0 (constantZero_code idx road) fun e he F hF => Sim.skip
  | succ n =>
    refine Renders.of_sim (n + 2) (constantSucc_code n idx road) fun e he F hF => ?_
    exact Sim.copyAct (act := .linear) (by simp) (by simp) (by omega) (he.int _ (by simp)) rfl (by simp [parKind, isPrefix]) (.inr (by simp))

end Verif.CText

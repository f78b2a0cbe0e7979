import Verif.CText.MoveCode
import Verif.CText.Rules

/-!
# The texts of Tile and Transpose
-/

namespace Verif.CText
open Prog Layers
set_option linter.unusedVariables false
set_option linter.unusedSectionVars false
variable {K : Type} [Field K] [LinearOrder K] [FloorRing K]
variable {ints : Ident → Option (List Nat)}

theorem tile_renders (L : Lib K) (Ci Hi Wi Co Ho Wo size idx : Nat) (act : CAct K) (src : Ref) (road : Nat)
    (hC : 0 < Ci) (hH : 0 < Hi) (hW : 0 < Wi) :
    Renders (std L ints) Tpl.tile (tileHash Ci Hi Wi Co Ho Wo size idx act src road)
      [((.f, none), .int), ((.i, none), .int), ((.j, none), .int), ((.k, none), .int)]
      (tileCode Ci Hi Wi Co Ho Wo size (act.fn (std L ints)) src.buf road) := by
  refine Renders.of_sim (Co + Ho + Wo + size + 1) (tile_code ..) fun e he F hF => ?_
  refine Sim.seq (Sim.loop3 (by simp) (by simp) (by simp) (by omega) (he.int _ (by simp)) (he.int _ (by simp))
    (he.int _ (by simp)) fun f i j _ _ _ => Sim.block' ?_ rfl)
    fun _ => Sim.copyAct (by simp) (by simp) (by omega) (he.int _ (by simp)) rfl rfl (.inl rfl)
  refine Sim.store (by simp) (by simp [Expr.vars]) (by simp [Expr.vars]) (by ceval [at3]) ?_
  ceval [hC.ne', hH.ne', hW.ne', tmod_nat]

theorem transpose_renders (L : Lib K) (p : Perm3) (Hi Wi Co Ho Wo size idx : Nat) (act : CAct K) (src : Ref) (road : Nat) :
    Renders (std L ints) Tpl.transpose (transposeHash p Hi Wi Co Ho Wo size idx act src road)
      [((.f, none), .int), ((.i, none), .int), ((.j, none), .int), ((.k, none), .int)]
      (transposeCode p Hi Wi Co Ho Wo size (act.fn (std L ints)) src.buf road) := by
  refine Renders.of_sim (Co + Ho + Wo + size + 1) (transpose_code ..) fun e he F hF => ?_
  refine Sim.seq (Sim.loop3 (by simp) (by simp) (by simp) (by omega) (he.int _ (by simp)) (he.int _ (by simp))
    (he.int _ (by simp)) fun f i j _ _ _ => Sim.block' ?_ rfl)
    fun _ => Sim.copyAct (by simp) (by simp) (by omega) (he.int _ (by simp)) rfl rfl (.inl rfl)
  refine Sim.store (by simp) (by simp [Expr.vars]) ?_ (by ceval [at3]) ?_
  · cases p <;> simp [Expr.vars, transposeAxes, Perm3.axis, axisName]
  · cases p <;> ceval [transposeVars, transposeAxes, Perm3.axis, axisName, loopVar]

end Verif.CText

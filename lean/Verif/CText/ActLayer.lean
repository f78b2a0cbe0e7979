import Verif.CText.Rules
import Verif.Layers.Activations

/-!
# The text of the activation layers
-/

namespace Verif.CText
open Prog Layers
set_option linter.unusedVariables false
set_option linter.unusedSectionVars false
variable {K : Type} [Field K] [LinearOrder K] [FloorRing K]
variable {ints : Ident → Option (List Nat)}

/-- the template of `layers/activation_layers/ActivationLayerDefault.py` 42-43 -/
def activationTpl : List Char :=
  chars! "    //{{name}}_{{idx}}\n    for (k = 0; k < {{size}}; ++k) ctx->output_{{path}}[k] = {{{function_str}}};\n"

/-- what `ActivationLayerDefault.py` 45-54 passes to it -/
def activationHash (size idx : Nat) (act : CAct K) (src : Ref) (road : Nat) : Hash K :=
  [(chars! "name", .word (chars! "Activation")), (chars! "idx", .num idx), (chars! "size", .num size), (chars! "path", .num road),
   (chars! "function_str", act.text [.id (.ctx, none), .punct .arrow, .id src.ident, .punct .lbrk, .id (.k, none), .punct .rbrk])]

/-- the program that the text is -/
def activationAst (size : Nat) (act : CAct K) (src : Ref) (road : Nat) : Stmt K :=
  loop (.k, none) size (.assign (.idx true (.output, some ⟨false, road⟩) (.var (.k, none))) .set (act.expr (.idx true src.ident (.var (.k, none)))))

theorem activation_code (size idx : Nat) (act : CAct K) (src : Ref) (road : Nat) :
    code activationTpl (activationHash size idx act src road) = some (activationAst size act src road) := by
  unfold activationHash activationAst
  generalize src.ident = x
  rcases act with _ | _ | _ | ⟨_ | _, _⟩ | _ | _ | _ | _ | ⟨⟨_ | _, _⟩, ⟨_ | _, _⟩⟩ <;> kernel_rfl

theorem activation_renders (L : Lib K) (size idx : Nat) (act : CAct K) (src : Ref) (road : Nat) :
    Renders (std L ints) activationTpl (activationHash size idx act src road) [((.k, none), .int)]
      (activationLayerCode size (act.fn (std L ints)) src.buf road) := by
  refine Renders.of_sim (size + 1) (activation_code ..) fun e he F hF => ?_
  have hk := he.int (.k, none) (by simp)
  refine Sim.for (by simp) (by simp) (by omega) hk fun i _ => ?_
  refine Sim.storeAct (q := load src.buf i) (by simp) (by simp [Expr.vars]) (by simp [Expr.vars]) ?_ (Reads.load _ _) ?_ ?_
  · simp [Expr.eval, upd, ofOpt_some]
  · simp [Expr.eval, upd, ofOpt_some, ret_andThen, loadAt]
  · simp [isFlt]

/-- ReLU on six numbers -/
example (L : Lib K) : Renders (std L ints) activationTpl (activationHash 6 2 .relu (.cst 1) 0) [((.k, none), .int)]
    (activationLayerCode 6 (CAct.relu.fn (std L ints)) (.cst 1) 0) := activation_renders L 6 2 .relu (.cst 1) 0

end Verif.CText

import Verif.CText.Std
import Verif.CText.MoreTemplates
import Verif.Gen.Normalize

/-!
# The texts of the normalisation of NNET networks: hashes and programs
-/

namespace Verif.CText
open Prog
set_option linter.unusedVariables false
variable {K : Type} [Field K] [LinearOrder K] [FloorRing K]

/-- what `importers/NNET_importer/nnet_normalize.py` 72 passes to the template -/
def normPreHash (n : Nat) : Hash K := [(chars! "input_size", .num n)]

/-- what `importers/NNET_importer/nnet_normalize.py` 83 passes to the template -/
def normPostHash (n : Nat) : Hash K := [(chars! "output_size", .num n)]

/-- the `i`-th element of a constant array of the normalisation -/
abbrev normE (cs : List Char) : Expr K := .idx false (.other cs, none) (.var (.i, none))

/-- `(e - input_mean[i]) / input_range[i]` -/
abbrev normedE (e : Expr K) : Expr K := .bin .div (.bin .sub e (normE (chars! "input_mean"))) (normE (chars! "input_range"))

/-- `nn_input[i]`, read -/
abbrev nnInputE : Expr K := .idx false (.nn_input, none) (.var (.i, none))

/-- `nn_input[i] = (e - input_mean[i]) / input_range[i]` -/
abbrev normStmt (e : Expr K) : Stmt K := .assign (.idx false (.nn_input, none) (.var (.i, none))) .set (normedE e)

/-- the program that the text is -/
def normPreAst (n : Nat) : Stmt K :=
  loop (.i, none) n (.block
    (.ite (.bin .lt nnInputE (normE (chars! "input_min"))) (.block (normStmt (normE (chars! "input_min"))))
      (.block (.ite (.bin .gt nnInputE (normE (chars! "input_max"))) (.block (normStmt (normE (chars! "input_max")))) (.block (normStmt nnInputE))))))

/-- the program that the text is -/
def normPostAst (n : Nat) : Stmt K :=
  loop (.k, none) n (.block (.assign (.idx false (.prediction, none) (.var (.k, none))) .set
    (.bin .add (.bin .mul (.idx false (.prediction, none) (.var (.k, none))) (.var (.other (chars! "output_range"), none)))
      (.var (.other (chars! "output_mean"), none)))))

omit [LinearOrder K] [FloorRing K] in
theorem pre_code (n : Nat) : code Tpl.pre_processing (normPreHash n) = some (normPreAst n : Stmt K) := by
  unfold normPreHash normPreAst; kernel_rfl

omit [LinearOrder K] [FloorRing K] in
theorem post_code (n : Nat) : code Tpl.post_processing (normPostHash n) = some (normPostAst n : Stmt K) := by
  unfold normPostHash normPostAst; kernel_rfl

end Verif.CText

import Verif.CText.Std
import Verif.Layers.Layout

/-!
# The texts of Input, Flatten, Constant and of the copy to the prediction: hashes and programs
-/

namespace Verif.CText
open Prog Layers
set_option linter.unusedVariables false
variable {K : Type} [Field K] [LinearOrder K] [FloorRing K]

/-- what `layers/input/InputDefault.py` 38-62 passes to the template, channels-first model, channels-last code -/
def inputLastHash (C H W size idx road : Nat) : Hash K :=
  [(chars! "name", .word (chars! "Input_layer")), (chars! "idx", .num2 idx), (chars! "road", .num road),
   (chars! "channels_first_to_last", .bool true), (chars! "input_channels", .num C), (chars! "input_height", .num H),
   (chars! "input_width", .num W)]

/-- the program that the text is -/
def inputLastAst (C H W size idx road : Nat) : Stmt K :=
  (loop (.f, none) C
    (.block
      (loop (.i, none) H
        (.block
          (loop (.j, none) W
            (.block
              (.assign (.idx true (.output, some ⟨false, road⟩) (.bin .add (.bin .mul (.bin .add (.bin .mul (.var
                  (.i, none)) (.num W)) (.var (.j, none))) (.num C)) (.var (.f, none)))) .set (.idx false
                  (.nn_input, none) (.bin .add (.bin .mul (.bin .add (.var (.i, none)) (.bin .mul (.num H) (.var
                  (.f, none)))) (.num W)) (.var (.j, none)))))))))))

omit [LinearOrder K] [FloorRing K] in
theorem inputLast_code (C H W size idx road : Nat) :
    code Tpl.input_Layer (inputLastHash C H W size idx road) =
      some (inputLastAst C H W size idx road : Stmt K) := by
  kernel_rfl

/-- what `layers/input/InputDefault.py` 38-62 passes to the template, channels-last model, channels-first code -/
def inputFirstHash (C H W size idx road : Nat) : Hash K :=
  [(chars! "name", .word (chars! "Input_layer")), (chars! "idx", .num2 idx), (chars! "road", .num road),
   (chars! "channels_last_to_first", .bool true), (chars! "input_channels", .num C), (chars! "input_height", .num H),
   (chars! "input_width", .num W)]

/-- the program that the text is -/
def inputFirstAst (C H W size idx road : Nat) : Stmt K :=
  (loop (.f, none) C
    (.block
      (loop (.i, none) H
        (.block
          (loop (.j, none) W
            (.block
              (.assign (.idx true (.output, some ⟨false, road⟩) (.bin .add (.bin .mul (.bin .add (.var (.i, none))
                  (.bin .mul (.num H) (.var (.f, none)))) (.num W)) (.var (.j, none)))) .set (.idx false
                  (.nn_input, none) (.bin .add (.bin .mul (.bin .add (.bin .mul (.var (.i, none)) (.num W)) (.var
                  (.j, none))) (.num C)) (.var (.f, none)))))))))))

omit [LinearOrder K] [FloorRing K] in
theorem inputFirst_code (C H W size idx road : Nat) :
    code Tpl.input_Layer (inputFirstHash C H W size idx road) =
      some (inputFirstAst C H W size idx road : Stmt K) := by
  kernel_rfl

/-- what `layers/input/InputDefault.py` 38-62 passes to the template, same layout -/
def inputKeepHash (C H W size idx road : Nat) : Hash K :=
  [(chars! "name", .word (chars! "Input_layer")), (chars! "idx", .num2 idx), (chars! "road", .num road),
   (chars! "keep_channels", .bool true), (chars! "size", .num size), (chars! "input_channels", .num C),
   (chars! "input_height", .num H), (chars! "input_width", .num W)]

/-- the program that the text is -/
def inputKeepAst (C H W size idx road : Nat) : Stmt K :=
  (loop (.k, none) size
    (.block
      (.assign (.idx true (.output, some ⟨false, road⟩) (.var (.k, none))) .set (.idx false (.nn_input, none) (.var
          (.k, none))))))

omit [LinearOrder K] [FloorRing K] in
theorem inputKeep_code (C H W size idx road : Nat) :
    code Tpl.input_Layer (inputKeepHash C H W size idx road) =
      some (inputKeepAst C H W size idx road : Stmt K) := by
  kernel_rfl

/-- what `layers/input/InputDefault.py` 38-62 passes to the template, not of rank 4 -/
def inputFlatHash (C H W size idx road : Nat) : Hash K :=
  [(chars! "name", .word (chars! "Input_layer")), (chars! "idx", .num2 idx), (chars! "road", .num road),
   (chars! "keep_channels", .bool true), (chars! "size", .num size)]

/-- the program that the text is -/
def inputFlatAst (C H W size idx road : Nat) : Stmt K :=
  (loop (.k, none) size
    (.block
      (.assign (.idx true (.output, some ⟨false, road⟩) (.var (.k, none))) .set (.idx false (.nn_input, none) (.var
          (.k, none))))))

omit [LinearOrder K] [FloorRing K] in
theorem inputFlat_code (C H W size idx road : Nat) :
    code Tpl.input_Layer (inputFlatHash C H W size idx road) =
      some (inputFlatAst C H W size idx road : Stmt K) := by
  kernel_rfl

/-- the hash, by case -/
def inputHash (fmt gen : DataFormat) (rank4 : Bool) (C H W size idx road : Nat) : Hash K :=
  if rank4 then
    if fmt = .first ∧ gen = .last then inputLastHash C H W size idx road
    else if fmt = .last ∧ gen = .first then inputFirstHash C H W size idx road
    else inputKeepHash C H W size idx road
  else inputFlatHash C H W size idx road

/-- what `neural_network.py` 931-945 passes to `memory_layout/template_output.c.tpl`, channels-first model, channels-last code -/
def outputLastHash (C H W size path : Nat) : Hash K :=
  [(chars! "path", .num path), (chars! "output_height", .num H), (chars! "output_width", .num W),
   (chars! "output_channels", .num C), (chars! "channels_last_to_first", .bool true)]

/-- the program that the text is -/
def outputLastAst (C H W size path : Nat) : Stmt K :=
  (loop (.f, none) C
    (.block
      (loop (.i, none) H
        (.block
          (loop (.j, none) W
            (.block
              (.assign (.idx false (.prediction, none) (.bin .add (.bin .mul (.bin .add (.bin .mul (.var (.f, none))
                  (.num H)) (.var (.i, none))) (.num W)) (.var (.j, none)))) .set (.idx true
                  (.output, some ⟨false, path⟩) (.bin .add (.bin .mul (.bin .add (.bin .mul (.var (.i, none))
                  (.num W)) (.var (.j, none))) (.num C)) (.var (.f, none)))))))))))

omit [LinearOrder K] [FloorRing K] in
theorem outputLast_code (C H W size path : Nat) :
    code Tpl.output (outputLastHash C H W size path) =
      some (outputLastAst C H W size path : Stmt K) := by
  kernel_rfl

/-- what `neural_network.py` 931-945 passes to `memory_layout/template_output.c.tpl`, channels-last model, channels-first code -/
def outputFirstHash (C H W size path : Nat) : Hash K :=
  [(chars! "path", .num path), (chars! "output_height", .num H), (chars! "output_width", .num W),
   (chars! "output_channels", .num C), (chars! "channels_first_to_last", .bool true)]

/-- the program that the text is -/
def outputFirstAst (C H W size path : Nat) : Stmt K :=
  (loop (.f, none) C
    (.block
      (loop (.i, none) H
        (.block
          (loop (.j, none) W
            (.block
              (.assign (.idx false (.prediction, none) (.bin .add (.bin .mul (.bin .add (.bin .mul (.var (.i, none))
                  (.num W)) (.var (.j, none))) (.num C)) (.var (.f, none)))) .set (.idx true
                  (.output, some ⟨false, path⟩) (.bin .add (.bin .mul (.bin .add (.bin .mul (.var (.f, none))
                  (.num H)) (.var (.i, none))) (.num W)) (.var (.j, none)))))))))))

omit [LinearOrder K] [FloorRing K] in
theorem outputFirst_code (C H W size path : Nat) :
    code Tpl.output (outputFirstHash C H W size path) =
      some (outputFirstAst C H W size path : Stmt K) := by
  kernel_rfl

/-- what `neural_network.py` 931-945 passes to `memory_layout/template_output.c.tpl`, same layout -/
def outputKeepHash (C H W size path : Nat) : Hash K :=
  [(chars! "path", .num path), (chars! "output_height", .num H), (chars! "output_width", .num W),
   (chars! "output_channels", .num C), (chars! "keep_channels", .bool true), (chars! "output_size", .num size)]

/-- the program that the text is -/
def outputKeepAst (C H W size path : Nat) : Stmt K :=
  (loop (.k, none) size
    (.block
      (.assign (.idx false (.prediction, none) (.var (.k, none))) .set (.idx true (.output, some ⟨false, path⟩)
          (.var (.k, none))))))

omit [LinearOrder K] [FloorRing K] in
theorem outputKeep_code (C H W size path : Nat) :
    code Tpl.output (outputKeepHash C H W size path) =
      some (outputKeepAst C H W size path : Stmt K) := by
  kernel_rfl

/-- what `neural_network.py` 931-945 passes to `memory_layout/template_output.c.tpl`, not of rank 4 -/
def outputFlatHash (C H W size path : Nat) : Hash K :=
  [(chars! "path", .num path), (chars! "keep_channels", .bool true), (chars! "output_size", .num size)]

/-- the program that the text is -/
def outputFlatAst (C H W size path : Nat) : Stmt K :=
  (loop (.k, none) size
    (.block
      (.assign (.idx false (.prediction, none) (.var (.k, none))) .set (.idx true (.output, some ⟨false, path⟩)
          (.var (.k, none))))))

omit [LinearOrder K] [FloorRing K] in
theorem outputFlat_code (C H W size path : Nat) :
    code Tpl.output (outputFlatHash C H W size path) =
      some (outputFlatAst C H W size path : Stmt K) := by
  kernel_rfl

/-- the hash, by case -/
def outputHash (fmt gen : DataFormat) (rank4 : Bool) (C H W size path : Nat) : Hash K :=
  if rank4 then
    if fmt = .first ∧ gen = .last then outputLastHash C H W size path
    else if fmt = .last ∧ gen = .first then outputFirstHash C H W size path
    else outputKeepHash C H W size path
  else outputFlatHash C H W size path

/-- what `layers/flatten/FlattenDefault.py` 38-51 passes to the template, channels-last model -/
def flattenLastHash (C H W size idx path : Nat) : Hash K :=
  [(chars! "channels_last", .bool true), (chars! "input_channels", .num C), (chars! "input_height", .num H),
   (chars! "input_width", .num W), (chars! "name", .word (chars! "Flatten")), (chars! "idx", .num2 idx),
   (chars! "path", .num path), (chars! "size", .num size)]

/-- the program that the text is -/
def flattenLastAst (C H W size idx path : Nat) : Stmt K :=
  (.seq
    (loop (.f, none) C
      (.block
        (loop (.i, none) H
          (.block
            (loop (.j, none) W
              (.block
                (.assign (.idx true (.tensor_temp, none) (.bin .add (.bin .mul (.bin .add (.bin .mul (.var
                    (.i, none)) (.num W)) (.var (.j, none))) (.num C)) (.var (.f, none)))) .set (.idx true
                    (.output, some ⟨false, path⟩) (.bin .add (.bin .mul (.bin .add (.bin .mul (.var (.f, none))
                    (.num H)) (.var (.i, none))) (.num W)) (.var (.j, none)))))))))))
    (loop (.k, none) size
      (.block
        (.assign (.idx true (.output, some ⟨false, path⟩) (.var (.k, none))) .set (.idx true (.tensor_temp, none)
            (.var (.k, none)))))))

omit [LinearOrder K] [FloorRing K] in
theorem flattenLast_code (C H W size idx path : Nat) :
    code Tpl.flatten (flattenLastHash C H W size idx path) =
      some (flattenLastAst C H W size idx path : Stmt K) := by
  kernel_rfl

/-- the same, channels-first model: nothing -/
def flattenFirstHash : Hash K := []

omit [LinearOrder K] [FloorRing K] in
theorem flattenFirst_code : code Tpl.flatten (flattenFirstHash : Hash K) = some .skip := by kernel_rfl

/-- the hash, by case -/
def flattenHash (fmt : DataFormat) (C H W size idx path : Nat) : Hash K :=
  match fmt with
  | .last => flattenLastHash C H W size idx path
  | .first => flattenFirstHash

/-- what `layers/constant.py` 90-97 passes to the template, for an array that is not empty -/
def constantSuccHash (n idx road : Nat) : Hash K :=
  [(chars! "name", .word (chars! "Constant")), (chars! "idx", .num2 idx),
   (chars! "weights_var", .toks [.id (.other (chars! "weights_Constant"), some ⟨decide (idx < 10), idx⟩)]),
   (chars! "road", .num road), (chars! "size", .num (n + 1))]

/-- the program that the text is -/
def constantSuccAst (n idx road : Nat) : Stmt K :=
  (loop (.k, none) (n + 1)
    (.block
      (.assign (.idx true (.output, some ⟨false, road⟩) (.var (.k, none))) .set (.idx false (.other
          (chars! "weights_Constant"), some ⟨decide (idx < 10), idx⟩) (.var (.k, none))))))

omit [LinearOrder K] [FloorRing K] in
theorem constantSucc_code (n idx road : Nat) :
    code Tpl.constant (constantSuccHash n idx road) =
      some (constantSuccAst n idx road : Stmt K) := by
  kernel_rfl

/-- the same, for any size -/
def constantHash (size idx road : Nat) : Hash K :=
  [(chars! "name", .word (chars! "Constant")), (chars! "idx", .num2 idx),
   (chars! "weights_var", .toks [.id (.other (chars! "weights_Constant"), some ⟨decide (idx < 10), idx⟩)]),
   (chars! "road", .num road), (chars! "size", .num size)]

omit [LinearOrder K] [FloorRing K] in
theorem constantZero_code (idx road : Nat) : code Tpl.constant (constantHash 0 idx road : Hash K) = some .skip := by kernel_rfl


end Verif.CText

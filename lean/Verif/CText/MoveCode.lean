import Verif.CText.Std
import Verif.Layers.Move

/-!
# The texts of Tile and Transpose: hashes and programs
-/

namespace Verif.CText
open Prog Layers
set_option linter.unusedVariables false
variable {K : Type} [Field K] [LinearOrder K] [FloorRing K]

/-- what `layers/tile/TileDefault.py` 38-65 passes to the template -/
def tileHash (Ci Hi Wi Co Ho Wo size idx : Nat) (act : CAct K) (src : Ref) (road : Nat) : Hash K :=
  [(chars! "name", .word (chars! "Tile")), (chars! "idx", .num2 idx), (chars! "output_str", src.text),
   (chars! "road", .num road), (chars! "size", .num size),
   (chars! "activation_function", act.text [.id (.ctx, none), .punct .arrow, .id (.tensor_temp, none),
     .punct .lbrk, .id (.k, none), .punct .rbrk]), (chars! "output_channels", .num Co),
   (chars! "output_height", .num Ho), (chars! "output_width", .num Wo), (chars! "input_channels", .num Ci),
   (chars! "input_height", .num Hi), (chars! "input_width", .num Wi)]

/-- the program that the text is -/
def tileAst (Ci Hi Wi Co Ho Wo size idx : Nat) (act : CAct K) (src : Ref) (road : Nat) : Stmt K :=
  (.seq
    (loop (.f, none) Co
      (.block
        (loop (.i, none) Ho
          (.block
            (loop (.j, none) Wo
              (.block
                (.assign (.idx true (.tensor_temp, none) (.bin .add (.var (.j, none)) (.bin .mul (.num Wo)
                    (.bin .add (.var (.i, none)) (.bin .mul (.num Ho) (.var (.f, none))))))) .set
                    (.idx true src.ident (.bin .add (.bin .mod (.var (.j, none)) (.num Wi)) (.bin .mul (.num Wi)
                    (.bin .add (.bin .mod (.var (.i, none)) (.num Hi)) (.bin .mul (.num Hi) (.bin .mod (.var
                    (.f, none)) (.num Ci))))))))))))))
    (loop (.k, none) size
      (.block
        (.assign (.idx true (.output, some ⟨false, road⟩) (.var (.k, none))) .set (act.expr (.idx true
            (.tensor_temp, none) (.var (.k, none))))))))

omit [LinearOrder K] [FloorRing K] in
theorem tile_code (Ci Hi Wi Co Ho Wo size idx : Nat) (act : CAct K) (src : Ref) (road : Nat) :
    code Tpl.tile (tileHash Ci Hi Wi Co Ho Wo size idx act src road) =
      some (tileAst Ci Hi Wi Co Ho Wo size idx act src road : Stmt K) := by
  obtain ⟨x_src, n_src, ht_src, hi_src⟩ := src.any K
  unfold tileHash tileAst
  rw [ht_src, hi_src]
  clear ht_src hi_src
  rcases act with _ | _ | _ | ⟨_ | _, _⟩ | _ | _ | _ | _ | ⟨⟨_ | _, _⟩, ⟨_ | _, _⟩⟩ <;>
    kernel_rfl

/-- the text of a loop variable (`transpose/TransposeDefault.py` 58) -/
def axisName : Np.Axis → Name | .c => .f | .h => .i | .w => .j

/-- the three variables, as `TransposeDefault.py` 59-70 chooses them: the values of `a`, `b` and `c` -/
def transposeAxes (p : Perm3) : Np.Axis × Np.Axis × Np.Axis :=
  match p with
  | .p231 => (p.axis .c, p.axis .w, p.axis .h)
  | .p312 => (p.axis .h, p.axis .c, p.axis .w)
  | p => (p.axis .w, p.axis .h, p.axis .c)

/-- the text of a loop variable -/
def axisText : Np.Axis → HVal K
  | .c => .word (chars! "f")
  | .h => .word (chars! "i")
  | .w => .word (chars! "j")

/-- what `layers/transpose/TransposeDefault.py` 38-77 passes to the template -/
def transposeHash (p : Perm3) (Hi Wi Co Ho Wo size idx : Nat) (act : CAct K) (src : Ref) (road : Nat) : Hash K :=
  [(chars! "name", .word (chars! "Transpose")), (chars! "idx", .num2 idx), (chars! "output_str", src.text),
   (chars! "road", .num road), (chars! "size", .num size),
   (chars! "activation_function", act.text [.id (.ctx, none), .punct .arrow, .id (.tensor_temp, none),
     .punct .lbrk, .id (.k, none), .punct .rbrk]), (chars! "output_channels", .num Co),
   (chars! "output_height", .num Ho), (chars! "output_width", .num Wo), (chars! "input_height", .num Hi),
   (chars! "input_width", .num Wi), (chars! "a", axisText (transposeAxes p).1),
   (chars! "b", axisText (transposeAxes p).2.1), (chars! "c", axisText (transposeAxes p).2.2)]

/-- the program that the text is -/
def transposeAst (p : Perm3) (Hi Wi Co Ho Wo size idx : Nat) (act : CAct K) (src : Ref) (road : Nat) : Stmt K :=
  (.seq
    (loop (.f, none) Co
      (.block
        (loop (.i, none) Ho
          (.block
            (loop (.j, none) Wo
              (.block
                (.assign (.idx true (.tensor_temp, none) (.bin .add (.var (.j, none)) (.bin .mul (.num Wo)
                    (.bin .add (.var (.i, none)) (.bin .mul (.num Ho) (.var (.f, none))))))) .set
                    (.idx true src.ident (.bin .add (.var (axisName (transposeAxes p).1, none)) (.bin .mul (.num Wi)
                    (.bin .add (.var (axisName (transposeAxes p).2.1, none)) (.bin .mul (.num Hi) (.var (axisName
                    (transposeAxes p).2.2, none))))))))))))))
    (loop (.k, none) size
      (.block
        (.assign (.idx true (.output, some ⟨false, road⟩) (.var (.k, none))) .set (act.expr (.idx true
            (.tensor_temp, none) (.var (.k, none))))))))

omit [LinearOrder K] [FloorRing K] in
theorem transpose_code (p : Perm3) (Hi Wi Co Ho Wo size idx : Nat) (act : CAct K) (src : Ref) (road : Nat) :
    code Tpl.transpose (transposeHash p Hi Wi Co Ho Wo size idx act src road) =
      some (transposeAst p Hi Wi Co Ho Wo size idx act src road : Stmt K) := by
  obtain ⟨x_src, n_src, ht_src, hi_src⟩ := src.any K
  unfold transposeHash transposeAst
  rw [ht_src, hi_src]
  clear ht_src hi_src
  rcases act with _ | _ | _ | ⟨_ | _, _⟩ | _ | _ | _ | _ | ⟨⟨_ | _, _⟩, ⟨_ | _, _⟩⟩ <;>
    cases p <;> kernel_rfl


end Verif.CText

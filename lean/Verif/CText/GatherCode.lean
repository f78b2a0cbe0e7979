import Verif.CText.Std
import Verif.Layers.Move

/-!
# The texts of Gather and GatherElements: hashes and programs
-/

namespace Verif.CText
open Prog Layers
set_option linter.unusedVariables false
variable {K : Type} [Field K] [LinearOrder K] [FloorRing K]

/-- what `layers/gather_elements/GatherElementsDefault.py` 38-71 passes to the template, axis 1 -/
def gatherElementsCHash (W H Co Ho Wo size idx : Nat) (act : CAct K) (src : Ref) (road : Nat) : Hash K :=
  [(chars! "name", .word (chars! "GatherElements")), (chars! "idx", .num2 idx), (chars! "output_str", src.text),
   (chars! "road", .num road), (chars! "size", .num size),
   (chars! "activation_function", act.text [.id (.ctx, none), .punct .arrow, .id (.tensor_temp, none),
     .punct .lbrk, .id (.k, none), .punct .rbrk]), (chars! "input_width", .num W), (chars! "input_height", .num H),
   (chars! "output_channels", .num Co), (chars! "output_height", .num Ho), (chars! "output_width", .num Wo),
   (chars! "channels", .bool true)]

/-- the program that the text is -/
def gatherElementsCAst (W H Co Ho Wo size idx : Nat) (act : CAct K) (src : Ref) (road : Nat) : Stmt K :=
  (.seq
    (loop (.f, none) Co
      (.block
        (loop (.i, none) Ho
          (.block
            (loop (.j, none) Wo
              (.block
                (.assign (.idx true (.tensor_temp, none) (.bin .add (.var (.j, none)) (.bin .mul (.num Wo)
                    (.bin .add (.var (.i, none)) (.bin .mul (.num Ho) (.var (.f, none))))))) .set
                    (.idx true src.ident (.bin .add (.var (.j, none)) (.bin .mul (.num W) (.bin .add (.var
                    (.i, none)) (.bin .mul (.num H) (.idx false (.other (chars! "indice_Gather"), some ⟨decide
                    (idx < 10), idx⟩) (.bin .add (.var (.j, none)) (.bin .mul (.num Wo) (.bin .add (.var (.i, none))
                    (.bin .mul (.num Ho) (.var (.f, none)))))))))))))))))))
    (loop (.k, none) size
      (.block
        (.assign (.idx true (.output, some ⟨false, road⟩) (.var (.k, none))) .set (act.expr (.idx true
            (.tensor_temp, none) (.var (.k, none))))))))

omit [LinearOrder K] [FloorRing K] in
theorem gatherElementsC_code (W H Co Ho Wo size idx : Nat) (act : CAct K) (src : Ref) (road : Nat) :
    code Tpl.gatherElements (gatherElementsCHash W H Co Ho Wo size idx act src road) =
      some (gatherElementsCAst W H Co Ho Wo size idx act src road : Stmt K) := by
  obtain ⟨x_src, n_src, ht_src, hi_src⟩ := src.any K
  unfold gatherElementsCHash gatherElementsCAst
  rw [ht_src, hi_src]
  clear ht_src hi_src
  rcases act with _ | _ | _ | ⟨_ | _, _⟩ | _ | _ | _ | _ | ⟨⟨_ | _, _⟩, ⟨_ | _, _⟩⟩ <;>
    kernel_rfl

/-- what `layers/gather_elements/GatherElementsDefault.py` 38-71 passes to the template, axis 2 -/
def gatherElementsHHash (W H Co Ho Wo size idx : Nat) (act : CAct K) (src : Ref) (road : Nat) : Hash K :=
  [(chars! "name", .word (chars! "GatherElements")), (chars! "idx", .num2 idx), (chars! "output_str", src.text),
   (chars! "road", .num road), (chars! "size", .num size),
   (chars! "activation_function", act.text [.id (.ctx, none), .punct .arrow, .id (.tensor_temp, none),
     .punct .lbrk, .id (.k, none), .punct .rbrk]), (chars! "input_width", .num W), (chars! "input_height", .num H),
   (chars! "output_channels", .num Co), (chars! "output_height", .num Ho), (chars! "output_width", .num Wo),
   (chars! "heights", .bool true)]

/-- the program that the text is -/
def gatherElementsHAst (W H Co Ho Wo size idx : Nat) (act : CAct K) (src : Ref) (road : Nat) : Stmt K :=
  (.seq
    (loop (.f, none) Co
      (.block
        (loop (.i, none) Ho
          (.block
            (loop (.j, none) Wo
              (.block
                (.assign (.idx true (.tensor_temp, none) (.bin .add (.var (.j, none)) (.bin .mul (.num Wo)
                    (.bin .add (.var (.i, none)) (.bin .mul (.num Ho) (.var (.f, none))))))) .set
                    (.idx true src.ident (.bin .add (.var (.j, none)) (.bin .mul (.num W) (.bin .add (.idx false
                    (.other (chars! "indice_Gather"), some ⟨decide (idx < 10), idx⟩) (.bin .add (.var (.j, none))
                    (.bin .mul (.num Wo) (.bin .add (.var (.i, none)) (.bin .mul (.num Ho) (.var (.f, none)))))))
                    (.bin .mul (.num H) (.var (.f, none))))))))))))))
    (loop (.k, none) size
      (.block
        (.assign (.idx true (.output, some ⟨false, road⟩) (.var (.k, none))) .set (act.expr (.idx true
            (.tensor_temp, none) (.var (.k, none))))))))

omit [LinearOrder K] [FloorRing K] in
theorem gatherElementsH_code (W H Co Ho Wo size idx : Nat) (act : CAct K) (src : Ref) (road : Nat) :
    code Tpl.gatherElements (gatherElementsHHash W H Co Ho Wo size idx act src road) =
      some (gatherElementsHAst W H Co Ho Wo size idx act src road : Stmt K) := by
  obtain ⟨x_src, n_src, ht_src, hi_src⟩ := src.any K
  unfold gatherElementsHHash gatherElementsHAst
  rw [ht_src, hi_src]
  clear ht_src hi_src
  rcases act with _ | _ | _ | ⟨_ | _, _⟩ | _ | _ | _ | _ | ⟨⟨_ | _, _⟩, ⟨_ | _, _⟩⟩ <;>
    kernel_rfl

/-- what `layers/gather_elements/GatherElementsDefault.py` 38-71 passes to the template, axis 3 -/
def gatherElementsWHash (W H Co Ho Wo size idx : Nat) (act : CAct K) (src : Ref) (road : Nat) : Hash K :=
  [(chars! "name", .word (chars! "GatherElements")), (chars! "idx", .num2 idx), (chars! "output_str", src.text),
   (chars! "road", .num road), (chars! "size", .num size),
   (chars! "activation_function", act.text [.id (.ctx, none), .punct .arrow, .id (.tensor_temp, none),
     .punct .lbrk, .id (.k, none), .punct .rbrk]), (chars! "input_width", .num W), (chars! "input_height", .num H),
   (chars! "output_channels", .num Co), (chars! "output_height", .num Ho), (chars! "output_width", .num Wo),
   (chars! "widths", .bool true)]

/-- the program that the text is -/
def gatherElementsWAst (W H Co Ho Wo size idx : Nat) (act : CAct K) (src : Ref) (road : Nat) : Stmt K :=
  (.seq
    (loop (.f, none) Co
      (.block
        (loop (.i, none) Ho
          (.block
            (loop (.j, none) Wo
              (.block
                (.assign (.idx true (.tensor_temp, none) (.bin .add (.var (.j, none)) (.bin .mul (.num Wo)
                    (.bin .add (.var (.i, none)) (.bin .mul (.num Ho) (.var (.f, none))))))) .set
                    (.idx true src.ident (.bin .add (.idx false (.other (chars! "indice_Gather"), some ⟨decide
                    (idx < 10), idx⟩) (.bin .add (.var (.j, none)) (.bin .mul (.num Wo) (.bin .add (.var (.i, none))
                    (.bin .mul (.num Ho) (.var (.f, none))))))) (.bin .mul (.num W) (.bin .add (.var (.i, none))
                    (.bin .mul (.num H) (.var (.f, none))))))))))))))
    (loop (.k, none) size
      (.block
        (.assign (.idx true (.output, some ⟨false, road⟩) (.var (.k, none))) .set (act.expr (.idx true
            (.tensor_temp, none) (.var (.k, none))))))))

omit [LinearOrder K] [FloorRing K] in
theorem gatherElementsW_code (W H Co Ho Wo size idx : Nat) (act : CAct K) (src : Ref) (road : Nat) :
    code Tpl.gatherElements (gatherElementsWHash W H Co Ho Wo size idx act src road) =
      some (gatherElementsWAst W H Co Ho Wo size idx act src road : Stmt K) := by
  obtain ⟨x_src, n_src, ht_src, hi_src⟩ := src.any K
  unfold gatherElementsWHash gatherElementsWAst
  rw [ht_src, hi_src]
  clear ht_src hi_src
  rcases act with _ | _ | _ | ⟨_ | _, _⟩ | _ | _ | _ | _ | ⟨⟨_ | _, _⟩, ⟨_ | _, _⟩⟩ <;>
    kernel_rfl

/-- the hash, by axis -/
def gatherElementsHash (a : Np.Axis) : (W H Co Ho Wo size idx : Nat) → CAct K → Ref → Nat → Hash K :=
  match a with
  | .c => gatherElementsCHash
  | .h => gatherElementsHHash
  | .w => gatherElementsWHash

/-- what `layers/gather/GatherDefault.py` 38-75 passes to the template, axis 1 -/
def gatherCHash (n W H Co Ho Wo size idx : Nat) (act : CAct K) (src : Ref) (road : Nat) : Hash K :=
  [(chars! "name", .word (chars! "Gather")), (chars! "idx", .num2 idx), (chars! "output_str", src.text),
   (chars! "road", .num road), (chars! "size", .num size),
   (chars! "activation_function", act.text [.id (.ctx, none), .punct .arrow, .id (.tensor_temp, none),
     .punct .lbrk, .id (.position, none), .punct .rbrk]), (chars! "indices_len", .num n),
   (chars! "input_width", .num W), (chars! "input_height", .num H), (chars! "channels", .bool true),
   (chars! "output_height", .num Ho), (chars! "output_width", .num Wo)]

/-- the program that the text is -/
def gatherCAst (n W H Co Ho Wo size idx : Nat) (act : CAct K) (src : Ref) (road : Nat) : Stmt K :=
  (.seq
    (.assign (.var (.position, none)) .set (.num 0))
    (.seq
      (loop (.k, none) n
        (.block
          (.seq
            (.assign (.var (.f, none)) .set (.idx false (.other (chars! "indice_Gather"), some ⟨decide
                (idx < 10), idx⟩) (.var (.k, none))))
            (loop (.i, none) Ho
              (.block
                (loop (.j, none) Wo
                  (.block
                    (.seq
                      (.assign (.idx true (.tensor_temp, none) (.var (.position, none))) .set (.idx true src.ident
                          (.bin .add (.var (.j, none)) (.bin .mul (.num W) (.bin .add (.var (.i, none)) (.bin .mul
                          (.num H) (.var (.f, none))))))))
                      (.seq
                        (.assign (.idx true (.tensor_temp, none) (.var (.position, none))) .set (act.expr (.idx true
                            (.tensor_temp, none) (.var (.position, none)))))
                        (.incr (.position, none)))))))))))
      (loop (.k, none) size
        (.block
          (.assign (.idx true (.output, some ⟨false, road⟩) (.var (.k, none))) .set (.idx true (.tensor_temp, none)
              (.var (.k, none))))))))

omit [LinearOrder K] [FloorRing K] in
theorem gatherC_code (n W H Co Ho Wo size idx : Nat) (act : CAct K) (src : Ref) (road : Nat) :
    code Tpl.gather (gatherCHash n W H Co Ho Wo size idx act src road) =
      some (gatherCAst n W H Co Ho Wo size idx act src road : Stmt K) := by
  obtain ⟨x_src, n_src, ht_src, hi_src⟩ := src.any K
  unfold gatherCHash gatherCAst
  rw [ht_src, hi_src]
  clear ht_src hi_src
  rcases act with _ | _ | _ | ⟨_ | _, _⟩ | _ | _ | _ | _ | ⟨⟨_ | _, _⟩, ⟨_ | _, _⟩⟩ <;>
    kernel_rfl

/-- what `layers/gather/GatherDefault.py` 38-75 passes to the template, axis 2 -/
def gatherHHash (n W H Co Ho Wo size idx : Nat) (act : CAct K) (src : Ref) (road : Nat) : Hash K :=
  [(chars! "name", .word (chars! "Gather")), (chars! "idx", .num2 idx), (chars! "output_str", src.text),
   (chars! "road", .num road), (chars! "size", .num size),
   (chars! "activation_function", act.text [.id (.ctx, none), .punct .arrow, .id (.tensor_temp, none),
     .punct .lbrk, .id (.position, none), .punct .rbrk]), (chars! "indices_len", .num n),
   (chars! "input_width", .num W), (chars! "input_height", .num H), (chars! "heights", .bool true),
   (chars! "output_channels", .num Co), (chars! "output_width", .num Wo)]

/-- the program that the text is -/
def gatherHAst (n W H Co Ho Wo size idx : Nat) (act : CAct K) (src : Ref) (road : Nat) : Stmt K :=
  (.seq
    (.assign (.var (.position, none)) .set (.num 0))
    (.seq
      (loop (.f, none) Co
        (.block
          (loop (.k, none) n
            (.block
              (.seq
                (.assign (.var (.i, none)) .set (.idx false (.other (chars! "indice_Gather"), some ⟨decide
                    (idx < 10), idx⟩) (.var (.k, none))))
                (loop (.j, none) Wo
                  (.block
                    (.seq
                      (.assign (.idx true (.tensor_temp, none) (.var (.position, none))) .set (.idx true src.ident
                          (.bin .add (.var (.j, none)) (.bin .mul (.num W) (.bin .add (.var (.i, none)) (.bin .mul
                          (.num H) (.var (.f, none))))))))
                      (.seq
                        (.assign (.idx true (.tensor_temp, none) (.var (.position, none))) .set (act.expr (.idx true
                            (.tensor_temp, none) (.var (.position, none)))))
                        (.incr (.position, none)))))))))))
      (loop (.k, none) size
        (.block
          (.assign (.idx true (.output, some ⟨false, road⟩) (.var (.k, none))) .set (.idx true (.tensor_temp, none)
              (.var (.k, none))))))))

omit [LinearOrder K] [FloorRing K] in
theorem gatherH_code (n W H Co Ho Wo size idx : Nat) (act : CAct K) (src : Ref) (road : Nat) :
    code Tpl.gather (gatherHHash n W H Co Ho Wo size idx act src road) =
      some (gatherHAst n W H Co Ho Wo size idx act src road : Stmt K) := by
  obtain ⟨x_src, n_src, ht_src, hi_src⟩ := src.any K
  unfold gatherHHash gatherHAst
  rw [ht_src, hi_src]
  clear ht_src hi_src
  rcases act with _ | _ | _ | ⟨_ | _, _⟩ | _ | _ | _ | _ | ⟨⟨_ | _, _⟩, ⟨_ | _, _⟩⟩ <;>
    kernel_rfl

/-- what `layers/gather/GatherDefault.py` 38-75 passes to the template, axis 3 -/
def gatherWHash (n W H Co Ho Wo size idx : Nat) (act : CAct K) (src : Ref) (road : Nat) : Hash K :=
  [(chars! "name", .word (chars! "Gather")), (chars! "idx", .num2 idx), (chars! "output_str", src.text),
   (chars! "road", .num road), (chars! "size", .num size),
   (chars! "activation_function", act.text [.id (.ctx, none), .punct .arrow, .id (.tensor_temp, none),
     .punct .lbrk, .id (.position, none), .punct .rbrk]), (chars! "indices_len", .num n),
   (chars! "input_width", .num W), (chars! "input_height", .num H), (chars! "widths", .bool true),
   (chars! "output_channels", .num Co), (chars! "output_height", .num Ho)]

/-- the program that the text is -/
def gatherWAst (n W H Co Ho Wo size idx : Nat) (act : CAct K) (src : Ref) (road : Nat) : Stmt K :=
  (.seq
    (.assign (.var (.position, none)) .set (.num 0))
    (.seq
      (loop (.f, none) Co
        (.block
          (loop (.i, none) Ho
            (.block
              (loop (.k, none) n
                (.block
                  (.seq
                    (.assign (.var (.j, none)) .set (.idx false (.other (chars! "indice_Gather"), some ⟨decide
                        (idx < 10), idx⟩) (.var (.k, none))))
                    (.seq
                      (.assign (.idx true (.tensor_temp, none) (.var (.position, none))) .set (.idx true src.ident
                          (.bin .add (.var (.j, none)) (.bin .mul (.num W) (.bin .add (.var (.i, none)) (.bin .mul
                          (.num H) (.var (.f, none))))))))
                      (.seq
                        (.assign (.idx true (.tensor_temp, none) (.var (.position, none))) .set (act.expr (.idx true
                            (.tensor_temp, none) (.var (.position, none)))))
                        (.incr (.position, none)))))))))))
      (loop (.k, none) size
        (.block
          (.assign (.idx true (.output, some ⟨false, road⟩) (.var (.k, none))) .set (.idx true (.tensor_temp, none)
              (.var (.k, none))))))))

omit [LinearOrder K] [FloorRing K] in
theorem gatherW_code (n W H Co Ho Wo size idx : Nat) (act : CAct K) (src : Ref) (road : Nat) :
    code Tpl.gather (gatherWHash n W H Co Ho Wo size idx act src road) =
      some (gatherWAst n W H Co Ho Wo size idx act src road : Stmt K) := by
  obtain ⟨x_src, n_src, ht_src, hi_src⟩ := src.any K
  unfold gatherWHash gatherWAst
  rw [ht_src, hi_src]
  clear ht_src hi_src
  rcases act with _ | _ | _ | ⟨_ | _, _⟩ | _ | _ | _ | _ | ⟨⟨_ | _, _⟩, ⟨_ | _, _⟩⟩ <;>
    kernel_rfl

/-- the hash, by axis -/
def gatherHash (a : Np.Axis) : (n W H Co Ho Wo size idx : Nat) → CAct K → Ref → Nat → Hash K :=
  match a with
  | .c => gatherCHash
  | .h => gatherHHash
  | .w => gatherWHash


end Verif.CText

import Verif.CText.Std
import Verif.Layers.Move

/-!
# The texts of the pads: hashes and programs
-/

namespace Verif.CText
open Prog Layers
set_option linter.unusedVariables false
variable {K : Type} [Field K] [LinearOrder K] [FloorRing K]

/-- the text `ctx->tensor_temp[j + <width> * (i + <height> * f)]` (`ConstantPadDefault.py` 52-53, `EdgePadDefault.py` 71-72,
the same in the other pads) -/
def tempTexts (Ho Wo : Nat) : List (CTok K) :=
  [.id (.ctx, none), .punct .arrow, .id (.tensor_temp, none), .punct .lbrk, .id (.j, none), .punct .plus, .num Wo, .punct .star, .punct .lpar, .id (.i, none), .punct .plus,
   .num Ho, .punct .star, .id (.f, none), .punct .rpar, .punct .rbrk]

/-- what `ConstantPadDefault.py` 40-74 passes to the template -/
def constantPadHash (Hi Wi Co Ho Wo cf cb hf hb wf wb size idx : Nat) (c : SNum K) (act : CAct K) (src : Ref) (road : Nat) : Hash K :=
  [(chars! "name", .word (chars! "ConstantPad")), (chars! "idx", .num2 idx), (chars! "size", .num size),
   (chars! "output_str", src.text), (chars! "road", .num road),
   (chars! "activation_function", act.text (tempTexts Ho Wo)), (chars! "output_channels", .num Co),
   (chars! "output_height", .num Ho), (chars! "output_width", .num Wo), (chars! "pads_front", .num cf),
   (chars! "channels_without_pads_back", .num (Co - cb)), (chars! "pads_top", .num hf),
   (chars! "height_without_pads_bottom", .num (Ho - hb)), (chars! "pads_left", .num wf),
   (chars! "width_without_pads_right", .num (Wo - wb)), (chars! "constant", .toks c.toks),
   (chars! "input_width", .num Wi), (chars! "input_height", .num Hi)]

/-- the program that the text is -/
def constantPadAst (Hi Wi Co Ho Wo cf cb hf hb wf wb size idx : Nat) (c : SNum K) (act : CAct K) (src : Ref) (road : Nat) : Stmt K :=
  (.seq
    (loop (.f, none) Co
      (.block
        (loop (.i, none) Ho
          (.block
            (loop (.j, none) Wo
              (.block
                (.seq
                  (.ite (.land (.land (.land (.land (.land (.bin .ge (.var (.f, none)) (.num cf)) (.bin .lt (.var
                      (.f, none)) (.num (Co - cb)))) (.bin .ge (.var (.i, none)) (.num hf))) (.bin .lt (.var
                      (.i, none)) (.num (Ho - hb)))) (.bin .ge (.var (.j, none)) (.num wf))) (.bin .lt (.var
                      (.j, none)) (.num (Wo - wb))))
                    (.block
                      (.assign (.idx true (.tensor_temp, none) (.bin .add (.var (.j, none)) (.bin .mul (.num Wo)
                          (.bin .add (.var (.i, none)) (.bin .mul (.num Ho) (.var (.f, none))))))) .set
                          (.idx true src.ident (.bin .add (.bin .sub (.var (.j, none)) (.num wf)) (.bin .mul
                          (.num Wi) (.bin .add (.bin .sub (.var (.i, none)) (.num hf)) (.bin .mul (.num Hi)
                          (.bin .sub (.var (.f, none)) (.num cf)))))))))
                    (.block
                      (.assign (.idx true (.tensor_temp, none) (.bin .add (.var (.j, none)) (.bin .mul (.num Wo)
                          (.bin .add (.var (.i, none)) (.bin .mul (.num Ho) (.var (.f, none))))))) .set c.expr)))
                  (.assign (.idx true (.tensor_temp, none) (.bin .add (.var (.j, none)) (.bin .mul (.num Wo)
                      (.bin .add (.var (.i, none)) (.bin .mul (.num Ho) (.var (.f, none))))))) .set (act.expr
                      (.idx true (.tensor_temp, none) (.bin .add (.var (.j, none)) (.bin .mul (.num Wo) (.bin .add
                      (.var (.i, none)) (.bin .mul (.num Ho) (.var (.f, none))))))))))))))))
    (loop (.k, none) size
      (.block
        (.assign (.idx true (.output, some ⟨false, road⟩) (.var (.k, none))) .set (.idx true (.tensor_temp, none)
            (.var (.k, none)))))))

omit [LinearOrder K] [FloorRing K] in
theorem constantPad_code (Hi Wi Co Ho Wo cf cb hf hb wf wb size idx : Nat) (c : SNum K) (act : CAct K) (src : Ref) (road : Nat) :
    code Tpl.constant_Pad (constantPadHash Hi Wi Co Ho Wo cf cb hf hb wf wb size idx c act src road) =
      some (constantPadAst Hi Wi Co Ho Wo cf cb hf hb wf wb size idx c act src road : Stmt K) := by
  obtain ⟨x_src, n_src, ht_src, hi_src⟩ := src.any K
  unfold constantPadHash constantPadAst
  rw [ht_src, hi_src]
  clear ht_src hi_src
  rcases act with _ | _ | _ | ⟨_ | _, _⟩ | _ | _ | _ | _ | ⟨⟨_ | _, _⟩, ⟨_ | _, _⟩⟩ <;>
    rcases c with ⟨_ | _, _⟩ <;> kernel_rfl

/-- what `write_padding` of `EdgePadDefault.py` passes to its template -/
def edgeIndicesHash (Ci Hi Wi cf hf wf : Nat) : Hash K :=
  [(chars! "pads_front", .num cf), (chars! "pads_top", .num hf), (chars! "pads_left", .num wf), 
   (chars! "channels_and_pad_front", .num (Ci + cf)), (chars! "height_and_pad_top", .num (Hi + hf)), (chars! "width_and_pad_left", .num (Wi + wf)), 
   (chars! "channels", .num (Ci - 1)), (chars! "height", .num (Hi - 1)), (chars! "width", .num (Wi - 1))]

/-- what `EdgePadDefault.py` 59-91 passes to the template -/
def edgePadHash (Ci Hi Wi Co Ho Wo cf hf wf size idx : Nat) (act : CAct K) (src : Ref) (road : Nat) : Hash K :=
  [(chars! "name", .word (chars! "EdgePad")), (chars! "idx", .num2 idx), (chars! "size", .num size),
   (chars! "output_str", src.text), (chars! "road", .num road),
   (chars! "activation_function", act.text (tempTexts Ho Wo)), (chars! "output_channels", .num Co),
   (chars! "output_height", .num Ho), (chars! "output_width", .num Wo), (chars! "pads_front", .num cf),
   (chars! "pads_top", .num hf), (chars! "pads_left", .num wf),
   (chars! "change_indice", .toks (rendered Tpl.edge_Pad (edgeIndicesHash Ci Hi Wi cf hf wf))),
   (chars! "input_width", .num Wi), (chars! "input_height", .num Hi)]

/-- the program that the text is -/
def edgePadAst (Ci Hi Wi Co Ho Wo cf hf wf size idx : Nat) (act : CAct K) (src : Ref) (road : Nat) : Stmt K :=
  (.seq
    (loop (.f, none) Co
      (.block
        (loop (.i, none) Ho
          (.block
            (loop (.j, none) Wo
              (.block
                (.seq
                  (.decl .int (.new_f, none) (.bin .sub (.var (.f, none)) (.num cf)))
                  (.seq
                    (.decl .int (.new_i, none) (.bin .sub (.var (.i, none)) (.num hf)))
                    (.seq
                      (.decl .int (.new_j, none) (.bin .sub (.var (.j, none)) (.num wf)))
                      (.seq
                        (.ite (.bin .lt (.var (.f, none)) (.num cf))
                          (.block
                            (.assign (.var (.new_f, none)) .set (.num 0)))
                          .skip)
                        (.seq
                          (.ite (.bin .ge (.var (.f, none)) (.num (Ci + cf)))
                            (.block
                              (.assign (.var (.new_f, none)) .set (.num (Ci - 1))))
                            .skip)
                          (.seq
                            (.ite (.bin .lt (.var (.i, none)) (.num hf))
                              (.block
                                (.assign (.var (.new_i, none)) .set (.num 0)))
                              .skip)
                            (.seq
                              (.ite (.bin .ge (.var (.i, none)) (.num (Hi + hf)))
                                (.block
                                  (.assign (.var (.new_i, none)) .set (.num (Hi - 1))))
                                .skip)
                              (.seq
                                (.ite (.bin .lt (.var (.j, none)) (.num wf))
                                  (.block
                                    (.assign (.var (.new_j, none)) .set (.num 0)))
                                  .skip)
                                (.seq
                                  (.ite (.bin .ge (.var (.j, none)) (.num (Wi + wf)))
                                    (.block
                                      (.assign (.var (.new_j, none)) .set (.num (Wi - 1))))
                                    .skip)
                                  (.seq
                                    (.assign (.idx true (.tensor_temp, none) (.bin .add (.var (.j, none)) (.bin .mul
                                        (.num Wo) (.bin .add (.var (.i, none)) (.bin .mul (.num Ho) (.var
                                        (.f, none))))))) .set (.idx true src.ident (.bin .add (.var (.new_j, none))
                                        (.bin .mul (.num Wi) (.bin .add (.var (.new_i, none)) (.bin .mul (.num Hi)
                                        (.var (.new_f, none))))))))
                                    (.seq
                                      (.assign (.idx true (.tensor_temp, none) (.bin .add (.var (.j, none))
                                          (.bin .mul (.num Wo) (.bin .add (.var (.i, none)) (.bin .mul (.num Ho)
                                          (.var (.f, none))))))) .set (act.expr (.idx true (.tensor_temp, none)
                                          (.bin .add (.var (.j, none)) (.bin .mul (.num Wo) (.bin .add (.var
                                          (.i, none)) (.bin .mul (.num Ho) (.var (.f, none)))))))))
                                      (.assign (.idx true (.tensor_temp, none) (.bin .add (.var (.j, none))
                                          (.bin .mul (.num Wo) (.bin .add (.var (.i, none)) (.bin .mul (.num Ho)
                                          (.var (.f, none))))))) .set (act.expr (.idx true (.tensor_temp, none)
                                          (.bin .add (.var (.j, none)) (.bin .mul (.num Wo) (.bin .add (.var
                                          (.i, none)) (.bin .mul (.num Ho) (.var (.f, none))))))))))))))))))))))))))
    (loop (.k, none) size
      (.block
        (.assign (.idx true (.output, some ⟨false, road⟩) (.var (.k, none))) .set (.idx true (.tensor_temp, none)
            (.var (.k, none)))))))

omit [LinearOrder K] [FloorRing K] in
theorem edgePad_code (Ci Hi Wi Co Ho Wo cf hf wf size idx : Nat) (act : CAct K) (src : Ref) (road : Nat) :
    code Tpl.pad_Non_Constant (edgePadHash Ci Hi Wi Co Ho Wo cf hf wf size idx act src road) =
      some (edgePadAst Ci Hi Wi Co Ho Wo cf hf wf size idx act src road : Stmt K) := by
  obtain ⟨x_src, n_src, ht_src, hi_src⟩ := src.any K
  unfold edgePadHash edgePadAst
  rw [ht_src, hi_src]
  clear ht_src hi_src
  rcases act with _ | _ | _ | ⟨_ | _, _⟩ | _ | _ | _ | _ | ⟨⟨_ | _, _⟩, ⟨_ | _, _⟩⟩ <;>
    kernel_rfl

/-- what `write_padding` of `ReflectPadDefault.py` passes to its template -/
def reflectIndicesHash (Ci Hi Wi cf hf wf : Nat) : Hash K :=
  [(chars! "pads_front", .num cf), (chars! "pads_top", .num hf), (chars! "pads_left", .num wf), 
   (chars! "channels_max", .num (Ci - 1)), (chars! "height_max", .num (Hi - 1)), (chars! "width_max", .num (Wi - 1))]

/-- what `ReflectPadDefault.py` 59-91 passes to the template -/
def reflectPadHash (Ci Hi Wi Co Ho Wo cf hf wf size idx : Nat) (act : CAct K) (src : Ref) (road : Nat) : Hash K :=
  [(chars! "name", .word (chars! "ReflectPad")), (chars! "idx", .num2 idx), (chars! "size", .num size),
   (chars! "output_str", src.text), (chars! "road", .num road),
   (chars! "activation_function", act.text (tempTexts Ho Wo)), (chars! "output_channels", .num Co),
   (chars! "output_height", .num Ho), (chars! "output_width", .num Wo), (chars! "pads_front", .num cf),
   (chars! "pads_top", .num hf), (chars! "pads_left", .num wf),
   (chars! "change_indice", .toks (rendered Tpl.reflect_Pad (reflectIndicesHash Ci Hi Wi cf hf wf))),
   (chars! "input_width", .num Wi), (chars! "input_height", .num Hi)]

/-- the program that the text is -/
def reflectPadAst (Ci Hi Wi Co Ho Wo cf hf wf size idx : Nat) (act : CAct K) (src : Ref) (road : Nat) : Stmt K :=
  (.seq
    (loop (.f, none) Co
      (.block
        (loop (.i, none) Ho
          (.block
            (loop (.j, none) Wo
              (.block
                (.seq
                  (.decl .int (.new_f, none) (.bin .sub (.var (.f, none)) (.num cf)))
                  (.seq
                    (.decl .int (.new_i, none) (.bin .sub (.var (.i, none)) (.num hf)))
                    (.seq
                      (.decl .int (.new_j, none) (.bin .sub (.var (.j, none)) (.num wf)))
                      (.seq
                        (.assign (.var (.new_f, none)) .set (.bin .mod (.bin .sub (.num cf) (.var (.f, none)))
                            (.bin .mul (.num 2) (.num (Ci - 1)))))
                        (.seq
                          (.ite (.bin .lt (.var (.new_f, none)) (.num 0))
                            (.block
                              (.assign (.var (.new_f, none)) .set (.bin .add (.bin .mul (.num 2) (.num (Ci - 1)))
                                  (.var (.new_f, none)))))
                            .skip)
                          (.seq
                            (.ite (.bin .gt (.var (.new_f, none)) (.num (Ci - 1)))
                              (.block
                                (.assign (.var (.new_f, none)) .set (.bin .sub (.bin .mul (.num 2) (.num (Ci - 1)))
                                    (.var (.new_f, none)))))
                              .skip)
                            (.seq
                              (.assign (.var (.new_i, none)) .set (.bin .mod (.bin .sub (.num hf) (.var (.i, none)))
                                  (.bin .mul (.num 2) (.num (Hi - 1)))))
                              (.seq
                                (.ite (.bin .lt (.var (.new_i, none)) (.num 0))
                                  (.block
                                    (.assign (.var (.new_i, none)) .set (.bin .add (.bin .mul (.num 2) (.num
                                        (Hi - 1))) (.var (.new_i, none)))))
                                  .skip)
                                (.seq
                                  (.ite (.bin .gt (.var (.new_i, none)) (.num (Hi - 1)))
                                    (.block
                                      (.assign (.var (.new_i, none)) .set (.bin .sub (.bin .mul (.num 2) (.num
                                          (Hi - 1))) (.var (.new_i, none)))))
                                    .skip)
                                  (.seq
                                    (.assign (.var (.new_j, none)) .set (.bin .mod (.bin .sub (.num wf) (.var
                                        (.j, none))) (.bin .mul (.num 2) (.num (Wi - 1)))))
                                    (.seq
                                      (.ite (.bin .lt (.var (.new_j, none)) (.num 0))
                                        (.block
                                          (.assign (.var (.new_j, none)) .set (.bin .add (.bin .mul (.num 2) (.num
                                              (Wi - 1))) (.var (.new_j, none)))))
                                        .skip)
                                      (.seq
                                        (.ite (.bin .gt (.var (.new_j, none)) (.num (Wi - 1)))
                                          (.block
                                            (.assign (.var (.new_j, none)) .set (.bin .sub (.bin .mul (.num 2) (.num
                                                (Wi - 1))) (.var (.new_j, none)))))
                                          .skip)
                                        (.seq
                                          (.assign (.idx true (.tensor_temp, none) (.bin .add (.var (.j, none))
                                              (.bin .mul (.num Wo) (.bin .add (.var (.i, none)) (.bin .mul (.num Ho)
                                              (.var (.f, none))))))) .set (.idx true src.ident (.bin .add (.var
                                              (.new_j, none)) (.bin .mul (.num Wi) (.bin .add (.var (.new_i, none))
                                              (.bin .mul (.num Hi) (.var (.new_f, none))))))))
                                          (.seq
                                            (.assign (.idx true (.tensor_temp, none) (.bin .add (.var (.j, none))
                                                (.bin .mul (.num Wo) (.bin .add (.var (.i, none)) (.bin .mul
                                                (.num Ho) (.var (.f, none))))))) .set (act.expr (.idx true
                                                (.tensor_temp, none) (.bin .add (.var (.j, none)) (.bin .mul
                                                (.num Wo) (.bin .add (.var (.i, none)) (.bin .mul (.num Ho) (.var
                                                (.f, none)))))))))
                                            (.assign (.idx true (.tensor_temp, none) (.bin .add (.var (.j, none))
                                                (.bin .mul (.num Wo) (.bin .add (.var (.i, none)) (.bin .mul
                                                (.num Ho) (.var (.f, none))))))) .set (act.expr (.idx true
                                                (.tensor_temp, none) (.bin .add (.var (.j, none)) (.bin .mul
                                                (.num Wo) (.bin .add (.var (.i, none)) (.bin .mul (.num Ho) (.var
                                                (.f, none)))))))))))))))))))))))))))))
    (loop (.k, none) size
      (.block
        (.assign (.idx true (.output, some ⟨false, road⟩) (.var (.k, none))) .set (.idx true (.tensor_temp, none)
            (.var (.k, none)))))))

omit [LinearOrder K] [FloorRing K] in
theorem reflectPad_code (Ci Hi Wi Co Ho Wo cf hf wf size idx : Nat) (act : CAct K) (src : Ref) (road : Nat) :
    code Tpl.pad_Non_Constant (reflectPadHash Ci Hi Wi Co Ho Wo cf hf wf size idx act src road) =
      some (reflectPadAst Ci Hi Wi Co Ho Wo cf hf wf size idx act src road : Stmt K) := by
  obtain ⟨x_src, n_src, ht_src, hi_src⟩ := src.any K
  unfold reflectPadHash reflectPadAst
  rw [ht_src, hi_src]
  clear ht_src hi_src
  rcases act with _ | _ | _ | ⟨_ | _, _⟩ | _ | _ | _ | _ | ⟨⟨_ | _, _⟩, ⟨_ | _, _⟩⟩ <;>
    kernel_rfl

/-- what `write_padding` of `WrapPadDefault.py` passes to its template -/
def wrapIndicesHash (Ci Hi Wi cf hf wf : Nat) : Hash K :=
  [(chars! "pads_front", .num cf), (chars! "pads_top", .num hf), (chars! "pads_left", .num wf), 
   (chars! "input_channels", .num Ci), (chars! "input_height", .num Hi), (chars! "input_width", .num Wi), 
   (chars! "channels_and_pad_front", .num (Ci + cf)), (chars! "height_and_pad_top", .num (Hi + hf)), (chars! "width_and_pad_left", .num (Wi + wf))]

/-- what `WrapPadDefault.py` 59-91 passes to the template -/
def wrapPadHash (Ci Hi Wi Co Ho Wo cf hf wf size idx : Nat) (act : CAct K) (src : Ref) (road : Nat) : Hash K :=
  [(chars! "name", .word (chars! "WrapPad")), (chars! "idx", .num2 idx), (chars! "size", .num size),
   (chars! "output_str", src.text), (chars! "road", .num road),
   (chars! "activation_function", act.text (tempTexts Ho Wo)), (chars! "output_channels", .num Co),
   (chars! "output_height", .num Ho), (chars! "output_width", .num Wo), (chars! "pads_front", .num cf),
   (chars! "pads_top", .num hf), (chars! "pads_left", .num wf),
   (chars! "change_indice", .toks (rendered Tpl.wrap_Pad (wrapIndicesHash Ci Hi Wi cf hf wf))),
   (chars! "input_width", .num Wi), (chars! "input_height", .num Hi)]

/-- the program that the text is -/
def wrapPadAst (Ci Hi Wi Co Ho Wo cf hf wf size idx : Nat) (act : CAct K) (src : Ref) (road : Nat) : Stmt K :=
  (.seq
    (loop (.f, none) Co
      (.block
        (loop (.i, none) Ho
          (.block
            (loop (.j, none) Wo
              (.block
                (.seq
                  (.decl .int (.new_f, none) (.bin .sub (.var (.f, none)) (.num cf)))
                  (.seq
                    (.decl .int (.new_i, none) (.bin .sub (.var (.i, none)) (.num hf)))
                    (.seq
                      (.decl .int (.new_j, none) (.bin .sub (.var (.j, none)) (.num wf)))
                      (.seq
                        (.ite (.bin .ge (.var (.f, none)) (.num (Ci + cf)))
                          (.block
                            (.assign (.var (.new_f, none)) .set (.bin .mod (.var (.new_f, none)) (.num Ci))))
                          .skip)
                        (.seq
                          (.ite (.bin .lt (.var (.f, none)) (.num cf))
                            (.block
                              (.assign (.var (.new_f, none)) .set (.bin .add (.bin .mod (.var (.new_f, none))
                                  (.num Ci)) (.num Ci))))
                            .skip)
                          (.seq
                            (.ite (.bin .ge (.var (.i, none)) (.num (Hi + hf)))
                              (.block
                                (.assign (.var (.new_i, none)) .set (.bin .mod (.var (.new_i, none)) (.num Hi))))
                              .skip)
                            (.seq
                              (.ite (.bin .lt (.var (.i, none)) (.num hf))
                                (.block
                                  (.assign (.var (.new_i, none)) .set (.bin .add (.bin .mod (.var (.new_i, none))
                                      (.num Hi)) (.num Hi))))
                                .skip)
                              (.seq
                                (.ite (.bin .ge (.var (.j, none)) (.num (Wi + wf)))
                                  (.block
                                    (.assign (.var (.new_j, none)) .set (.bin .mod (.var (.new_j, none)) (.num Wi))))
                                  .skip)
                                (.seq
                                  (.ite (.bin .lt (.var (.j, none)) (.num wf))
                                    (.block
                                      (.assign (.var (.new_j, none)) .set (.bin .add (.bin .mod (.var
                                          (.new_j, none)) (.num Wi)) (.num Wi))))
                                    .skip)
                                  (.seq
                                    (.assign (.idx true (.tensor_temp, none) (.bin .add (.var (.j, none)) (.bin .mul
                                        (.num Wo) (.bin .add (.var (.i, none)) (.bin .mul (.num Ho) (.var
                                        (.f, none))))))) .set (.idx true src.ident (.bin .add (.var (.new_j, none))
                                        (.bin .mul (.num Wi) (.bin .add (.var (.new_i, none)) (.bin .mul (.num Hi)
                                        (.var (.new_f, none))))))))
                                    (.seq
                                      (.assign (.idx true (.tensor_temp, none) (.bin .add (.var (.j, none))
                                          (.bin .mul (.num Wo) (.bin .add (.var (.i, none)) (.bin .mul (.num Ho)
                                          (.var (.f, none))))))) .set (act.expr (.idx true (.tensor_temp, none)
                                          (.bin .add (.var (.j, none)) (.bin .mul (.num Wo) (.bin .add (.var
                                          (.i, none)) (.bin .mul (.num Ho) (.var (.f, none)))))))))
                                      (.assign (.idx true (.tensor_temp, none) (.bin .add (.var (.j, none))
                                          (.bin .mul (.num Wo) (.bin .add (.var (.i, none)) (.bin .mul (.num Ho)
                                          (.var (.f, none))))))) .set (act.expr (.idx true (.tensor_temp, none)
                                          (.bin .add (.var (.j, none)) (.bin .mul (.num Wo) (.bin .add (.var
                                          (.i, none)) (.bin .mul (.num Ho) (.var (.f, none))))))))))))))))))))))))))
    (loop (.k, none) size
      (.block
        (.assign (.idx true (.output, some ⟨false, road⟩) (.var (.k, none))) .set (.idx true (.tensor_temp, none)
            (.var (.k, none)))))))

omit [LinearOrder K] [FloorRing K] in
theorem wrapPad_code (Ci Hi Wi Co Ho Wo cf hf wf size idx : Nat) (act : CAct K) (src : Ref) (road : Nat) :
    code Tpl.pad_Non_Constant (wrapPadHash Ci Hi Wi Co Ho Wo cf hf wf size idx act src road) =
      some (wrapPadAst Ci Hi Wi Co Ho Wo cf hf wf size idx act src road : Stmt K) := by
  obtain ⟨x_src, n_src, ht_src, hi_src⟩ := src.any K
  unfold wrapPadHash wrapPadAst
  rw [ht_src, hi_src]
  clear ht_src hi_src
  rcases act with _ | _ | _ | ⟨_ | _, _⟩ | _ | _ | _ | _ | ⟨⟨_ | _, _⟩, ⟨_ | _, _⟩⟩ <;>
    kernel_rfl


end Verif.CText

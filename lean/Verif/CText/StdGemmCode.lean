import Verif.CText.Std
import Verif.Layers.Conv

/-!
# The text of the convolution by im2col and gemm: hashes and programs
-/

namespace Verif.CText
open Prog Layers
set_option linter.unusedVariables false
variable {K : Type} [Field K] [LinearOrder K] [FloorRing K]

/-- `write_im2col` (`Conv2DStdGemm.py` 44-70); `x` is `output_str` -/
def im2colHash (c : ConvP) (x : HVal K) (road : Nat) : Hash K :=
  [(chars! "patches_height", .num (c.inC * c.kh * c.kw)), (chars! "kernel_w", .num c.kw), (chars! "kernel_h", .num c.kh),
   (chars! "output_height", .num c.outH), (chars! "output_width", .num c.outW), (chars! "strides", .num c.stride),
   (chars! "pad_top", .num c.padTop), (chars! "pad_left", .num c.padLeft), (chars! "input_height", .num c.inH),
   (chars! "input_width", .num c.inW), (chars! "road", .num road), (chars! "patches_width", .num (c.outH * c.outW)),
   (chars! "output_str", x)]

/-- `write_gemm_nn` (`Conv2DGemm.py` 45-79) called with `weights_..`, `output_{path}`, `tensor_temp`, `False` (`Conv2DStdGemm.py` 112-118) -/
def convGemmNNHash (m n k idx : Nat) (act : CAct K) (road : Nat) : Hash K :=
  [(chars! "direct", .bool false), (chars! "name", .word (chars! "Conv2D")), (chars! "idx", .num2 idx),
   (chars! "m", .num m), (chars! "n", .num n), (chars! "k", .num k),
   (chars! "A", .toks [.id (.other (chars! "weights_Conv2D"), some ⟨decide (idx < 10), idx⟩)]), (chars! "ldA", .num k),
   (chars! "B", .toks [.id (.output, some ⟨false, road⟩)]), (chars! "ldB", .num n),
   (chars! "C", .toks [.id (.tensor_temp, none)]), (chars! "ldC", .num n),
   (chars! "activation_function", act.text [.id (.output, none)])]

/-- what `Conv2DStdGemm.py` 101-127 passes to the template when the producer's array is an `output_n` -/
def stdGemmOutHash (c : ConvP) (size idx : Nat) (act : CAct K) (road : Nat) : Hash K :=
  [(chars! "name", .word (chars! "Conv2D")), (chars! "idx", .num2 idx), (chars! "size", .num size),
   (chars! "road", .num road),
   (chars! "patch_building_code", .toks (rendered Tpl.im2col (im2colHash c (.toks [.id (.tensor_temp, none)]) road))),
   (chars! "patches_size", .num (c.filters * (c.outH * c.outW))),
   (chars! "gemm_code", .toks (rendered Tpl.conv_gemm_nn (convGemmNNHash c.filters (c.outH * c.outW) (c.inC * c.kh * c.kw) idx act road))),
   (chars! "cst", .bool true), (chars! "input_size", .num (c.inC * c.inH * c.inW))]

/-- the program that the text is -/
def stdGemmOutAst (c : ConvP) (size idx : Nat) (act : CAct K) (road : Nat) : Stmt K :=
  (.seq
    (loop (.k, none) (c.inC * c.inH * c.inW)
      (.block
        (.assign (.idx true (.tensor_temp, none) (.var (.k, none))) .set (.idx true (.output, some ⟨false, road⟩)
            (.var (.k, none))))))
    (.seq
      (loop (.i, none) (c.inC * c.kh * c.kw)
        (.block
          (.seq
            (.decl .int (.i_offset, none) (.bin .mod (.bin .div (.var (.i, none)) (.num c.kw)) (.num c.kh)))
            (.seq
              (.decl .int (.j_offset, none) (.bin .mod (.var (.i, none)) (.num c.kw)))
              (.seq
                (.decl .int (.c_offset, none) (.bin .div (.bin .div (.var (.i, none)) (.num c.kh)) (.num c.kw)))
                (loop (.h, none) c.outH
                  (.block
                    (loop (.w, none) c.outW
                      (.block
                        (.seq
                          (.decl .int (.ii, none) (.bin .add (.bin .sub (.bin .mul (.var (.h, none))
                              (.num c.stride)) (.num c.padTop)) (.var (.i_offset, none))))
                          (.seq
                            (.decl .int (.jj, none) (.bin .add (.bin .sub (.bin .mul (.var (.w, none))
                                (.num c.stride)) (.num c.padLeft)) (.var (.j_offset, none))))
                            (.seq
                              (.decl .int (.j, none) (.bin .add (.bin .mul (.var (.h, none)) (.num c.outW)) (.var
                                  (.w, none))))
                              (.ite (.land (.land (.land (.bin .ge (.var (.ii, none)) (.num 0)) (.bin .lt (.var
                                  (.ii, none)) (.num c.inH))) (.bin .ge (.var (.jj, none)) (.num 0))) (.bin .lt
                                  (.var (.jj, none)) (.num c.inW)))
                                (.assign (.idx true (.output, some ⟨false, road⟩) (.bin .add (.bin .mul (.var
                                    (.i, none)) (.num (c.outH * c.outW))) (.var (.j, none)))) .set (.idx true
                                    (.tensor_temp, none) (.bin .add (.bin .mul (.bin .add (.bin .mul (.var
                                    (.c_offset, none)) (.num c.inH)) (.var (.ii, none))) (.num c.inW)) (.var
                                    (.jj, none)))))
                                (.assign (.idx true (.output, some ⟨false, road⟩) (.bin .add (.bin .mul (.var
                                    (.i, none)) (.num (c.outH * c.outW))) (.var (.j, none)))) .set
                                    (.num 0)))))))))))))))
      (.seq
        (loop (.k, none) (c.filters * (c.outH * c.outW))
          (.block
            (.assign (.idx true (.tensor_temp, none) (.var (.k, none))) .set (.num 0))))
        (.seq
          (loop (.i, none) c.filters
            (.block
              (.seq
                (loop (.p, none) (c.inC * c.kh * c.kw)
                  (.block
                    (.seq
                      (.decl .float (.weight, none) (.idx false (.other (chars! "weights_Conv2D"), some ⟨decide
                          (idx < 10), idx⟩) (.bin .add (.bin .mul (.var (.i, none)) (.num (c.inC * c.kh * c.kw)))
                          (.var (.p, none)))))
                      (loop (.j, none) (c.outH * c.outW)
                        (.block
                          (.assign (.idx true (.tensor_temp, none) (.bin .add (.bin .mul (.var (.i, none)) (.num
                              (c.outH * c.outW))) (.var (.j, none)))) .add (.bin .mul (.var (.weight, none))
                              (.idx true (.output, some ⟨false, road⟩) (.bin .add (.bin .mul (.var (.p, none)) (.num
                              (c.outH * c.outW))) (.var (.j, none)))))))))))
                (loop (.j, none) (c.outH * c.outW)
                  (.block
                    (.seq
                      (.decl .float (.output, none) (.idx true (.tensor_temp, none) (.bin .add (.bin .mul (.var
                          (.i, none)) (.num (c.outH * c.outW))) (.var (.j, none)))))
                      (.seq
                        (.assign (.var (.output, none)) .add (.idx false (.other
                            (chars! "biases_Conv2D"), some ⟨decide (idx < 10), idx⟩) (.var (.i, none))))
                        (.assign (.idx true (.tensor_temp, none) (.bin .add (.bin .mul (.var (.i, none)) (.num
                            (c.outH * c.outW))) (.var (.j, none)))) .set (act.expr (.var (.output, none)))))))))))
          (loop (.k, none) size
            (.block
              (.assign (.idx true (.output, some ⟨false, road⟩) (.var (.k, none))) .set (.idx true
                  (.tensor_temp, none) (.var (.k, none))))))))))

omit [LinearOrder K] [FloorRing K] in
theorem stdGemmOut_code (c : ConvP) (size idx : Nat) (act : CAct K) (road : Nat) :
    code Tpl.conv_std_gemm (stdGemmOutHash c size idx act road) =
      some (stdGemmOutAst c size idx act road : Stmt K) := by
  rcases act with _ | _ | _ | ⟨_ | _, _⟩ | _ | _ | _ | _ | ⟨⟨_ | _, _⟩, ⟨_ | _, _⟩⟩ <;>
    kernel_rfl

/-- what `Conv2DStdGemm.py` 101-127 passes to the template when the producer's array is `cst_n` -/
def stdGemmCstHash (c : ConvP) (size idx : Nat) (act : CAct K) (n road : Nat) : Hash K :=
  [(chars! "name", .word (chars! "Conv2D")), (chars! "idx", .num2 idx), (chars! "size", .num size),
   (chars! "road", .num road),
   (chars! "patch_building_code", .toks (rendered Tpl.im2col (im2colHash c (.ref (chars! "cst") n) road))),
   (chars! "patches_size", .num (c.filters * (c.outH * c.outW))),
   (chars! "gemm_code", .toks (rendered Tpl.conv_gemm_nn (convGemmNNHash c.filters (c.outH * c.outW) (c.inC * c.kh * c.kw) idx act road)))]

/-- the program that the text is -/
def stdGemmCstAst (c : ConvP) (size idx : Nat) (act : CAct K) (n road : Nat) : Stmt K :=
  (.seq
    (loop (.i, none) (c.inC * c.kh * c.kw)
      (.block
        (.seq
          (.decl .int (.i_offset, none) (.bin .mod (.bin .div (.var (.i, none)) (.num c.kw)) (.num c.kh)))
          (.seq
            (.decl .int (.j_offset, none) (.bin .mod (.var (.i, none)) (.num c.kw)))
            (.seq
              (.decl .int (.c_offset, none) (.bin .div (.bin .div (.var (.i, none)) (.num c.kh)) (.num c.kw)))
              (loop (.h, none) c.outH
                (.block
                  (loop (.w, none) c.outW
                    (.block
                      (.seq
                        (.decl .int (.ii, none) (.bin .add (.bin .sub (.bin .mul (.var (.h, none)) (.num c.stride))
                            (.num c.padTop)) (.var (.i_offset, none))))
                        (.seq
                          (.decl .int (.jj, none) (.bin .add (.bin .sub (.bin .mul (.var (.w, none))
                              (.num c.stride)) (.num c.padLeft)) (.var (.j_offset, none))))
                          (.seq
                            (.decl .int (.j, none) (.bin .add (.bin .mul (.var (.h, none)) (.num c.outW)) (.var
                                (.w, none))))
                            (.ite (.land (.land (.land (.bin .ge (.var (.ii, none)) (.num 0)) (.bin .lt (.var
                                (.ii, none)) (.num c.inH))) (.bin .ge (.var (.jj, none)) (.num 0))) (.bin .lt (.var
                                (.jj, none)) (.num c.inW)))
                              (.assign (.idx true (.output, some ⟨false, road⟩) (.bin .add (.bin .mul (.var
                                  (.i, none)) (.num (c.outH * c.outW))) (.var (.j, none)))) .set (.idx true
                                  (.cst, some ⟨false, n⟩) (.bin .add (.bin .mul (.bin .add (.bin .mul (.var
                                  (.c_offset, none)) (.num c.inH)) (.var (.ii, none))) (.num c.inW)) (.var
                                  (.jj, none)))))
                              (.assign (.idx true (.output, some ⟨false, road⟩) (.bin .add (.bin .mul (.var
                                  (.i, none)) (.num (c.outH * c.outW))) (.var (.j, none)))) .set
                                  (.num 0)))))))))))))))
    (.seq
      (loop (.k, none) (c.filters * (c.outH * c.outW))
        (.block
          (.assign (.idx true (.tensor_temp, none) (.var (.k, none))) .set (.num 0))))
      (.seq
        (loop (.i, none) c.filters
          (.block
            (.seq
              (loop (.p, none) (c.inC * c.kh * c.kw)
                (.block
                  (.seq
                    (.decl .float (.weight, none) (.idx false (.other (chars! "weights_Conv2D"), some ⟨decide
                        (idx < 10), idx⟩) (.bin .add (.bin .mul (.var (.i, none)) (.num (c.inC * c.kh * c.kw)))
                        (.var (.p, none)))))
                    (loop (.j, none) (c.outH * c.outW)
                      (.block
                        (.assign (.idx true (.tensor_temp, none) (.bin .add (.bin .mul (.var (.i, none)) (.num
                            (c.outH * c.outW))) (.var (.j, none)))) .add (.bin .mul (.var (.weight, none))
                            (.idx true (.output, some ⟨false, road⟩) (.bin .add (.bin .mul (.var (.p, none)) (.num
                            (c.outH * c.outW))) (.var (.j, none)))))))))))
              (loop (.j, none) (c.outH * c.outW)
                (.block
                  (.seq
                    (.decl .float (.output, none) (.idx true (.tensor_temp, none) (.bin .add (.bin .mul (.var
                        (.i, none)) (.num (c.outH * c.outW))) (.var (.j, none)))))
                    (.seq
                      (.assign (.var (.output, none)) .add (.idx false (.other
                          (chars! "biases_Conv2D"), some ⟨decide (idx < 10), idx⟩) (.var (.i, none))))
                      (.assign (.idx true (.tensor_temp, none) (.bin .add (.bin .mul (.var (.i, none)) (.num
                          (c.outH * c.outW))) (.var (.j, none)))) .set (act.expr (.var (.output, none)))))))))))
        (loop (.k, none) size
          (.block
            (.assign (.idx true (.output, some ⟨false, road⟩) (.var (.k, none))) .set (.idx true
                (.tensor_temp, none) (.var (.k, none)))))))))

omit [LinearOrder K] [FloorRing K] in
theorem stdGemmCst_code (c : ConvP) (size idx : Nat) (act : CAct K) (n road : Nat) :
    code Tpl.conv_std_gemm (stdGemmCstHash c size idx act n road) =
      some (stdGemmCstAst c size idx act n road : Stmt K) := by
  rcases act with _ | _ | _ | ⟨_ | _, _⟩ | _ | _ | _ | _ | ⟨⟨_ | _, _⟩, ⟨_ | _, _⟩⟩ <;>
    kernel_rfl


end Verif.CText

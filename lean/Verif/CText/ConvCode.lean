import Verif.CText.Std
import Verif.Layers.Conv
import Verif.Layers.Pooling

/-!
# The texts of Conv2D (six loops), MaxPooling2D and AveragePooling2D: hashes and programs
-/

namespace Verif.CText
open Prog Layers
set_option linter.unusedVariables false
variable {K : Type} [Field K] [LinearOrder K] [FloorRing K]

/-- what `layers/convolution/Conv2D6loops.py` 38-66 passes to the template -/
def conv6Hash (c : ConvP) (size idx : Nat) (act : CAct K) (src : Ref) (road : Nat) : Hash K :=
  [(chars! "name", .word (chars! "Conv2D")), (chars! "idx", .num2 idx), (chars! "output_str", src.text),
   (chars! "road", .num road), (chars! "size", .num size),
   (chars! "activation_function", act.text [.id (.sum, none)]), (chars! "nb_filters", .num c.filters),
   (chars! "output_height", .num c.outH), (chars! "output_width", .num c.outW),
   (chars! "input_channels", .num c.inC), (chars! "kernel_h", .num c.kh), (chars! "kernel_w", .num c.kw),
   (chars! "strides", .num c.stride), (chars! "dilation_rate", .num c.dil), (chars! "pad_left", .num c.padLeft),
   (chars! "pad_top", .num c.padTop), (chars! "input_height", .num c.inH), (chars! "input_width", .num c.inW)]

/-- the program that the text is -/
def conv6Ast (c : ConvP) (size idx : Nat) (act : CAct K) (src : Ref) (road : Nat) : Stmt K :=
  (.seq
    (loop (.f, none) c.filters
      (.block
        (loop (.i, none) c.outH
          (.block
            (loop (.j, none) c.outW
              (.block
                (.seq
                  (.assign (.var (.sum, none)) .set (.num 0))
                  (.seq
                    (loop (.p, none) c.inC
                      (.block
                        (loop (.h, none) c.kh
                          (.block
                            (loop (.w, none) c.kw
                              (.block
                                (.seq
                                  (.decl .int (.ii, none) (.bin .sub (.bin .add (.bin .mul (.var (.i, none))
                                      (.num c.stride)) (.bin .mul (.var (.h, none)) (.num c.dil))) (.num c.padTop)))
                                  (.seq
                                    (.decl .int (.jj, none) (.bin .sub (.bin .add (.bin .mul (.var (.j, none))
                                        (.num c.stride)) (.bin .mul (.var (.w, none)) (.num c.dil)))
                                        (.num c.padLeft)))
                                    (.ite (.land (.land (.land (.bin .ge (.var (.ii, none)) (.num 0)) (.bin .lt
                                        (.var (.ii, none)) (.num c.inH))) (.bin .ge (.var (.jj, none)) (.num 0)))
                                        (.bin .lt (.var (.jj, none)) (.num c.inW)))
                                      (.assign (.var (.sum, none)) .add (.bin .mul (.idx true src.ident (.bin .add
                                          (.var (.jj, none)) (.bin .mul (.num c.inW) (.bin .add (.var (.ii, none))
                                          (.bin .mul (.num c.inH) (.var (.p, none))))))) (.idx false (.other
                                          (chars! "weights_Conv2D"), some ⟨decide (idx < 10), idx⟩) (.bin .add (.var
                                          (.w, none)) (.bin .mul (.num c.kw) (.bin .add (.var (.h, none)) (.bin .mul
                                          (.num c.kh) (.bin .add (.var (.p, none)) (.bin .mul (.num c.inC) (.var
                                          (.f, none)))))))))))
                                      .skip)))))))))
                    (.seq
                      (.assign (.var (.sum, none)) .add (.idx false (.other (chars! "biases_Conv2D"), some ⟨decide
                          (idx < 10), idx⟩) (.var (.f, none))))
                      (.assign (.idx true (.tensor_temp, none) (.bin .add (.var (.j, none)) (.bin .mul (.num c.outW)
                          (.bin .add (.var (.i, none)) (.bin .mul (.num c.outH) (.var (.f, none))))))) .set
                          (act.expr (.var (.sum, none)))))))))))))
    (loop (.k, none) size
      (.block
        (.assign (.idx true (.output, some ⟨false, road⟩) (.var (.k, none))) .set (.idx true (.tensor_temp, none)
            (.var (.k, none)))))))

omit [LinearOrder K] [FloorRing K] in
theorem conv6_code (c : ConvP) (size idx : Nat) (act : CAct K) (src : Ref) (road : Nat) :
    code Tpl.conv_6loops (conv6Hash c size idx act src road) =
      some (conv6Ast c size idx act src road : Stmt K) := by
  obtain ⟨x_src, n_src, ht_src, hi_src⟩ := src.any K
  unfold conv6Hash conv6Ast
  rw [ht_src, hi_src]
  clear ht_src hi_src
  rcases act with _ | _ | _ | ⟨_ | _, _⟩ | _ | _ | _ | _ | ⟨⟨_ | _, _⟩, ⟨_ | _, _⟩⟩ <;>
    kernel_rfl

/-- `specific_function` of `MaxPooling2DDefault.py` 44-49, the index of lines 88-89 -/
def maxFunction (c : PoolP) (src : Ref) : List (CTok K) :=
  rendered (chars! "if (ctx->{{x}}[jj + {{w}}*(ii + {{h}}*f)] > max) max = ctx->{{x}}[jj + {{w}}*(ii + {{h}}*f)];")
    [(chars! "x", src.text), (chars! "w", .num c.W), (chars! "h", .num c.H)]

/-- `specific_function` of `AveragePooling2DDefault.py` 45-51, the index of lines 87-88 -/
def avgFunction (c : PoolP) (src : Ref) : List (CTok K) :=
  rendered (chars! "sum += ctx->{{x}} [jj + {{w}}*(ii + {{h}}*f)]; count++;")
    [(chars! "x", src.text), (chars! "w", .num c.W), (chars! "h", .num c.H)]

/-- the expression that the text of an activation is when its argument is the text `a/b` -/
def CAct.quot (a b : Expr K) : CAct K → Expr K
  | .sigmoid => .cond (.bin .lt (.bin .div a b) (.num 0))
      (.bin .div (.call1 (.expf, none) (.bin .div a b)) (.bin .add (.flt (lit K 1 0)) (.call1 (.expf, none) (.bin .div a b))))
      (.bin .div (.flt (lit K 1 0)) (.bin .add (.flt (lit K 1 0)) (.call1 (.expf, none) (.bin .div (.neg a) b))))
  | .silu => .bin .div (.bin .div a b) (.bin .add (.num 1) (.call1 (.exp, none) (.bin .div (.neg a) b)))
  | .relu => .cond (.bin .gt (.bin .div a b) (.num 0)) (.bin .div a b) (.num 0)
  | .leakyRelu al => .cond (.bin .gt (.bin .div a b) (.flt (lit K 0 0))) (.bin .div a b) (.bin .div (.bin .mul al.expr a) b)
  | .tanh => .cond (.bin .lt (.bin .div a b) (.flt (lit K 0 0)))
      (.bin .div (.bin .sub (.call1 (.expf, none) (.bin .div (.bin .mul (.flt (lit K 2 0)) a) b)) (.flt (lit K 1 0)))
        (.bin .add (.call1 (.expf, none) (.bin .div (.bin .mul (.flt (lit K 2 0)) a) b)) (.flt (lit K 1 0))))
      (.bin .div (.bin .sub (.flt (lit K 1 0)) (.call1 (.expf, none) (.bin .div (.bin .mul (.neg (.flt (lit K 2 0))) a) b)))
        (.bin .add (.flt (lit K 1 0)) (.call1 (.expf, none) (.bin .div (.bin .mul (.neg (.flt (lit K 2 0))) a) b))))
  | .linear => .bin .div a b
  | .exponential => .call1 (.exp, none) (.bin .div a b)
  | .logarithm => .call1 (.log, none) (.bin .div a b)
  | .clip mx mn => .cond (.bin .gt (.bin .div a b) mx.expr) mx.expr
      (.cond (.bin .lt (.bin .div a b) mn.expr) mn.expr (.bin .div a b))

/-- what `layers/pooling/max_pooling/MaxPooling2DDefault.py` 57-89 passes to the template, channels first -/
def maxPoolHash (c : PoolP) (size idx : Nat) (act : CAct K) (src : Ref) (road : Nat) : Hash K :=
  [(chars! "name", .word (chars! "MaxPooling2D")), (chars! "idx", .num2 idx), (chars! "road", .num road),
   (chars! "size", .num size), (chars! "input_channels", .num c.C), (chars! "output_height", .num c.Ho),
   (chars! "output_width", .num c.Wo),
   (chars! "update_local_vars", .toks [.id (.max, none), .punct .assign, .punct .minus, .id (.INFINITY, none),
     .punct .semi]), (chars! "pool_size", .num c.pool), (chars! "strides", .num c.stride),
   (chars! "pad_left", .num c.padLeft), (chars! "pad_top", .num c.padTop), (chars! "input_height", .num c.H),
   (chars! "input_width", .num c.W), (chars! "activation_function", act.text [.id (.max, none)]),
   (chars! "specific_function", .toks (maxFunction c src))]

/-- the program that the text is -/
def maxPoolAst (c : PoolP) (size idx : Nat) (act : CAct K) (src : Ref) (road : Nat) : Stmt K :=
  (.seq
    (loop (.f, none) c.C
      (.block
        (loop (.i, none) c.Ho
          (.block
            (loop (.j, none) c.Wo
              (.block
                (.seq
                  (.assign (.var (.max, none)) .set (.neg (.var (.INFINITY, none))))
                  (.seq
                    (loop (.h, none) c.pool
                      (.block
                        (loop (.w, none) c.pool
                          (.block
                            (.seq
                              (.decl .int (.ii, none) (.bin .sub (.bin .add (.bin .mul (.var (.i, none))
                                  (.num c.stride)) (.var (.h, none))) (.num c.padLeft)))
                              (.seq
                                (.decl .int (.jj, none) (.bin .sub (.bin .add (.bin .mul (.var (.j, none))
                                    (.num c.stride)) (.var (.w, none))) (.num c.padTop)))
                                (.ite (.land (.land (.land (.bin .ge (.var (.ii, none)) (.num 0)) (.bin .lt (.var
                                    (.ii, none)) (.num c.H))) (.bin .ge (.var (.jj, none)) (.num 0))) (.bin .lt
                                    (.var (.jj, none)) (.num c.W)))
                                  (.block
                                    (.ite (.bin .gt (.idx true src.ident (.bin .add (.var (.jj, none)) (.bin .mul
                                        (.num c.W) (.bin .add (.var (.ii, none)) (.bin .mul (.num c.H) (.var
                                        (.f, none))))))) (.var (.max, none)))
                                      (.assign (.var (.max, none)) .set (.idx true src.ident (.bin .add (.var
                                          (.jj, none)) (.bin .mul (.num c.W) (.bin .add (.var (.ii, none))
                                          (.bin .mul (.num c.H) (.var (.f, none))))))))
                                      .skip))
                                  .skip)))))))
                    (.assign (.idx true (.tensor_temp, none) (.bin .add (.var (.j, none)) (.bin .mul (.num c.Wo)
                        (.bin .add (.var (.i, none)) (.bin .mul (.num c.Ho) (.var (.f, none))))))) .set (act.expr
                        (.var (.max, none))))))))))))
    (loop (.k, none) size
      (.block
        (.assign (.idx true (.output, some ⟨false, road⟩) (.var (.k, none))) .set (.idx true (.tensor_temp, none)
            (.var (.k, none)))))))

omit [LinearOrder K] [FloorRing K] in
theorem maxPool_code (c : PoolP) (size idx : Nat) (act : CAct K) (src : Ref) (road : Nat) :
    code Tpl.pooling2D (maxPoolHash c size idx act src road) =
      some (maxPoolAst c size idx act src road : Stmt K) := by
  rcases act with _ | _ | _ | ⟨_ | _, _⟩ | _ | _ | _ | _ | ⟨⟨_ | _, _⟩, ⟨_ | _, _⟩⟩ <;>
    cases src <;> kernel_rfl

/-- what `layers/pooling/average_pooling/AveragePooling2DDefault.py` 59-88 passes to the template, channels first -/
def avgPoolHash (c : PoolP) (size idx : Nat) (act : CAct K) (src : Ref) (road : Nat) : Hash K :=
  [(chars! "name", .word (chars! "AveragePooling2D")), (chars! "idx", .num2 idx), (chars! "road", .num road),
   (chars! "size", .num size), (chars! "input_channels", .num c.C), (chars! "output_height", .num c.Ho),
   (chars! "output_width", .num c.Wo),
   (chars! "update_local_vars", .toks [.id (.sum, none), .punct .assign, .num 0, .punct .semi,
     .id (.count, none), .punct .assign, .num 0, .punct .semi]), (chars! "pool_size", .num c.pool),
   (chars! "strides", .num c.stride), (chars! "pad_left", .num c.padLeft), (chars! "pad_top", .num c.padTop),
   (chars! "input_height", .num c.H), (chars! "input_width", .num c.W),
   (chars! "activation_function", act.text [.id (.sum, none), .punct .slash, .id (.count, none)]),
   (chars! "specific_function", .toks (avgFunction c src))]

/-- the program that the text is -/
def avgPoolAst (c : PoolP) (size idx : Nat) (act : CAct K) (src : Ref) (road : Nat) : Stmt K :=
  (.seq
    (loop (.f, none) c.C
      (.block
        (loop (.i, none) c.Ho
          (.block
            (loop (.j, none) c.Wo
              (.block
                (.seq
                  (.assign (.var (.sum, none)) .set (.num 0))
                  (.seq
                    (.assign (.var (.count, none)) .set (.num 0))
                    (.seq
                      (loop (.h, none) c.pool
                        (.block
                          (loop (.w, none) c.pool
                            (.block
                              (.seq
                                (.decl .int (.ii, none) (.bin .sub (.bin .add (.bin .mul (.var (.i, none))
                                    (.num c.stride)) (.var (.h, none))) (.num c.padLeft)))
                                (.seq
                                  (.decl .int (.jj, none) (.bin .sub (.bin .add (.bin .mul (.var (.j, none))
                                      (.num c.stride)) (.var (.w, none))) (.num c.padTop)))
                                  (.ite (.land (.land (.land (.bin .ge (.var (.ii, none)) (.num 0)) (.bin .lt (.var
                                      (.ii, none)) (.num c.H))) (.bin .ge (.var (.jj, none)) (.num 0))) (.bin .lt
                                      (.var (.jj, none)) (.num c.W)))
                                    (.block
                                      (.seq
                                        (.assign (.var (.sum, none)) .add (.idx true src.ident (.bin .add (.var
                                            (.jj, none)) (.bin .mul (.num c.W) (.bin .add (.var (.ii, none))
                                            (.bin .mul (.num c.H) (.var (.f, none))))))))
                                        (.incr (.count, none))))
                                    .skip)))))))
                      (.assign (.idx true (.tensor_temp, none) (.bin .add (.var (.j, none)) (.bin .mul (.num c.Wo)
                          (.bin .add (.var (.i, none)) (.bin .mul (.num c.Ho) (.var (.f, none))))))) .set (act.quot
                          (.var (.sum, none)) (.var (.count, none)))))))))))))
    (loop (.k, none) size
      (.block
        (.assign (.idx true (.output, some ⟨false, road⟩) (.var (.k, none))) .set (.idx true (.tensor_temp, none)
            (.var (.k, none)))))))

omit [LinearOrder K] [FloorRing K] in
theorem avgPool_code (c : PoolP) (size idx : Nat) (act : CAct K) (src : Ref) (road : Nat) :
    code Tpl.pooling2D (avgPoolHash c size idx act src road) =
      some (avgPoolAst c size idx act src road : Stmt K) := by
  rcases act with _ | _ | _ | ⟨_ | _, _⟩ | _ | _ | _ | _ | ⟨⟨_ | _, _⟩, ⟨_ | _, _⟩⟩ <;>
    cases src <;> kernel_rfl


end Verif.CText

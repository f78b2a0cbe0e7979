import Verif.CText.Std
import Verif.Layers.Norm

/-!
# The texts of Softmax and BatchNormalization: hashes and programs
-/

namespace Verif.CText
open Prog Layers
set_option linter.unusedVariables false
variable {K : Type} [Field K] [LinearOrder K] [FloorRing K]

/-- what `layers/softmax/SoftmaxDefault.py` 38-85 passes to the template, one dimension -/
def softmax1Hash (size idx : Nat) (act : CAct K) (src : Ref) (road : Nat) : Hash K :=
  [(chars! "name", .word (chars! "Softmax")), (chars! "idx", .num2 idx), (chars! "road", .num road),
   (chars! "output_str", src.text), (chars! "1D", .bool true), (chars! "size", .num size),
   (chars! "activation_function", act.text [.id (.ctx, none), .punct .arrow,
     .id (.output, some ⟨false, road⟩), .punct .lbrk, .id (.j, none), .punct .rbrk])]

/-- the program that the text is -/
def softmax1Ast (size idx : Nat) (act : CAct K) (src : Ref) (road : Nat) : Stmt K :=
  (.seq
    (.assign (.var (.sum, none)) .set (.num 0))
    (.seq
      (loop (.i, none) size
        (.assign (.var (.sum, none)) .add (.call1 (.exp, none) (.idx true src.ident (.var (.i, none))))))
      (loop (.j, none) size
        (.block
          (.seq
            (.assign (.idx true (.output, some ⟨false, road⟩) (.var (.j, none))) .set (.bin .div (.call1
                (.exp, none) (.idx true src.ident (.var (.j, none)))) (.var (.sum, none))))
            (.assign (.idx true (.output, some ⟨false, road⟩) (.var (.j, none))) .set (act.expr (.idx true
                (.output, some ⟨false, road⟩) (.var (.j, none))))))))))

omit [LinearOrder K] [FloorRing K] in
theorem softmax1_code (size idx : Nat) (act : CAct K) (src : Ref) (road : Nat) :
    code Tpl.softmax (softmax1Hash size idx act src road) =
      some (softmax1Ast size idx act src road : Stmt K) := by
  obtain ⟨x_src, n_src, ht_src, hi_src⟩ := src.any K
  unfold softmax1Hash softmax1Ast
  rw [ht_src, hi_src]
  clear ht_src hi_src
  rcases act with _ | _ | _ | ⟨_ | _, _⟩ | _ | _ | _ | _ | ⟨⟨_ | _, _⟩, ⟨_ | _, _⟩⟩ <;>
    kernel_rfl

/-- the same, axis 1 -/
def softmax3CHash (C H W idx : Nat) (act : CAct K) (src : Ref) (road : Nat) : Hash K :=
  [(chars! "name", .word (chars! "Softmax")), (chars! "idx", .num2 idx), (chars! "road", .num road),
   (chars! "output_str", src.text), (chars! "1D", .bool false), (chars! "output_channels", .num C),
   (chars! "output_height", .num H), (chars! "output_width", .num W), (chars! "sum_dimension_1", .num H),
   (chars! "sum_dimension_2", .num W), (chars! "reduced_dimension", .num C),
   (chars! "reduced_position_1", .toks [.id (.i, none), .punct .plus, .num W, .punct .star, .id (.f, none)]),
   (chars! "reduced_position_2", .toks [.id (.i, none), .punct .plus, .num W, .punct .star, .punct .lpar,
     .id (.f, none), .punct .plus, .num H, .punct .star, .id (.j, none), .punct .rpar]),
   (chars! "softmax_indice", .toks [.id (.j, none), .punct .plus, .num W, .punct .star, .id (.i, none)]),
   (chars! "activation_function", act.text [.id (.ctx, none), .punct .arrow,
     .id (.output, some ⟨false, road⟩), .punct .lbrk, .id (.j, none), .punct .rbrk])]

/-- the program that the text is -/
def softmax3CAst (C H W idx : Nat) (act : CAct K) (src : Ref) (road : Nat) : Stmt K :=
  (.seq
    (loop (.f, none) H
      (.block
        (loop (.i, none) W
          (.block
            (.seq
              (.assign (.idx true (.tensor_temp, none) (.bin .add (.var (.i, none)) (.bin .mul (.num W) (.var
                  (.f, none))))) .set (.num 0))
              (loop (.j, none) C
                (.block
                  (.assign (.idx true (.tensor_temp, none) (.bin .add (.var (.i, none)) (.bin .mul (.num W) (.var
                      (.f, none))))) .add (.call1 (.exp, none) (.idx true src.ident (.bin .add (.var (.i, none))
                      (.bin .mul (.num W) (.bin .add (.var (.f, none)) (.bin .mul (.num H) (.var
                      (.j, none))))))))))))))))
    (loop (.f, none) C
      (.block
        (loop (.i, none) H
          (.block
            (loop (.j, none) W
              (.block
                (.assign (.idx true (.output, some ⟨false, road⟩) (.bin .add (.var (.j, none)) (.bin .mul (.num W)
                    (.bin .add (.var (.i, none)) (.bin .mul (.num H) (.var (.f, none))))))) .set (.bin .div (.call1
                    (.exp, none) (.idx true src.ident (.bin .add (.var (.j, none)) (.bin .mul (.num W) (.bin .add
                    (.var (.i, none)) (.bin .mul (.num H) (.var (.f, none)))))))) (.idx true (.tensor_temp, none)
                    (.bin .add (.var (.j, none)) (.bin .mul (.num W) (.var (.i, none))))))))))))))

omit [LinearOrder K] [FloorRing K] in
theorem softmax3C_code (C H W idx : Nat) (act : CAct K) (src : Ref) (road : Nat) :
    code Tpl.softmax (softmax3CHash C H W idx act src road) =
      some (softmax3CAst C H W idx act src road : Stmt K) := by
  obtain ⟨x_src, n_src, ht_src, hi_src⟩ := src.any K
  unfold softmax3CHash softmax3CAst
  rw [ht_src, hi_src]
  clear ht_src hi_src
  rcases act with _ | _ | _ | ⟨_ | _, _⟩ | _ | _ | _ | _ | ⟨⟨_ | _, _⟩, ⟨_ | _, _⟩⟩ <;>
    kernel_rfl

/-- the same, axis 2 -/
def softmax3HHash (C H W idx : Nat) (act : CAct K) (src : Ref) (road : Nat) : Hash K :=
  [(chars! "name", .word (chars! "Softmax")), (chars! "idx", .num2 idx), (chars! "road", .num road),
   (chars! "output_str", src.text), (chars! "1D", .bool false), (chars! "output_channels", .num C),
   (chars! "output_height", .num H), (chars! "output_width", .num W), (chars! "sum_dimension_1", .num C),
   (chars! "sum_dimension_2", .num W), (chars! "reduced_dimension", .num H),
   (chars! "reduced_position_1", .toks [.id (.i, none), .punct .plus, .num W, .punct .star, .id (.f, none)]),
   (chars! "reduced_position_2", .toks [.id (.i, none), .punct .plus, .num W, .punct .star, .punct .lpar,
     .id (.j, none), .punct .plus, .num H, .punct .star, .id (.f, none), .punct .rpar]),
   (chars! "softmax_indice", .toks [.id (.j, none), .punct .plus, .num W, .punct .star, .id (.f, none)]),
   (chars! "activation_function", act.text [.id (.ctx, none), .punct .arrow,
     .id (.output, some ⟨false, road⟩), .punct .lbrk, .id (.j, none), .punct .rbrk])]

/-- the program that the text is -/
def softmax3HAst (C H W idx : Nat) (act : CAct K) (src : Ref) (road : Nat) : Stmt K :=
  (.seq
    (loop (.f, none) C
      (.block
        (loop (.i, none) W
          (.block
            (.seq
              (.assign (.idx true (.tensor_temp, none) (.bin .add (.var (.i, none)) (.bin .mul (.num W) (.var
                  (.f, none))))) .set (.num 0))
              (loop (.j, none) H
                (.block
                  (.assign (.idx true (.tensor_temp, none) (.bin .add (.var (.i, none)) (.bin .mul (.num W) (.var
                      (.f, none))))) .add (.call1 (.exp, none) (.idx true src.ident (.bin .add (.var (.i, none))
                      (.bin .mul (.num W) (.bin .add (.var (.j, none)) (.bin .mul (.num H) (.var
                      (.f, none))))))))))))))))
    (loop (.f, none) C
      (.block
        (loop (.i, none) H
          (.block
            (loop (.j, none) W
              (.block
                (.assign (.idx true (.output, some ⟨false, road⟩) (.bin .add (.var (.j, none)) (.bin .mul (.num W)
                    (.bin .add (.var (.i, none)) (.bin .mul (.num H) (.var (.f, none))))))) .set (.bin .div (.call1
                    (.exp, none) (.idx true src.ident (.bin .add (.var (.j, none)) (.bin .mul (.num W) (.bin .add
                    (.var (.i, none)) (.bin .mul (.num H) (.var (.f, none)))))))) (.idx true (.tensor_temp, none)
                    (.bin .add (.var (.j, none)) (.bin .mul (.num W) (.var (.f, none))))))))))))))

omit [LinearOrder K] [FloorRing K] in
theorem softmax3H_code (C H W idx : Nat) (act : CAct K) (src : Ref) (road : Nat) :
    code Tpl.softmax (softmax3HHash C H W idx act src road) =
      some (softmax3HAst C H W idx act src road : Stmt K) := by
  obtain ⟨x_src, n_src, ht_src, hi_src⟩ := src.any K
  unfold softmax3HHash softmax3HAst
  rw [ht_src, hi_src]
  clear ht_src hi_src
  rcases act with _ | _ | _ | ⟨_ | _, _⟩ | _ | _ | _ | _ | ⟨⟨_ | _, _⟩, ⟨_ | _, _⟩⟩ <;>
    kernel_rfl

/-- the same, axis 3 -/
def softmax3WHash (C H W idx : Nat) (act : CAct K) (src : Ref) (road : Nat) : Hash K :=
  [(chars! "name", .word (chars! "Softmax")), (chars! "idx", .num2 idx), (chars! "road", .num road),
   (chars! "output_str", src.text), (chars! "1D", .bool false), (chars! "output_channels", .num C),
   (chars! "output_height", .num H), (chars! "output_width", .num W), (chars! "sum_dimension_1", .num C),
   (chars! "sum_dimension_2", .num H), (chars! "reduced_dimension", .num W),
   (chars! "reduced_position_1", .toks [.id (.i, none), .punct .plus, .num H, .punct .star, .id (.f, none)]),
   (chars! "reduced_position_2", .toks [.id (.j, none), .punct .plus, .num W, .punct .star, .punct .lpar,
     .id (.i, none), .punct .plus, .num H, .punct .star, .id (.f, none), .punct .rpar]),
   (chars! "softmax_indice", .toks [.id (.i, none), .punct .plus, .num H, .punct .star, .id (.f, none)]),
   (chars! "activation_function", act.text [.id (.ctx, none), .punct .arrow,
     .id (.output, some ⟨false, road⟩), .punct .lbrk, .id (.j, none), .punct .rbrk])]

/-- the program that the text is -/
def softmax3WAst (C H W idx : Nat) (act : CAct K) (src : Ref) (road : Nat) : Stmt K :=
  (.seq
    (loop (.f, none) C
      (.block
        (loop (.i, none) H
          (.block
            (.seq
              (.assign (.idx true (.tensor_temp, none) (.bin .add (.var (.i, none)) (.bin .mul (.num H) (.var
                  (.f, none))))) .set (.num 0))
              (loop (.j, none) W
                (.block
                  (.assign (.idx true (.tensor_temp, none) (.bin .add (.var (.i, none)) (.bin .mul (.num H) (.var
                      (.f, none))))) .add (.call1 (.exp, none) (.idx true src.ident (.bin .add (.var (.j, none))
                      (.bin .mul (.num W) (.bin .add (.var (.i, none)) (.bin .mul (.num H) (.var
                      (.f, none))))))))))))))))
    (loop (.f, none) C
      (.block
        (loop (.i, none) H
          (.block
            (loop (.j, none) W
              (.block
                (.assign (.idx true (.output, some ⟨false, road⟩) (.bin .add (.var (.j, none)) (.bin .mul (.num W)
                    (.bin .add (.var (.i, none)) (.bin .mul (.num H) (.var (.f, none))))))) .set (.bin .div (.call1
                    (.exp, none) (.idx true src.ident (.bin .add (.var (.j, none)) (.bin .mul (.num W) (.bin .add
                    (.var (.i, none)) (.bin .mul (.num H) (.var (.f, none)))))))) (.idx true (.tensor_temp, none)
                    (.bin .add (.var (.i, none)) (.bin .mul (.num H) (.var (.f, none))))))))))))))

omit [LinearOrder K] [FloorRing K] in
theorem softmax3W_code (C H W idx : Nat) (act : CAct K) (src : Ref) (road : Nat) :
    code Tpl.softmax (softmax3WHash C H W idx act src road) =
      some (softmax3WAst C H W idx act src road : Stmt K) := by
  obtain ⟨x_src, n_src, ht_src, hi_src⟩ := src.any K
  unfold softmax3WHash softmax3WAst
  rw [ht_src, hi_src]
  clear ht_src hi_src
  rcases act with _ | _ | _ | ⟨_ | _, _⟩ | _ | _ | _ | _ | ⟨⟨_ | _, _⟩, ⟨_ | _, _⟩⟩ <;>
    kernel_rfl

/-- the hash, by axis -/
def softmax3Hash (a : Axis) : (C H W idx : Nat) → CAct K → Ref → Nat → Hash K :=
  match a with
  | .c => softmax3CHash
  | .h => softmax3HHash
  | .w => softmax3WHash

/-- what `layers/batch_normalization/BatchNormalizationDefault.py` 38-58 passes to the template; `n` is the size of a channel -/
def batchNormHash (C n idx : Nat) (eps : SNum K) (act : CAct K) (src : Ref) (road : Nat) : Hash K :=
  [(chars! "name", .word (chars! "BatchNormalization")), (chars! "idx", .num2 idx), (chars! "output_str", src.text),
   (chars! "path", .num road),
   (chars! "activation_function", act.text [.id (.ctx, none), .punct .arrow,
     .id (.output, some ⟨false, road⟩), .punct .lbrk, .id (.k, none), .punct .plus, .num n, .punct .star, .id (.f, none), .punct .rbrk]),
   (chars! "input_channels", .num C), (chars! "channel_size", .num n), (chars! "epsilon", .toks eps.toks)]

/-- the program that the text is -/
def batchNormAst (C n idx : Nat) (eps : SNum K) (act : CAct K) (src : Ref) (road : Nat) : Stmt K :=
  (loop (.f, none) C
    (.block
      (loop (.k, none) n
        (.block
          (.seq
            (.assign (.idx true (.output, some ⟨false, road⟩) (.bin .add (.var (.k, none)) (.bin .mul (.num n) (.var
                (.f, none))))) .set (.bin .add (.bin .div (.bin .mul (.idx false (.other
                (chars! "scale_BatchNormalization"), some ⟨decide (idx < 10), idx⟩) (.var (.f, none))) (.bin .sub
                (.idx true src.ident (.bin .add (.var (.k, none)) (.bin .mul (.num n) (.var (.f, none)))))
                (.idx false (.other (chars! "mean_BatchNormalization"), some ⟨decide (idx < 10), idx⟩) (.var
                (.f, none))))) (.call1 (.sqrt, none) (.bin .add (.idx false (.other
                (chars! "var_BatchNormalization"), some ⟨decide (idx < 10), idx⟩) (.var (.f, none))) eps.expr)))
                (.idx false (.other (chars! "biases_BatchNormalization"), some ⟨decide (idx < 10), idx⟩) (.var
                (.f, none)))))
            (.assign (.idx true (.output, some ⟨false, road⟩) (.bin .add (.var (.k, none)) (.bin .mul (.num n) (.var
                (.f, none))))) .set (act.expr (.idx true (.output, some ⟨false, road⟩) (.bin .add (.var (.k, none))
                (.bin .mul (.num n) (.var (.f, none))))))))))))

omit [LinearOrder K] [FloorRing K] in
theorem batchNorm_code (C n idx : Nat) (eps : SNum K) (act : CAct K) (src : Ref) (road : Nat) :
    code Tpl.batchNormalization (batchNormHash C n idx eps act src road) =
      some (batchNormAst C n idx eps act src road : Stmt K) := by
  obtain ⟨x_src, n_src, ht_src, hi_src⟩ := src.any K
  unfold batchNormHash batchNormAst
  rw [ht_src, hi_src]
  clear ht_src hi_src
  rcases act with _ | _ | _ | ⟨_ | _, _⟩ | _ | _ | _ | _ | ⟨⟨_ | _, _⟩, ⟨_ | _, _⟩⟩ <;>
    rcases eps with ⟨_ | _, _⟩ <;> kernel_rfl


end Verif.CText

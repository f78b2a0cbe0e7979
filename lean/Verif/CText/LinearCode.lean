import Verif.CText.Std
import Verif.Layers.Linear

/-!
# The texts of Dense and MatMul: hashes and programs
-/

namespace Verif.CText
open Prog Layers
set_option linter.unusedVariables false
variable {K : Type} [Field K] [LinearOrder K] [FloorRing K]

/-- what `layers/dense/DenseDefault.py` 39-64 passes to the template -/
def denseHash (size prevSize idx : Nat) (act : CAct K) (src : Ref) (road : Nat) : Hash K :=
  [(chars! "name", .word (chars! "Dense")), (chars! "idx", .num2 idx), (chars! "output_str", src.text),
   (chars! "road", .num road), (chars! "size", .num size),
   (chars! "activation_function", act.text [.id (.dotproduct, none)]), (chars! "prev_size", .num prevSize)]

/-- the program that the text is -/
def denseAst (size prevSize idx : Nat) (act : CAct K) (src : Ref) (road : Nat) : Stmt K :=
  (.seq
    (loop (.i, none) size
      (.block
        (.seq
          (.assign (.var (.dotproduct, none)) .set (.num 0))
          (.seq
            (loop (.j, none) prevSize
              (.block
                (.assign (.var (.dotproduct, none)) .add (.bin .mul (.idx true src.ident (.var (.j, none)))
                    (.idx false (.other (chars! "weights_Dense"), some ⟨decide (idx < 10), idx⟩) (.bin .add
                    (.bin .mul (.var (.j, none)) (.num size)) (.var (.i, none))))))))
            (.seq
              (.assign (.var (.dotproduct, none)) .add (.idx false (.other (chars! "biases_Dense"), some ⟨decide
                  (idx < 10), idx⟩) (.var (.i, none))))
              (.assign (.idx true (.tensor_temp, none) (.var (.i, none))) .set (act.expr (.var
                  (.dotproduct, none)))))))))
    (loop (.k, none) size
      (.block
        (.assign (.idx true (.output, some ⟨false, road⟩) (.var (.k, none))) .set (.idx true (.tensor_temp, none)
            (.var (.k, none)))))))

omit [LinearOrder K] [FloorRing K] in
theorem dense_code (size prevSize idx : Nat) (act : CAct K) (src : Ref) (road : Nat) :
    code Tpl.dense (denseHash size prevSize idx act src road) =
      some (denseAst size prevSize idx act src road : Stmt K) := by
  obtain ⟨x_src, n_src, ht_src, hi_src⟩ := src.any K
  unfold denseHash denseAst
  rw [ht_src, hi_src]
  clear ht_src hi_src
  rcases act with _ | _ | _ | ⟨_ | _, _⟩ | _ | _ | _ | _ | ⟨⟨_ | _, _⟩, ⟨_ | _, _⟩⟩ <;>
    kernel_rfl

/-- what `layers/matmul/MatMulDefault.py` 38-65 passes to the template -/
def matmulHash (C H W n size idx : Nat) (act : CAct K) (left right : Ref) (road : Nat) : Hash K :=
  [(chars! "name", .word (chars! "MatMul")), (chars! "idx", .num2 idx), (chars! "road", .num road),
   (chars! "size", .num size), (chars! "activation", act.lam), (chars! "shared_dimension", .num n),
   (chars! "output_channels", .num C), (chars! "output_height", .num H), (chars! "output_width", .num W),
   (chars! "output_str_left", left.text), (chars! "output_str_right", right.text)]

/-- the program that the text is -/
def matmulAst (C H W n size idx : Nat) (act : CAct K) (left right : Ref) (road : Nat) : Stmt K :=
  (.seq
    (loop (.f, none) C
      (.block
        (loop (.i, none) H
          (.block
            (loop (.j, none) W
              (.block
                (.seq
                  (.assign (.idx true (.tensor_temp, none) (.bin .add (.var (.j, none)) (.bin .mul (.num W)
                      (.bin .add (.var (.i, none)) (.bin .mul (.num H) (.var (.f, none))))))) .set (.num 0))
                  (loop (.k, none) n
                    (.block
                      (.assign (.idx true (.tensor_temp, none) (.bin .add (.var (.j, none)) (.bin .mul (.num W)
                          (.bin .add (.var (.i, none)) (.bin .mul (.num H) (.var (.f, none))))))) .add (.bin .mul
                          (.idx true left.ident (.bin .add (.var (.k, none)) (.bin .mul (.num n) (.bin .add (.var
                          (.i, none)) (.bin .mul (.num H) (.var (.f, none))))))) (.idx true right.ident (.bin .add
                          (.var (.j, none)) (.bin .mul (.num W) (.bin .add (.var (.k, none)) (.bin .mul (.num n)
                          (.var (.f, none))))))))))))))))))
    (loop (.k, none) size
      (.block
        (.assign (.idx true (.output, some ⟨false, road⟩) (.var (.k, none))) .set (act.expr (.idx true
            (.tensor_temp, none) (.var (.k, none))))))))

omit [LinearOrder K] [FloorRing K] in
theorem matmul_code (C H W n size idx : Nat) (act : CAct K) (left right : Ref) (road : Nat) :
    code Tpl.matMul (matmulHash C H W n size idx act left right road) =
      some (matmulAst C H W n size idx act left right road : Stmt K) := by
  obtain ⟨x_left, n_left, ht_left, hi_left⟩ := left.any K
  obtain ⟨x_right, n_right, ht_right, hi_right⟩ := right.any K
  unfold matmulHash matmulAst
  rw [ht_left, hi_left, ht_right, hi_right]
  clear ht_left hi_left ht_right hi_right
  rcases act with _ | _ | _ | ⟨_ | _, _⟩ | _ | _ | _ | _ | ⟨⟨_ | _, _⟩, ⟨_ | _, _⟩⟩ <;>
    kernel_rfl


end Verif.CText

import Verif.CText.Std
import Verif.Layers.Linear

/-!
# The texts of Gemm: hashes and programs
-/

namespace Verif.CText
open Prog Layers
set_option linter.unusedVariables false
variable {K : Type} [Field K] [LinearOrder K] [FloorRing K]

/-- `{{#alpha}}{{.}}*{{/alpha}}`: the attribute is `[]` for 1 and `[alpha]` otherwise (`Gemm.py` 62-69) -/
def scalar (q : Option (SNum K)) : HVal K :=
  .list (match q with | none => [] | some q => [[(chars! ".", .toks q.toks)]])

/-- the expression that such a prefix makes -/
def scaledE (q : Option (SNum K)) (e : Expr K) : Expr K :=
  match q with
  | none => e
  | some q => .bin .mul q.expr e

/-- `write_gemm_nn` (`GemmDefault.py` 46-82); `B` is `f"weights_{name}_{idx:02d}"` -/
def gemm_nnHash (m n k idx : Nat) (alpha beta : Option (SNum K)) (act : CAct K) (src : Ref) : Hash K :=
  [(chars! "name", .word (chars! "Gemm")), (chars! "idx", .num2 idx), (chars! "m", .num m), (chars! "n", .num n), (chars! "k", .num k), (chars! "A", src.text), (chars! "B", .toks [.id (.other (chars! "weights_Gemm"), some ⟨decide (idx < 10), idx⟩)]), (chars! "activation_function", act.text [.id (.output, none)]), (chars! "alpha", scalar alpha), (chars! "beta", scalar beta)]

/-- what `layers/gemm/GemmDefault.py` 192-225 passes to the template, with the text of `write_gemm_nn` -/
def gemmNNHash (m n k pSize size idx : Nat) (alpha beta : Option (SNum K)) (act : CAct K) (src : Ref) (road : Nat) : Hash K :=
  [(chars! "name", .word (chars! "Gemm")), (chars! "idx", .num2 idx), (chars! "size", .num size),
   (chars! "road", .num road), (chars! "patches_size", .num pSize),
   (chars! "gemm_code", .toks (rendered Tpl.gemm_nn (gemm_nnHash m n k idx alpha beta act src)))]

/-- the program that the text is -/
def gemmNNAst (m n k pSize size idx : Nat) (alpha beta : Option (SNum K)) (act : CAct K) (src : Ref) (road : Nat) : Stmt K :=
  (.seq
    (loop (.k, none) pSize
      (.block
        (.assign (.idx true (.tensor_temp, none) (.var (.k, none))) .set (.num 0))))
    (.seq
      (loop (.i, none) m
        (.block
          (loop (.j, none) n
            (.block
              (.seq
                (.decl .float (.output, none) (.num 0))
                (.seq
                  (loop (.p, none) k
                    (.block
                      (.assign (.var (.output, none)) .add (.bin .mul (scaledE alpha (.idx true src.ident (.bin .add
                          (.bin .mul (.var (.i, none)) (.num k)) (.var (.p, none))))) (.idx false (.other
                          (chars! "weights_Gemm"), some ⟨decide (idx < 10), idx⟩) (.bin .add (.bin .mul (.var
                          (.p, none)) (.num n)) (.var (.j, none))))))))
                  (.seq
                    (.assign (.var (.output, none)) .add (scaledE beta (.idx false (.other
                        (chars! "biases_Gemm"), some ⟨decide (idx < 10), idx⟩) (.var (.j, none)))))
                    (.assign (.idx true (.tensor_temp, none) (.bin .add (.bin .mul (.var (.i, none)) (.num n)) (.var
                        (.j, none)))) .set (act.expr (.var (.output, none)))))))))))
      (loop (.k, none) size
        (.block
          (.assign (.idx true (.output, some ⟨false, road⟩) (.var (.k, none))) .set (.idx true (.tensor_temp, none)
              (.var (.k, none))))))))

omit [LinearOrder K] [FloorRing K] in
theorem gemmNN_code (m n k pSize size idx : Nat) (alpha beta : Option (SNum K)) (act : CAct K) (src : Ref) (road : Nat) :
    code Tpl.gemm (gemmNNHash m n k pSize size idx alpha beta act src road) =
      some (gemmNNAst m n k pSize size idx alpha beta act src road : Stmt K) := by
  obtain ⟨x, q, ht, hi⟩ := src.any K
  unfold gemmNNHash gemm_nnHash gemmNNAst
  rw [ht, hi]
  clear ht hi
  rcases act with _ | _ | _ | ⟨_ | _, _⟩ | _ | _ | _ | _ | ⟨⟨_ | _, _⟩, ⟨_ | _, _⟩⟩ <;>
    rcases alpha with _ | ⟨_ | _, _⟩ <;> rcases beta with _ | ⟨_ | _, _⟩ <;> kernel_rfl

/-- `write_gemm_nt` (`GemmDefault.py` 84-118); `B` is `f"weights_{name}_{idx:02d}"` -/
def gemm_ntHash (m n k idx : Nat) (alpha beta : Option (SNum K)) (act : CAct K) (src : Ref) : Hash K :=
  [(chars! "name", .word (chars! "Gemm")), (chars! "idx", .num2 idx), (chars! "m", .num m), (chars! "n", .num n), (chars! "k", .num k), (chars! "A", src.text), (chars! "B", .toks [.id (.other (chars! "weights_Gemm"), some ⟨decide (idx < 10), idx⟩)]), (chars! "activation_function", act.text [.id (.output, none)]), (chars! "alpha", scalar alpha), (chars! "beta", scalar beta)]

/-- what `layers/gemm/GemmDefault.py` 192-225 passes to the template, with the text of `write_gemm_nt` -/
def gemmNTHash (m n k pSize size idx : Nat) (alpha beta : Option (SNum K)) (act : CAct K) (src : Ref) (road : Nat) : Hash K :=
  [(chars! "name", .word (chars! "Gemm")), (chars! "idx", .num2 idx), (chars! "size", .num size),
   (chars! "road", .num road), (chars! "patches_size", .num pSize),
   (chars! "gemm_code", .toks (rendered Tpl.gemm_nt (gemm_ntHash m n k idx alpha beta act src)))]

/-- the program that the text is -/
def gemmNTAst (m n k pSize size idx : Nat) (alpha beta : Option (SNum K)) (act : CAct K) (src : Ref) (road : Nat) : Stmt K :=
  (.seq
    (loop (.k, none) pSize
      (.block
        (.assign (.idx true (.tensor_temp, none) (.var (.k, none))) .set (.num 0))))
    (.seq
      (loop (.i, none) m
        (.block
          (loop (.j, none) n
            (.block
              (.seq
                (.decl .float (.output, none) (.num 0))
                (.seq
                  (loop (.p, none) k
                    (.block
                      (.assign (.var (.output, none)) .add (.bin .mul (scaledE alpha (.idx true src.ident (.bin .add
                          (.bin .mul (.var (.i, none)) (.num k)) (.var (.p, none))))) (.idx false (.other
                          (chars! "weights_Gemm"), some ⟨decide (idx < 10), idx⟩) (.bin .add (.bin .mul (.var
                          (.j, none)) (.num k)) (.var (.p, none))))))))
                  (.seq
                    (.assign (.var (.output, none)) .add (scaledE beta (.idx false (.other
                        (chars! "biases_Gemm"), some ⟨decide (idx < 10), idx⟩) (.var (.j, none)))))
                    (.assign (.idx true (.tensor_temp, none) (.bin .add (.bin .mul (.var (.i, none)) (.num n)) (.var
                        (.j, none)))) .set (act.expr (.var (.output, none)))))))))))
      (loop (.k, none) size
        (.block
          (.assign (.idx true (.output, some ⟨false, road⟩) (.var (.k, none))) .set (.idx true (.tensor_temp, none)
              (.var (.k, none))))))))

omit [LinearOrder K] [FloorRing K] in
theorem gemmNT_code (m n k pSize size idx : Nat) (alpha beta : Option (SNum K)) (act : CAct K) (src : Ref) (road : Nat) :
    code Tpl.gemm (gemmNTHash m n k pSize size idx alpha beta act src road) =
      some (gemmNTAst m n k pSize size idx alpha beta act src road : Stmt K) := by
  obtain ⟨x, q, ht, hi⟩ := src.any K
  unfold gemmNTHash gemm_ntHash gemmNTAst
  rw [ht, hi]
  clear ht hi
  rcases act with _ | _ | _ | ⟨_ | _, _⟩ | _ | _ | _ | _ | ⟨⟨_ | _, _⟩, ⟨_ | _, _⟩⟩ <;>
    rcases alpha with _ | ⟨_ | _, _⟩ <;> rcases beta with _ | ⟨_ | _, _⟩ <;> kernel_rfl

/-- `write_gemm_tn` (`GemmDefault.py` 120-154); `B` is `f"weights_{name}_{idx:02d}"` -/
def gemm_tnHash (m n k idx : Nat) (alpha beta : Option (SNum K)) (act : CAct K) (src : Ref) : Hash K :=
  [(chars! "name", .word (chars! "Gemm")), (chars! "idx", .num2 idx), (chars! "m", .num m), (chars! "n", .num n), (chars! "k", .num k), (chars! "A", src.text), (chars! "B", .toks [.id (.other (chars! "weights_Gemm"), some ⟨decide (idx < 10), idx⟩)]), (chars! "activation_function", act.text [.id (.output, none)]), (chars! "alpha", scalar alpha), (chars! "beta", scalar beta)]

/-- what `layers/gemm/GemmDefault.py` 192-225 passes to the template, with the text of `write_gemm_tn` -/
def gemmTNHash (m n k pSize size idx : Nat) (alpha beta : Option (SNum K)) (act : CAct K) (src : Ref) (road : Nat) : Hash K :=
  [(chars! "name", .word (chars! "Gemm")), (chars! "idx", .num2 idx), (chars! "size", .num size),
   (chars! "road", .num road), (chars! "patches_size", .num pSize),
   (chars! "gemm_code", .toks (rendered Tpl.gemm_tn (gemm_tnHash m n k idx alpha beta act src)))]

/-- the program that the text is -/
def gemmTNAst (m n k pSize size idx : Nat) (alpha beta : Option (SNum K)) (act : CAct K) (src : Ref) (road : Nat) : Stmt K :=
  (.seq
    (loop (.k, none) pSize
      (.block
        (.assign (.idx true (.tensor_temp, none) (.var (.k, none))) .set (.num 0))))
    (.seq
      (loop (.i, none) m
        (.block
          (loop (.j, none) n
            (.block
              (.seq
                (.decl .float (.output, none) (.num 0))
                (.seq
                  (loop (.p, none) k
                    (.block
                      (.assign (.var (.output, none)) .add (.bin .mul (scaledE alpha (.idx true src.ident (.bin .add
                          (.bin .mul (.var (.p, none)) (.num m)) (.var (.i, none))))) (.idx false (.other
                          (chars! "weights_Gemm"), some ⟨decide (idx < 10), idx⟩) (.bin .add (.bin .mul (.var
                          (.p, none)) (.num n)) (.var (.j, none))))))))
                  (.seq
                    (.assign (.var (.output, none)) .add (scaledE beta (.idx false (.other
                        (chars! "biases_Gemm"), some ⟨decide (idx < 10), idx⟩) (.var (.j, none)))))
                    (.assign (.idx true (.tensor_temp, none) (.bin .add (.bin .mul (.var (.i, none)) (.num n)) (.var
                        (.j, none)))) .set (act.expr (.var (.output, none)))))))))))
      (loop (.k, none) size
        (.block
          (.assign (.idx true (.output, some ⟨false, road⟩) (.var (.k, none))) .set (.idx true (.tensor_temp, none)
              (.var (.k, none))))))))

omit [LinearOrder K] [FloorRing K] in
theorem gemmTN_code (m n k pSize size idx : Nat) (alpha beta : Option (SNum K)) (act : CAct K) (src : Ref) (road : Nat) :
    code Tpl.gemm (gemmTNHash m n k pSize size idx alpha beta act src road) =
      some (gemmTNAst m n k pSize size idx alpha beta act src road : Stmt K) := by
  obtain ⟨x, q, ht, hi⟩ := src.any K
  unfold gemmTNHash gemm_tnHash gemmTNAst
  rw [ht, hi]
  clear ht hi
  rcases act with _ | _ | _ | ⟨_ | _, _⟩ | _ | _ | _ | _ | ⟨⟨_ | _, _⟩, ⟨_ | _, _⟩⟩ <;>
    rcases alpha with _ | ⟨_ | _, _⟩ <;> rcases beta with _ | ⟨_ | _, _⟩ <;> kernel_rfl

/-- `write_gemm_tt` (`GemmDefault.py` 156-190); `B` is `f"weights_{name}_{idx:02d}"` -/
def gemm_ttHash (m n k idx : Nat) (alpha beta : Option (SNum K)) (act : CAct K) (src : Ref) : Hash K :=
  [(chars! "name", .word (chars! "Gemm")), (chars! "idx", .num2 idx), (chars! "m", .num m), (chars! "n", .num n), (chars! "k", .num k), (chars! "A", src.text), (chars! "B", .toks [.id (.other (chars! "weights_Gemm"), some ⟨decide (idx < 10), idx⟩)]), (chars! "activation_function", act.text [.id (.sum, none)]), (chars! "alpha", scalar alpha), (chars! "beta", scalar beta)]

/-- what `layers/gemm/GemmDefault.py` 192-225 passes to the template, with the text of `write_gemm_tt` -/
def gemmTTHash (m n k pSize size idx : Nat) (alpha beta : Option (SNum K)) (act : CAct K) (src : Ref) (road : Nat) : Hash K :=
  [(chars! "name", .word (chars! "Gemm")), (chars! "idx", .num2 idx), (chars! "size", .num size),
   (chars! "road", .num road), (chars! "patches_size", .num pSize),
   (chars! "gemm_code", .toks (rendered Tpl.gemm_tt (gemm_ttHash m n k idx alpha beta act src)))]

/-- the program that the text is -/
def gemmTTAst (m n k pSize size idx : Nat) (alpha beta : Option (SNum K)) (act : CAct K) (src : Ref) (road : Nat) : Stmt K :=
  (.seq
    (loop (.k, none) pSize
      (.block
        (.assign (.idx true (.tensor_temp, none) (.var (.k, none))) .set (.num 0))))
    (.seq
      (loop (.i, none) m
        (.block
          (loop (.j, none) n
            (.block
              (.seq
                (.decl .float (.sum, none) (.num 0))
                (.seq
                  (loop (.p, none) k
                    (.block
                      (.assign (.var (.sum, none)) .add (.bin .mul (scaledE alpha (.idx true src.ident (.bin .add
                          (.bin .mul (.var (.p, none)) (.num m)) (.var (.i, none))))) (.idx false (.other
                          (chars! "weights_Gemm"), some ⟨decide (idx < 10), idx⟩) (.bin .add (.bin .mul (.var
                          (.j, none)) (.num k)) (.var (.p, none))))))))
                  (.seq
                    (.assign (.var (.sum, none)) .add (scaledE beta (.idx false (.other
                        (chars! "biases_Gemm"), some ⟨decide (idx < 10), idx⟩) (.var (.j, none)))))
                    (.assign (.idx true (.tensor_temp, none) (.bin .add (.bin .mul (.var (.i, none)) (.num n)) (.var
                        (.j, none)))) .set (act.expr (.var (.sum, none)))))))))))
      (loop (.k, none) size
        (.block
          (.assign (.idx true (.output, some ⟨false, road⟩) (.var (.k, none))) .set (.idx true (.tensor_temp, none)
              (.var (.k, none))))))))

omit [LinearOrder K] [FloorRing K] in
theorem gemmTT_code (m n k pSize size idx : Nat) (alpha beta : Option (SNum K)) (act : CAct K) (src : Ref) (road : Nat) :
    code Tpl.gemm (gemmTTHash m n k pSize size idx alpha beta act src road) =
      some (gemmTTAst m n k pSize size idx alpha beta act src road : Stmt K) := by
  obtain ⟨x, q, ht, hi⟩ := src.any K
  unfold gemmTTHash gemm_ttHash gemmTTAst
  rw [ht, hi]
  clear ht hi
  rcases act with _ | _ | _ | ⟨_ | _, _⟩ | _ | _ | _ | _ | ⟨⟨_ | _, _⟩, ⟨_ | _, _⟩⟩ <;>
    rcases alpha with _ | ⟨_ | _, _⟩ <;> rcases beta with _ | ⟨_ | _, _⟩ <;> kernel_rfl


end Verif.CText

import Verif.CText.Casts
import Verif.CText.ConvTemplates
import Verif.CText.DirectCode

/-!
# The text of the depth-wise convolution: hash and program
-/

namespace Verif.CText
open Prog Layers
set_option linter.unusedVariables false
variable {K : Type} [Field K] [LinearOrder K] [FloorRing K]

abbrev dOutP : Ident := (.other (chars! "out_ptr"), none)
abbrev dInP : Ident := (.other (chars! "in_ptr"), none)
abbrev dWP : Ident := (.other (chars! "w_ptr"), none)
abbrev dHs : Ident := (.other (chars! "h_start_idx"), none)
abbrev dWs : Ident := (.other (chars! "w_start_idx"), none)
abbrev dKhs : Ident := (.other (chars! "kh_start"), none)
abbrev dKhe : Ident := (.other (chars! "kh_end"), none)
abbrev dKws : Ident := (.other (chars! "kw_start"), none)
abbrev dKwe : Ident := (.other (chars! "kw_end"), none)

/-- `x * STRIDE - PAD` -/
def dwStartE (c : ConvP) (x : Name) : Expr K := .bin .sub (.bin .mul (.var (x, none)) (.num c.stride)) (.num c.padLeft)

/-- `(0 > -x) ? 0 : -x` -/
def dwLowE (x : Ident) : Expr K := .cond (.bin .gt (.num 0) (.neg (.var x))) (.num 0) (.neg (.var x))

/-- `(k < n - x) ? k : (n - x)` -/
def dwHighE (k n : Nat) (x : Ident) : Expr K := .cond (.bin .lt (.num k) (.bin .sub (.num n) (.var x))) (.num k) (.bin .sub (.num n) (.var x))

/-- `(x * n * K) + (y * K)` -/
def dwAtE (x : Ident) (n k : Nat) (y : Ident) : Expr K :=
  .bin .add (.bin .mul (.bin .mul (.var x) (.num n)) (.num k)) (.bin .mul (.var y) (.num k))

/-- the body of the loop over the columns of the window -/
def dwTap (c : ConvP) (idx : Nat) (src : Ident) : Stmt K :=
  .block (.seq (.decl .int (.iw, none) (.bin .add (.var dWs) (.var (.kw, none))))
    (.seq (.decl .ptr dInP (.addr true src (dwAtE (.ih, none) c.inW c.filters (.iw, none))))
      (.seq (.decl .ptr dWP (.addr false (.other (chars! "weights_Conv2D"), some ⟨decide (idx < 10), idx⟩) (dwAtE (.kh, none) c.kw c.filters (.kw, none))))
        (loopD (.k, none) (.num 0) (.num c.filters) (.block
          (.assign (.idx false dOutP (.var (.k, none))) .add (.bin .mul (.idx false dInP (.var (.k, none))) (.idx false dWP (.var (.k, none))))))))))

/-- the loops over the window -/
def dwWindow (c : ConvP) (idx : Nat) (src : Ident) : Stmt K :=
  loopD (.kh, none) (.var dKhs) (.var dKhe) (.block
    (.seq (.decl .int (.ih, none) (.bin .add (.var dHs) (.var (.kh, none))))
      (loopD (.kw, none) (.var dKws) (.var dKwe) (dwTap c idx src))))

/-- the body of the loop over the columns of the output -/
def dwOut (c : ConvP) (idx : Nat) (src : Ident) : Stmt K :=
  .block (.seq (.decl .ptr dOutP (.addr true (.tensor_temp, none) (dwAtE (.oh, none) c.outW c.filters (.ow, none))))
    (.seq (loopD (.k, none) (.num 0) (.num c.filters) (.block (.assign (.idx false dOutP (.var (.k, none))) .set
        (.idx false (.other (chars! "biases_Conv2D"), some ⟨decide (idx < 10), idx⟩) (.var (.k, none))))))
      (.seq (.decl .int dWs (dwStartE c .ow)) (.seq (.decl .int dKws (dwLowE dWs)) (.seq (.decl .int dKwe (dwHighE c.kw c.inW dWs))
        (dwWindow c idx src))))))

/-- the program that the text is -/
def dwAst (c : ConvP) (size idx : Nat) (act : CAct K) (src : Ref) (road : Nat) : Stmt K :=
  .seq (loopD (.oh, none) (.num 0) (.num c.outH) (.block
      (.seq (.decl .int dHs (dwStartE c .oh)) (.seq (.decl .int dKhs (dwLowE dHs)) (.seq (.decl .int dKhe (dwHighE c.kh c.inH dHs))
        (loopD (.ow, none) (.num 0) (.num c.outW) (dwOut c idx src.ident)))))))
    (loop (.k, none) size (.block
      (.assign (.idx true (.output, some ⟨false, road⟩) (.var (.k, none))) .set (act.expr (.idx true (.tensor_temp, none) (.var (.k, none)))))))

omit [LinearOrder K] [FloorRing K] in
theorem dw_code (c : ConvP) (bk size idx : Nat) (act : CAct K) (src : Ref) (road : Nat) :
    codeC Tpl.conv_DW_HWC (directHash c bk size idx act src road) = some (dwAst c size idx act src road : Stmt K) := by
  obtain ⟨x_src, n_src, ht_src, hi_src⟩ := src.any K
  unfold directHash dwAst
  rw [ht_src, hi_src]
  clear ht_src hi_src
  rcases act with _ | _ | _ | ⟨_ | _, _⟩ | _ | _ | _ | _ | ⟨⟨_ | _, _⟩, ⟨_ | _, _⟩⟩ <;>
    kernel_rfl

end Verif.CText

import Verif.CText.Casts
import Verif.CText.DirectCode
import Verif.CText.PoolForms

/-!
# The text of the pooling layers in the version `channels_last`: program
-/

namespace Verif.CText
open Prog Layers
set_option linter.unusedVariables false
variable {K : Type} [Field K] [LinearOrder K] [FloorRing K]

abbrev iOutP : Ident := (.other (chars! "out_ptr"), none)
abbrev iInP : Ident := (.other (chars! "in_ptr"), none)
abbrev iHs : Ident := (.other (chars! "temp_h_start"), none)
abbrev iHe : Ident := (.other (chars! "temp_h_end"), none)
abbrev iWs : Ident := (.other (chars! "temp_w_start"), none)
abbrev iWe : Ident := (.other (chars! "temp_w_end"), none)
abbrev iKhs : Ident := (.other (chars! "kh_start"), none)
abbrev iKhe : Ident := (.other (chars! "kh_end"), none)
abbrev iKws : Ident := (.other (chars! "kw_start"), none)
abbrev iKwe : Ident := (.other (chars! "kw_end"), none)
abbrev iInv : Ident := (.other (chars! "inv_area"), none)

/-- `pad_left - x * strides` -/
def hwcLowE (c : PoolP) (x : Ident) : Expr K := .bin .sub (.num c.padLeft) (.bin .mul (.var x) (.num c.stride))

/-- `n + pad_left - x * strides` -/
def hwcHighE (c : PoolP) (n : Nat) (x : Ident) : Expr K := .bin .sub (.bin .add (.num n) (.num c.padLeft)) (.bin .mul (.var x) (.num c.stride))

/-- `x * strides + k - pad_left` -/
def hwcPosE (c : PoolP) (x k : Ident) : Expr K := .bin .sub (.bin .add (.bin .mul (.var x) (.num c.stride)) (.var k)) (.num c.padLeft)

/-- `out_ptr[c]` and `in_ptr[c]` -/
def hwcOutE : Expr K := .idx false iOutP (.var (.c, none))
def hwcInE : Expr K := .idx false iInP (.var (.c, none))

/-- the update of the accumulator -/
def hwcUpd (avg : Bool) : Stmt K :=
  if avg then .assign (.idx false iOutP (.var (.c, none))) .add hwcInE
  else .assign (.idx false iOutP (.var (.c, none))) .set (.cond (.bin .gt hwcInE hwcOutE) hwcInE hwcOutE)

/-- the body of the loop over the columns of the window -/
def hwcTap (avg : Bool) (c : PoolP) (src : Ident) : Stmt K :=
  .block (.seq (.decl .int (.iw, none) (hwcPosE c (.ow, none) (.kw, none)))
    (.seq (.decl .ptr iInP (.addr true src (.bin .mul (.bin .add (.bin .mul (.var (.ih, none)) (.num c.W)) (.var (.iw, none))) (.num c.C))))
      (loopD (.c, none) (.num 0) (.num c.C) (.block (hwcUpd avg)))))

/-- the loops over the window -/
def hwcWindow (avg : Bool) (c : PoolP) (src : Ident) : Stmt K :=
  loopD (.kh, none) (.var iKhs) (.var iKhe) (.block
    (.seq (.decl .int (.ih, none) (hwcPosE c (.oh, none) (.kh, none)))
      (loopD (.kw, none) (.var iKws) (.var iKwe) (hwcTap avg c src))))

/-- the first value of the accumulator -/
def hwcInit (avg : Bool) (c : PoolP) : Stmt K :=
  loopD (.c, none) (.num 0) (.num c.C) (.block (.assign (.idx false iOutP (.var (.c, none))) .set (if avg then .flt (lit K 0 1) else .neg (.var (.INFINITY, none)))))

/-- what follows the declarations of the body of the loop over the columns of the output -/
def hwcRest (avg : Bool) (c : PoolP) (src : Ident) : Stmt K :=
  if avg then .seq (hwcInit true c) (.seq (hwcWindow true c src)
    (loopD (.c, none) (.num 0) (.num c.C) (.block (.assign (.idx false iOutP (.var (.c, none))) .mul (.var iInv)))))
  else .seq (hwcInit false c) (hwcWindow false c src)

/-- the body of the loop over the columns of the output -/
def hwcOut (avg : Bool) (c : PoolP) (src : Ident) : Stmt K :=
  .block (.seq (.decl .int iWs (hwcLowE c (.ow, none))) (.seq (.decl .int iKws (.cond (.bin .gt (.num 0) (.var iWs)) (.num 0) (.var iWs)))
    (.seq (.decl .int iWe (hwcHighE c c.W (.ow, none))) (.seq (.decl .int iKwe (.cond (.bin .lt (.num c.pool) (.var iWe)) (.num c.pool) (.var iWe)))
      (.seq (.decl .ptr iOutP (.addr true (.tensor_temp, none) (.bin .mul (.bin .add (.bin .mul (.var (.oh, none)) (.num c.Wo)) (.var (.ow, none))) (.num c.C))))
        (hwcRest avg c src))))))

/-- the loop over the rows of the output -/
def hwcLoop (avg : Bool) (c : PoolP) (src : Ident) : Stmt K :=
  loopD (.oh, none) (.num 0) (.num c.Ho) (.block
    (.seq (.decl .int iHs (hwcLowE c (.oh, none))) (.seq (.decl .int iKhs (.cond (.bin .gt (.num 0) (.var iHs)) (.num 0) (.var iHs)))
      (.seq (.decl .int iHe (hwcHighE c c.H (.oh, none))) (.seq (.decl .int iKhe (.cond (.bin .lt (.num c.pool) (.var iHe)) (.num c.pool) (.var iHe)))
        (loopD (.ow, none) (.num 0) (.num c.Wo) (hwcOut avg c src)))))))

/-- the program that the text is -/
def hwcAst (avg : Bool) (c : PoolP) (size : Nat) (src : Ref) (road : Nat) : Stmt K :=
  .block (if avg then .seq (.decl .float iInv (.bin .div (.flt (lit K 10 1)) (.bin .mul (.num c.pool) (.num c.pool))))
      (.seq (hwcLoop true c src.ident) (loop (.k, none) size (.block
        (.assign (.idx true (.output, some ⟨false, road⟩) (.var (.k, none))) .set (.idx true (.tensor_temp, none) (.var (.k, none)))))))
    else .seq (hwcLoop false c src.ident) (loop (.k, none) size (.block
      (.assign (.idx true (.output, some ⟨false, road⟩) (.var (.k, none))) .set (.idx true (.tensor_temp, none) (.var (.k, none)))))))

omit [LinearOrder K] [FloorRing K] in
theorem hwc_code (avg : Bool) (c : PoolP) (size idx : Nat) (src : Ref) (road : Nat) :
    codeC Tpl.pooling2D_HWC (hwcHash avg c size idx .linear src road) = some (hwcAst avg c size src road : Stmt K) := by
  obtain ⟨x_src, n_src, ht_src, hi_src⟩ := src.any K
  unfold hwcHash hwcAst
  rw [ht_src, hi_src]
  clear ht_src hi_src
  cases avg <;> kernel_rfl

end Verif.CText

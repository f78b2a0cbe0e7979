import Verif.CText.ResizeCode

/-!
# The resizing texts of the mode `tf_crop_and_resize` are not C
-/

namespace Verif.CText
open Prog Layers
set_option linter.unusedVariables false
variable {K : Type} [Field K] [LinearOrder K] [FloorRing K]

theorem nearest_tf (nm : NearestMode) (C size idx : Nat) (h w : RAxis K) (ext : SNum K) (act : CAct K) (src : Ref) (road : Nat) :
    code Tpl.resizeNearest (nearestHash .tfCropAndResize nm C size idx h w ext act src road) = none := by
  unfold nearestHash coordText coordString
  by_cases h1 : h.outLen > 1 <;> by_cases h2 : w.outLen > 1 <;> simp only [h1, h2, if_true, if_false] <;>
  cases nm <;> rcases ext with ⟨_ | _, _⟩ <;> rw [CAct.text_eq] <;> generalize act.toks (nearT h.inLen w.inLen src) = ta <;> kernel_rfl

theorem linear2_tf (C size idx : Nat) (h w : RAxis K) (ext : SNum K) (act : CAct K) (src : Ref) (road : Nat) :
    code Tpl.resizeLinear2D (linear2Hash .tfCropAndResize C size idx h w ext act src road) = none := by
  obtain ⟨x, n, ht, -⟩ := src.any K
  unfold linear2Hash coordText coordString
  rw [ht]
  clear ht
  by_cases h1 : h.outLen > 1 <;> by_cases h2 : w.outLen > 1 <;> simp only [h1, h2, if_true, if_false] <;>
  rcases ext with ⟨_ | _, _⟩ <;> rw [CAct.text_eq] <;> generalize act.toks (tempT h.outLen w.outLen) = ta <;> kernel_rfl

theorem cubic2_tf (a : SNum K) (C size idx : Nat) (h w : RAxis K) (ext : SNum K) (act : CAct K) (src : Ref) (road : Nat) :
    code Tpl.resizeCubic2D (cubic2Hash a .tfCropAndResize C size idx h w ext act src road) = none := by
  obtain ⟨x, n, ht, -⟩ := src.any K
  unfold cubic2Hash coordText coordString
  rw [ht]
  clear ht
  by_cases h1 : h.outLen > 1 <;> by_cases h2 : w.outLen > 1 <;> simp only [h1, h2, if_true, if_false] <;>
  rcases ext with ⟨_ | _, _⟩ <;> rcases a with ⟨_ | _, _⟩ <;> rw [CAct.text_eq] <;> generalize act.toks (tempT h.outLen w.outLen) = ta <;> kernel_rfl

theorem linear1_tf (C size idx : Nat) (h w : RAxis K) (d : Dim1) (ext : SNum K) (act : CAct K) (src : Ref) (road : Nat) :
    code Tpl.resizeLinear1D (linear1Hash .tfCropAndResize C size idx h w d ext act src road) = none := by
  obtain ⟨x, n, ht, -⟩ := src.any K
  unfold linear1Hash coordText coordString
  rw [ht]
  clear ht
  by_cases h1 : (d.axis h w).outLen > 1 <;> simp only [h1, if_true, if_false] <;>
  rcases ext with ⟨_ | _, _⟩ <;> rw [CAct.text_eq] <;> generalize act.toks (tempT h.outLen w.outLen) = ta <;> cases d <;> kernel_rfl

theorem cubic1_tf (a : SNum K) (C size idx : Nat) (h w : RAxis K) (d : Dim1) (ext : SNum K) (act : CAct K) (src : Ref) (road : Nat) :
    code Tpl.resizeCubic1D (cubic1Hash a .tfCropAndResize C size idx h w d ext act src road) = none := by
  obtain ⟨x, n, ht, -⟩ := src.any K
  unfold cubic1Hash coordText coordString
  rw [ht]
  clear ht
  by_cases h1 : (d.axis h w).outLen > 1 <;> simp only [h1, if_true, if_false] <;>
  rcases ext with ⟨_ | _, _⟩ <;> rcases a with ⟨_ | _, _⟩ <;> rw [CAct.text_eq] <;> generalize act.toks (tempT h.outLen w.outLen) = ta <;> cases d <;> kernel_rfl

end Verif.CText

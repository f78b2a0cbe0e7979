import Mathlib.Data.Int.Basic

/-!
# `Layer.compute_padding`
-/

namespace Verif.Gen

/-- The `padding` argument of a layer (`ir/layer.py` 117): a string or a list of integers. -/
inductive Padding
  | str (s : String)
  | list (l : List Int)
  deriving DecidableEq, Repr

/-- result of `compute_padding`, in the order of its tuple -/
structure Pads where
  right : Int
  left : Int
  bottom : Int
  top : Int
  deriving DecidableEq, Repr

/-- `pad_along_height` / `pad_along_width` (`ir/layer.py` 130-131, 137-144).  `none` is the `ZeroDivisionError` of
`in % 0`; `%` is Python's (floor) remainder. -/
def padAlong (size kernel strides dilation : Int) : Option Int :=
  let filter := kernel - (kernel - 1) * (dilation - 1)
  if strides = 0 then none
  else if size.fmod strides = 0 then some (max (filter - strides) 0)
  else some (max (filter - size.fmod strides) 0)

/-- `compute_padding` (`ir/layer.py` 116-164).  `none`: an exception (`IndexError` for a list of fewer than four
elements, `ZeroDivisionError`).  Integer arithmetic only; `//` is floor division. -/
def computePadding (padding : Padding) (inH inW kh kw strides : Int) (dilation : Int := 1) : Option Pads :=
  match padding with
  | .str s =>
    if s = "VALID" ∨ s = "valid" then some ⟨0, 0, 0, 0⟩
    else
      match padAlong inH kh strides dilation, padAlong inW kw strides dilation with
      | some ph, some pw =>
        if s = "SAME_UPPER" ∨ s = "same" then
          let top := ph.fdiv 2
          let left := pw.fdiv 2
          some ⟨pw - left, left, ph - top, top⟩
        else if s = "SAME_LOWER" then
          let bottom := ph.fdiv 2
          let right := pw.fdiv 2
          some ⟨right, pw - right, bottom, ph - bottom⟩
        else some ⟨0, 0, 0, 0⟩
      | _, _ => none
  | .list l =>
    match l[3]?, l[1]?, l[2]?, l[0]? with
    | some r, some lft, some b, some t => some ⟨r, lft, b, t⟩
    | _, _, _, _ => none

/-- The size of the output the layers compute from the padding and check against the declared one
(`Conv2D.py` 186-197 and 205-216, `Pooling2D.py` 123-124 and 128-129, the latter with dilation 1). -/
def outSize (size before after kernel strides dilation : Int) : Int :=
  (size + after + before - kernel - (kernel - 1) * (dilation - 1)).fdiv strides + 1

end Verif.Gen

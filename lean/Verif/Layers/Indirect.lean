import Verif.Layers.Conv
import Mathlib.Data.List.Dedup

/-!
# The table of patches of the indirect gemm (`conv_algorithm = indirect_gemm_*`)

The layer does not copy patches: `create_ppatches` writes a table of pointers, one for each element of the matrix of patches, to an element of the previous
output or to a zero.  `none` is `&zero` (`nan` in Python), `some a` is `&output[a]`.
-/

namespace Verif.Layers

/-- the positions of the matrix of patches in the order of the table: channel, row and column of the tap (`start_idx.ravel()`), then row and column of the
output (`offset_idx.ravel()`): `Conv2DIndirectGemm.py` 45-50, 70-75 -/
def patchPositions (c : ConvP) : List (Nat × Nat × Nat × Nat × Nat) :=
  (List.range c.inC).flatMap fun ch => (List.range c.kh).flatMap fun kh => (List.range c.kw).flatMap fun kw =>
    (List.range c.outH).flatMap fun oh => (List.range c.outW).map fun ow => (ch, kh, kw, oh, ow)

/-- `start_idx + offset_idx` for images of `hp` rows and `wp` columns (45-50, 70-75); the dilation is not used -/
def patchIdx (c : ConvP) (hp wp : Nat) : Nat × Nat × Nat × Nat × Nat → Nat
  | (ch, kh, kw, oh, ow) => hp * wp * ch + (kh * wp + kw) + (oh * c.stride * wp + ow * c.stride)

/-- `i_zeros`, `j_zeros` (53-56): the rows or columns of the padding, `n` being the padded size -/
def padZeros (before after n : Nat) : List Nat := List.range before ++ (List.range after).map (· + (n - after))

/-- `idx_of_zeros` (52-61) -/
def zeroIdx (c : ConvP) : List Nat :=
  let hp := c.inH + c.padTop + c.padBottom
  let wp := c.inW + c.padLeft + c.padRight
  (List.range c.inC).flatMap fun ch => (List.range hp).flatMap fun i => (List.range wp).filterMap fun j =>
    if i ∈ padZeros c.padTop c.padBottom hp ∨ j ∈ padZeros c.padLeft c.padRight wp then some (j + wp * (i + hp * ch)) else none

/-- `np.where(np.isin(idx_padded_input, idx_of_zeros), np.nan, idx_padded_input)` (63) -/
def maskedIdx (c : ConvP) : List (Option Nat) :=
  (patchPositions c).map fun p =>
    let a := patchIdx c (c.inH + c.padTop + c.padBottom) (c.inW + c.padLeft + c.padRight) p
    if a ∈ zeroIdx c then none else some a

/-- `np.unique(.., return_inverse=True)` (64): the rank of a value among the distinct values of the table; `nan` comes last -/
def inverseRank (l : List (Option Nat)) : Option Nat → Nat
  | some v => ((l.filterMap id).dedup.filter fun u => u < v).length
  | none => (l.filterMap id).dedup.length

/-- `.reshape((h, w)).transpose().flatten()` (77) -/
def transposeFlat {β : Type} (h w : Nat) (l : List β) : List β :=
  (List.range w).flatMap fun j => (List.range h).filterMap fun i => l[i * w + j]?

/-- `self.ppatches` before the transposition of the forms `nt` and `tt` (40-75) -/
def ppatches (c : ConvP) : List (Option Nat) :=
  if c.padRight ≠ 0 ∨ c.padLeft ≠ 0 ∨ c.padBottom ≠ 0 ∨ c.padTop ≠ 0 then
    (maskedIdx c).map fun v =>
      let r := inverseRank (maskedIdx c) v
      if r = c.inC * c.inH * c.inW then none else some r
  else (patchPositions c).map fun p => some (patchIdx c c.inH c.inW p)

/-- `self.ppatches` (40-77); `patches_height` and `patches_width` are those of `Conv2DGemm.py` 34-35; `trans`: the form is `gemm_nt` or `gemm_tt` -/
def ppatchesForm (c : ConvP) (trans : Bool) : List (Option Nat) :=
  if trans then transposeFlat (c.inC * c.kh * c.kw) (c.outH * c.outW) (ppatches c) else ppatches c

end Verif.Layers

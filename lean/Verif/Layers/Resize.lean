import Mathlib.Algebra.Order.Floor.Ring
import Mathlib.Data.Rat.Floor
import Mathlib.Algebra.Order.Field.Basic
import Verif.CMem.Cell
import Verif.Layers.Numpy

/-!
# Resize layers: generated code and Python reference

Coordinates and tensor elements live in one ordered field `K` with a floor function (exact arithmetic
instead of `float`); the number of output channels is the number of input channels (the comment in
`layers/resize/Resize.py` 112 says it should be).  Every scale is written in the C text with a decimal
point (they are Python floats), so divisions by a scale are not integer divisions.
-/

namespace Verif.Layers
open Prog
variable {K : Type} [Field K] [LinearOrder K] [IsStrictOrderedRing K] [FloorRing K]

/-- `coordinate_transformation_mode` (`layers/resize/Resize.py` 167-175) -/
inductive CoordMode
  | halfPixel | halfPixelSymmetric | pytorchHalfPixel | alignCorners | asymmetric | tfCropAndResize
  deriving DecidableEq, Repr

/-- One spatial axis: input length, output length, `scale[dim]`, and the two bounds of the region of
interest (`roi[dim]`, `roi[dim+4]`). -/
structure RAxis (K : Type) where
  inLen : Nat
  outLen : Nat
  scale : K
  roiStart : K
  roiEnd : K

/-- The constructor (`layers/resize/Resize.py` 106-121, 196-199): the scale is positive and the output
length is `int(input length * scale)`.  This is also true, in exact arithmetic, of the other way to give
the size, where `scale = output length / input length`. -/
def RAxis.Accepted (a : RAxis K) : Prop := 0 < a.scale ∧ (a.outLen : Int) = ⌊(a.inLen : K) * a.scale⌋

/-- What the C statement computing a coordinate leaves in the `float` variable, as a function of the
output coordinate (`layers/resize/Resize.py`: `half_pixel` 215-222, `half_pixel_symmetric` 232-251,
`pytorch_half_pixel` 271-285, `align_corners` 304-324, `asymmetric` 342-349, `tf_crop_and_resize`
359-386).  `align_corners` is written with integer literals and integer loop variables, so C divides
integers, and `center = L/2` too.  `none`: division by zero, or (tf_crop_and_resize) a text which is not a
C statement. -/
def coordC (mode : CoordMode) (a : RAxis K) (c : Nat) : Option K :=
  match mode with
  | .halfPixel => some ((c + 1 / 2) / a.scale - 1 / 2)
  | .halfPixelSymmetric =>
    let target := (a.outLen : K) * a.scale
    let adjustment := (⌊target⌋ : K) / target
    let center := ((a.inLen / 2 : Nat) : K)
    let offset := center * (1 - adjustment)
    some (offset + (c + 1 / 2) / a.scale - 1 / 2)
  | .pytorchHalfPixel => if a.outLen > 1 then some ((c + 1 / 2) / a.scale - 1 / 2) else some 0
  | .alignCorners => if a.outLen - 1 = 0 then none else some ((c * (a.inLen - 1) / (a.outLen - 1) : Nat) : K)
  | .asymmetric => some (c / a.scale)
  | .tfCropAndResize => none

/-- The coordinate computed by the Python reference (`layers/resize/Resize.py`: `half_pixel_implem`
224-230, `half_pixel_symmetric_implem` 253-269, `pytorch_half_pixel_implem` 287-302,
`align_corners_implem` 326-340, `asymmetric_implem` 351-357, `tf_crop_and_resize_implem` 388-416).
`none`: `ZeroDivisionError`. -/
def coordPy (extrapolation : K) (mode : CoordMode) (a : RAxis K) (c : Nat) : Option K :=
  match mode with
  | .halfPixel => some ((c + 1 / 2) / a.scale - 1 / 2)
  | .halfPixelSymmetric =>
    let target := (a.outLen : K) * a.scale
    let adjustment := (⌊target⌋ : K) / target
    let center := (a.inLen : K) / 2
    let offset := center * (1 - adjustment)
    some (offset + (c + 1 / 2) / a.scale - 1 / 2)
  | .pytorchHalfPixel => if a.outLen > 1 then some ((c + 1 / 2) / a.scale - 1 / 2) else some 0
  | .alignCorners => if (a.outLen : K) - 1 = 0 then none
      else some ((c : K) * ((a.inLen : K) - 1) / ((a.outLen : K) - 1))
  | .asymmetric => some (c / a.scale)
  | .tfCropAndResize =>
    let x := if a.outLen > 1 then
        a.roiStart * ((a.inLen : K) - 1) + c * (a.roiEnd - a.roiStart) * ((a.inLen : K) - 1) / ((a.outLen : K) - 1)
      else 1 / 2 * (a.roiStart + a.roiEnd) * ((a.inLen : K) - 1)
    some (if (a.inLen : K) ≤ x ∨ x < 0 then extrapolation else x)

/-- an expression whose evaluation may fail -/
def liftOpt {α β : Type} (o : Option β) : Prog α β := fun m => o.map fun v => (v, m)

/-- Python indexing `l[z]` of an axis of length `n`: negative indices count from the end, other indices
outside raise `IndexError` (`none`). -/
def pyIndex (n : Nat) (z : Int) : Option Nat :=
  if 0 ≤ z ∧ z < n then some z.toNat else if -n ≤ z ∧ z < 0 then some (n + z).toNat else none

/-! ## Nearest -/

/-- `nearest_mode` (`layers/resize/resize_nearest/ResizeNearest.py` 38-41) -/
inductive NearestMode | roundPreferFloor | roundPreferCeil | floor | ceil
  deriving DecidableEq, Repr

/-- `floor`, `ceil`, `round_prefer_floor`, `round_prefer_ceil`: C (`ResizeNearestDefault.py` 45-55,
`ResizeNearest.py` 64-66) and Python (`ResizeNearest.py` 38-41, 60-70) use the same formulas on
`double`/`float`. -/
def NearestMode.round (nm : NearestMode) (x : K) : Int :=
  match nm with
  | .roundPreferFloor => ⌊(⌈2 * x⌉ : K) / 2⌋
  | .roundPreferCeil => ⌈(⌊2 * x⌋ : K) / 2⌉
  | .floor => ⌊x⌋
  | .ceil => ⌈x⌉

/-- Two coordinate statements in the same block: `half_pixel_symmetric` declares the same local
variables twice, and `tf_crop_and_resize` is not a statement, so the text is not C. -/
def compiles2 (mode : CoordMode) : Bool := mode != .halfPixelSymmetric && mode != .tfCropAndResize

/-- One coordinate statement in the block. -/
def compiles1 (mode : CoordMode) : Bool := mode != .tfCropAndResize

/-- `templates/layers/Resize/template_ResizeNearest.c.tpl`, filled by
`layers/resize/resize_nearest/ResizeNearestDefault.py` 57-91. -/
def nearestCode (mode : CoordMode) (nm : NearestMode) (C size : Nat) (h w : RAxis K) (act : K → K) (src : Buf)
    (road : Nat) : Option (Prog K Unit) :=
  if compiles2 mode then some do
    loop3 C h.outLen w.outLen fun f i j => do
      let x ← liftOpt (coordC mode h i)
      let y ← liftOpt (coordC mode w j)
      let x0 := nm.round x
      let y0 := nm.round y
      let v ← load src (y0 + w.inLen * (x0 + h.inLen * f))
      store .temp (at3 h.outLen w.outLen f i j : Int) (act v)
    copyMap size .temp (.out road) id
  else none

/-- `ResizeNearest.forward_path_layer` (`layers/resize/resize_nearest/ResizeNearest.py` 76-93): the
element of the output at `f, i, j`. -/
def nearestForward (extrapolation : K) (mode : CoordMode) (nm : NearestMode) (h w : RAxis K)
    (v : Nat → Nat → Nat → K) (f i j : Nat) : Option K := do
  let x ← coordPy extrapolation mode h i
  let x0 := nm.round x
  let y ← coordPy extrapolation mode w j
  let y0 := nm.round y
  let a ← pyIndex h.inLen x0
  let b ← pyIndex w.inLen y0
  pure (v f a b)

/-! ## Linear -/

/-- `x<lo ? lo : (x>hi ? hi : x)` -/
def clampC (lo hi x : K) : K := if x < lo then lo else if x > hi then hi else x

/-- `np.clip(x, lo, hi)` -/
def npClip (lo hi x : K) : K := min (max x lo) hi

/-- `templates/layers/Resize/template_ResizeLinear2D.c.tpl`, filled by
`layers/resize/resize_linear/ResizeLinearDefault.py` 42-93. -/
def linear2Code (mode : CoordMode) (C size : Nat) (h w : RAxis K) (act : K → K) (src : Buf) (road : Nat) :
    Option (Prog K Unit) :=
  if compiles2 mode then some do
    loop3 C h.outLen w.outLen fun f i j => do
      let x ← liftOpt (coordC mode h i)
      let y ← liftOpt (coordC mode w j)
      let x := clampC 0 ((h.inLen - 1 : Nat) : K) x
      let y := clampC 0 ((w.inLen - 1 : Nat) : K) y
      let x1 := ⌊x⌋ + 1
      let x0 := ⌊x⌋
      let y0 := ⌊y⌋
      let y1 := ⌊y⌋ + 1
      let f11 ← load src (y0 + w.inLen * (x0 + h.inLen * f))
      let f21 ← (if x1 ≥ h.inLen then pure 0 else load src (y0 + w.inLen * (x1 + h.inLen * f)) : Prog K K)
      let f22 ← (if x1 ≥ h.inLen ∨ y1 ≥ w.inLen then pure 0 else load src (y1 + w.inLen * (x1 + h.inLen * f)) : Prog K K)
      let f12 ← (if y1 ≥ w.inLen then pure 0 else load src (y1 + w.inLen * (x0 + h.inLen * f)) : Prog K K)
      store .temp (at3 h.outLen w.outLen f i j : Int)
        ((f11 * (x1 - x) * (y1 - y) + f21 * (x - x0) * (y1 - y) + f12 * (x1 - x) * (y - y0) +
          f22 * (x - x0) * (y - y0)) / (((x1 - x0) * (y1 - y0) : Int) : K))
      let t ← load .temp (at3 h.outLen w.outLen f i j : Int)
      store .temp (at3 h.outLen w.outLen f i j : Int) (act t)
    copyMap size .temp (.out road) id
  else none

/-- `templates/layers/Resize/template_ResizeLinear1D.c.tpl`, filled by
`layers/resize/resize_linear/ResizeLinearDefault.py` 66-79: `dim` is the axis whose length is not 1
and `pick i j` the loop variable along it. -/
def linear1Code (mode : CoordMode) (C size : Nat) (h w dim : RAxis K) (pick : Nat → Nat → Nat) (act : K → K)
    (src : Buf) (road : Nat) : Option (Prog K Unit) :=
  if compiles1 mode then some do
    let x1 : Int := ((dim.inLen - 1 : Nat) : Int)
    let x0 : Int := 0
    forN C fun f => do
      let f11 ← load src (x0 + dim.inLen * f)
      let f22 ← load src (x1 + dim.inLen * f)
      forN h.outLen fun i => forN w.outLen fun j => do
        let x ← liftOpt (coordC mode dim (pick i j))
        let x := clampC (x0 : K) (x1 : K) x
        store .temp (at3 h.outLen w.outLen f i j : Int) ((f11 * (x1 - x) + f22 * (x - x0)) / ((x1 - x0 : Int) : K))
        let t ← load .temp (at3 h.outLen w.outLen f i j : Int)
        store .temp (at3 h.outLen w.outLen f i j : Int) (act t)
    copyMap size .temp (.out road) id
  else none

/-- `ResizeLinearDefault.generate_inference_code_layer` (66-92): the choice of the template; a `1 × 1`
input leaves `dimension` unbound (`UnboundLocalError`). -/
def linearCode (mode : CoordMode) (C size : Nat) (h w : RAxis K) (act : K → K) (src : Buf) (road : Nat) :
    Option (Prog K Unit) :=
  if h.inLen = 1 ∧ w.inLen > 1 then linear1Code mode C size h w w (fun _ j => j) act src road
  else if h.inLen > 1 ∧ w.inLen = 1 then linear1Code mode C size h w h (fun i _ => i) act src road
  else if h.inLen > 1 ∧ w.inLen > 1 then linear2Code mode C size h w act src road
  else none

/-- `ResizeLinear.forward_path_layer` (`layers/resize/resize_linear/ResizeLinear.py` 45-77). -/
def linearForward (extrapolation : K) (mode : CoordMode) (h w : RAxis K) (v : Nat → Nat → Nat → K) (f i j : Nat) :
    Option K := do
  let x ← coordPy extrapolation mode h i
  let x := npClip 0 ((h.inLen : K) - 1) x
  let y ← coordPy extrapolation mode w j
  let y := npClip 0 ((w.inLen : K) - 1) y
  let x0 := ⌊x⌋
  let x1 := ⌊x⌋ + 1
  let y0 := ⌊y⌋
  let y1 := ⌊y⌋ + 1
  let at' (a b : Int) : Option K := do pure (v f (← pyIndex h.inLen a) (← pyIndex w.inLen b))
  let f11 ← at' x0 y0
  let f21 ← if x1 ≥ h.inLen then pure 0 else at' x1 y0
  let f22 ← if x1 ≥ h.inLen ∨ y1 ≥ w.inLen then pure 0 else at' x1 y1
  let f12 ← if y1 ≥ w.inLen then pure 0 else at' x0 y1
  pure ((f11 * (x1 - x) * (y1 - y) + f21 * (x - x0) * (y1 - y) + f12 * (x1 - x) * (y - y0) +
    f22 * (x - x0) * (y - y0)) / (((x1 - x0) * (y1 - y0) : Int) : K))

/-! ## Cubic -/

/-- the interpolation expression of `template_ResizeCubic1D.c.tpl` and `template_ResizeCubic2D.c.tpl` -/
def cubicC (a s fm1 f0 f1 f2 : K) : K :=
  fm1 * a * s * (1 + s * (s - 2)) + f0 * (s * s * (a * (s - 1) + 2 * s - 3) + 1) +
    f1 * s * (s * (-s * (2 + a) + 2 * a + 3) - a) + f2 * a * s * s * (1 - s)

/-- `z < 0 ? 0 : z >= n ? n - 1 : z` -/
def clampIdx (n : Nat) (z : Int) : Int := if z < 0 then 0 else if z ≥ n then (n : Int) - 1 else z

/-- `templates/layers/Resize/template_ResizeCubic2D.c.tpl`, filled by
`layers/resize/resize_cubic/ResizeCubicDefault.py` 40-91.  The four repeated blocks of the template
(one for each column `y0-1 .. y0+2`) are the four calls of `column`. -/
def cubic2Code (a : K) (mode : CoordMode) (C size : Nat) (h w : RAxis K) (act : K → K) (src : Buf) (road : Nat) :
    Option (Prog K Unit) :=
  if compiles2 mode then some do
    loop3 C h.outLen w.outLen fun f i j => do
      let x ← liftOpt (coordC mode h i)
      let x0 := ⌊x⌋
      let y ← liftOpt (coordC mode w j)
      let y0 := ⌊y⌋
      let column (c : Int) : Prog K K := do
        let col := clampIdx w.inLen c
        let fm1 ← load src (col + w.inLen * (clampIdx h.inLen (x0 - 1) + h.inLen * f))
        let f0 ← load src (col + w.inLen * (clampIdx h.inLen x0 + h.inLen * f))
        let f1 ← load src (col + w.inLen * (clampIdx h.inLen (x0 + 1) + h.inLen * f))
        let f2 ← load src (col + w.inLen * (clampIdx h.inLen (x0 + 2) + h.inLen * f))
        pure (cubicC a (x - x0) fm1 f0 f1 f2)
      let bm1 ← column (y0 - 1)
      let b0 ← column y0
      let b1 ← column (y0 + 1)
      let b2 ← column (y0 + 2)
      store .temp (at3 h.outLen w.outLen f i j : Int) (cubicC a (y - y0) bm1 b0 b1 b2)
      let t ← load .temp (at3 h.outLen w.outLen f i j : Int)
      store .temp (at3 h.outLen w.outLen f i j : Int) (act t)
    copyMap size .temp (.out road) id
  else none

/-- `templates/layers/Resize/template_ResizeCubic1D.c.tpl` -/
def cubic1Code (a : K) (mode : CoordMode) (C size : Nat) (h w dim : RAxis K) (pick : Nat → Nat → Nat) (act : K → K)
    (src : Buf) (road : Nat) : Option (Prog K Unit) :=
  if compiles1 mode then some do
    loop3 C h.outLen w.outLen fun f i j => do
      let x ← liftOpt (coordC mode dim (pick i j))
      let x0 := ⌊x⌋
      let fm1 ← load src (clampIdx dim.inLen (x0 - 1) + dim.inLen * f)
      let f0 ← load src (clampIdx dim.inLen x0 + dim.inLen * f)
      let f1 ← load src (clampIdx dim.inLen (x0 + 1) + dim.inLen * f)
      let f2 ← load src (clampIdx dim.inLen (x0 + 2) + dim.inLen * f)
      store .temp (at3 h.outLen w.outLen f i j : Int) (cubicC a (x - x0) fm1 f0 f1 f2)
      let t ← load .temp (at3 h.outLen w.outLen f i j : Int)
      store .temp (at3 h.outLen w.outLen f i j : Int) (act t)
    copyMap size .temp (.out road) id
  else none

/-- `ResizeCubicDefault.generate_inference_code_layer` (62-86): the choice of the template. -/
def cubicCode (a : K) (mode : CoordMode) (C size : Nat) (h w : RAxis K) (act : K → K) (src : Buf) (road : Nat) :
    Option (Prog K Unit) :=
  if h.inLen = 1 ∧ w.inLen > 1 then cubic1Code a mode C size h w w (fun _ j => j) act src road
  else if h.inLen > 1 ∧ w.inLen = 1 then cubic1Code a mode C size h w h (fun i _ => i) act src road
  else if h.inLen > 1 ∧ w.inLen > 1 then cubic2Code a mode C size h w act src road
  else none

/-- `coeff1 .. coeff4` (`layers/resize/resize_cubic/ResizeCubic.py` 64-71, 91-97) -/
def cubicCoeffs (a s : K) : K × K × K × K :=
  (((a * (s + 1) - 5 * a) * (s + 1) + 8 * a) * (s + 1) - 4 * a,
   ((a + 2) * s - (a + 3)) * s * s + 1,
   ((a + 2) * (1 - s) - (a + 3)) * (1 - s) * (1 - s) + 1,
   ((a * (2 - s) - 5 * a) * (2 - s) + 8 * a) * (2 - s) - 4 * a)

/-- `max(0, min(n - 1, z))` -/
def clampPy (n : Nat) (z : Int) : Int := max 0 (min ((n : Int) - 1) z)

/-- `ResizeCubic.cubic_interpolation_1_d` (`layers/resize/resize_cubic/ResizeCubic.py` 48-73); the
indices are clamped, so indexing cannot fail on a non-empty axis. -/
def cubicInterp (a : K) (hLen wLen : Nat) (v : Nat → Nat → Nat → K) (f : Nat) (x y : Int) (s : K) : K :=
  let col := (clampPy wLen y).toNat
  let e (z : Int) := v f (clampPy hLen z).toNat col
  let c := cubicCoeffs a s
  e (x - 1) * c.1 + e x * c.2.1 + e (x + 1) * c.2.2.1 + e (x + 2) * c.2.2.2

/-- `ResizeCubic.forward_path_layer` (`layers/resize/resize_cubic/ResizeCubic.py` 75-104). -/
def cubicForward (a extrapolation : K) (mode : CoordMode) (h w : RAxis K) (v : Nat → Nat → Nat → K) (f i j : Nat) :
    Option K := do
  let x ← coordPy extrapolation mode h i
  let x0 := ⌊x⌋
  let y ← coordPy extrapolation mode w j
  let y0 := ⌊y⌋
  let c := cubicCoeffs a (y - y0)
  let p (col : Int) := cubicInterp a h.inLen w.inLen v f x0 col (x - x0)
  pure (c.1 * p (y0 - 1) + c.2.1 * p y0 + c.2.2.1 * p (y0 + 1) + c.2.2.2 * p (y0 + 2))

end Verif.Layers

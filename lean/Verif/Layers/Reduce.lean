import Verif.CMem.Cell
import Verif.Layers.Pooling
import Mathlib.Algebra.Field.Defs

/-!
# Reduce layers: generated code and Python reference
-/

namespace Verif
namespace Np
variable {α : Type}

/-- `np.min` of the elements `l`; raises on an empty array -/
def amin [Min α] : List α → Option α
  | [] => none
  | v :: vs => some (vs.foldl min v)

end Np

namespace Layers
open Prog
variable {α : Type}

/-- `reduce_func` -/
inductive RFunc | sum | prod | mean | max | min
  deriving DecidableEq, Repr

/-- attributes of a reduce layer (`layers/reduce/Reduce.py` 58-64) -/
structure RedP where
  (C H W : Nat)
  axes : List Nat
  noop : Bool

/-- `self.output_channels` (`Reduce.py` 66-69) -/
def RedP.oC (c : RedP) : Nat := if 1 ∈ c.axes ∨ (c.axes = [] ∧ c.noop = false) then 1 else c.C
/-- `self.output_height` (`Reduce.py` 71-74) -/
def RedP.oH (c : RedP) : Nat := if 2 ∈ c.axes ∨ (c.axes = [] ∧ c.noop = false) then 1 else c.H
/-- `self.output_width` (`Reduce.py` 76-79) -/
def RedP.oW (c : RedP) : Nat := if 3 ∈ c.axes ∨ (c.axes = [] ∧ c.noop = false) then 1 else c.W

/-- `{{starting_value}}` (`Reduce.py` 170-175 for sum, mean and product; for max and min the element at the index
given in each case) -/
def redStart [Zero α] [One α] (fn : RFunc) (src : Buf) (a : Nat) : Prog α α :=
  match fn with
  | .sum | .mean => pure 0
  | .prod => pure 1
  | .max | .min => load src (a : Int)

/-- one iteration of the loop on the local variable `reduced` (`template_Reduce.c.tpl` 5-19) -/
def redLocal [Add α] [Mul α] [LT α] [DecidableRel (α := α) (· < ·)] (fn : RFunc) (src : Buf) (a : Nat) (acc : α) :
    Prog α α :=
  match fn with
  | .max => do
    let x ← load src (a : Int)
    (if x > acc then load src (a : Int) else pure acc : Prog α α)
  | .min => do
    let x ← load src (a : Int)
    (if x < acc then load src (a : Int) else pure acc : Prog α α)
  | .sum | .mean => do
    let x ← load src (a : Int)
    pure (acc + x)
  | .prod => do
    let x ← load src (a : Int)
    pure (acc * x)

/-- one iteration of the loops on the cell `tensor_temp[p]` (`template_Reduce.c.tpl` 36-53, 72-89); `cmp` is the
array read in the comparison -/
def redCell [Add α] [Mul α] [LT α] [DecidableRel (α := α) (· < ·)] (fn : RFunc) (cmp src : Buf) (a p : Nat) :
    Prog α Unit :=
  match fn with
  | .max => do
    let x ← load cmp (a : Int)
    let t ← load .temp (p : Int)
    (if x > t then do
      let y ← load src (a : Int)
      store .temp (p : Int) y
    else pure () : Prog α Unit)
  | .min => do
    let x ← load cmp (a : Int)
    let t ← load .temp (p : Int)
    (if x < t then do
      let y ← load src (a : Int)
      store .temp (p : Int) y
    else pure () : Prog α Unit)
  | .sum | .mean => do
    let t ← load .temp (p : Int)
    let x ← load src (a : Int)
    store .temp (p : Int) (t + x)
  | .prod => do
    let t ← load .temp (p : Int)
    let x ← load src (a : Int)
    store .temp (p : Int) (t * x)

/-- the `{{#Mean}}` statement on a cell -/
def redMean [Div α] [NatCast α] (fn : RFunc) (n p : Nat) : Prog α Unit :=
  match fn with
  | .mean => do
    let t ← load .temp (p : Int)
    store .temp (p : Int) (t / (n : α))
  | _ => pure ()

section
variable [Zero α] [One α] [Add α] [Mul α] [Div α] [NatCast α] [LT α] [DecidableRel (α := α) (· < ·)]

/-- `{{#all}}` (`template_Reduce.c.tpl` 2-27); `size` is `input_channels*input_height*input_width`
(`Reduce.py` 185, 252) -/
def redAll (fn : RFunc) (size : Nat) (act : α → α) (src : Buf) (road : Nat) : Prog α Unit := do
  let s ← redStart fn src 0
  let r ← foldN size s fun k acc => redLocal fn src k acc
  let r ← (match fn with
    | .mean => pure (r / (size : α))
    | _ => pure r : Prog α α)
  store (.out road) ((0 : Nat) : Int) (act r)

/-- `{{#one}}` (`template_Reduce.c.tpl` 64-98) -/
def redOne (fn : RFunc) (d1 d2 red : Nat) (start pos2 : Nat → Nat → Nat → Nat) (size : Nat) (act : α → α)
    (src : Buf) (road : Nat) : Prog α Unit := do
  forN d1 fun f => forN d2 fun i => do
    let s ← redStart fn src (start f i 0)
    store .temp ((i + d2 * f : Nat) : Int) s
    forN red fun j => redCell fn src src (pos2 f i j) (i + d2 * f)
    redMean fn red (i + d2 * f)
  copyMap size .temp (.out road) act

/-- `{{#two}}` (`template_Reduce.c.tpl` 28-63); the comparison reads `output_{{road}}` -/
def redTwo (fn : RFunc) (d red1 red2 : Nat) (start : Nat → Nat) (pos : Nat → Nat → Nat → Nat) (size : Nat)
    (act : α → α) (src : Buf) (road : Nat) : Prog α Unit := do
  forN d fun f => do
    let s ← redStart fn src (start f)
    store .temp (f : Int) s
    forN red1 fun i => forN red2 fun j => redCell fn (.out road) src (pos f i j) f
    redMean fn (red1 * red2) f
  copyMap size .temp (.out road) act

/-- `Reduce.generate_inference_code_layer` (`Reduce.py` 135-259) with `template_Reduce.c.tpl`.  The
`{{#none}}` branch reads the layer's own buffer. -/
def reduceCode (fn : RFunc) (c : RedP) (size : Nat) (act : α → α) (src : Buf) (road : Nat) : Prog α Unit :=
  match decide (1 ∈ c.axes), decide (2 ∈ c.axes), decide (3 ∈ c.axes) with
  | false, false, false =>
    if c.noop then copyMap size (.out road) (.out road) act
    else redAll fn (c.C * c.H * c.W) act src road
  | true, false, false => redOne fn c.oH c.oW c.C (fun f i _ => i + c.W * f) (fun f i j => i + c.W * (f + c.H * j))
      size act src road
  | false, true, false => redOne fn c.oC c.oW c.H (fun f i _ => i + c.W * c.H * f)
      (fun f i j => i + c.W * (j + c.H * f)) size act src road
  | false, false, true => redOne fn c.oC c.oH c.W (fun f i _ => c.W * (i + c.H * f))
      (fun f i j => j + c.W * (i + c.H * f)) size act src road
  | true, true, false => redTwo fn c.oW c.C c.H (fun f => c.W * f) (fun f i j => f + c.W * (j + c.H * i))
      size act src road
  | true, false, true => redTwo fn c.oH c.C c.W (fun f => c.H * f) (fun f i j => j + c.W * (f + c.H * i))
      size act src road
  | false, true, true => redTwo fn c.oC c.H c.W (fun f => c.C * f) (fun f i j => j + c.W * (i + c.H * f))
      size act src road
  | true, true, true => redAll fn (c.C * c.H * c.W) act src road

end

/-! ## Python reference -/

/-- the elements along one axis: all of them when it is reduced -/
def redIdx (r : Bool) (n k : Nat) : List Nat := if r then List.range n else [k]

/-- elements reduced by numpy into output position `(f, i, j)`, in C order -/
def redList (rc rh rw : Bool) (C H W : Nat) (x : Nat → Nat → Nat → α) (f i j : Nat) : List α :=
  (redIdx rc C f).flatMap fun a => (redIdx rh H i).flatMap fun b => (redIdx rw W j).map fun d => x a b d

/-- `np.add.reduce`, `np.multiply.reduce`, `np.mean`, `np.max`, `np.min` of a set of elements -/
def redFn [Zero α] [One α] [Add α] [Mul α] [Div α] [NatCast α] [Max α] [Min α] (fn : RFunc) (l : List α) : Option α :=
  match fn with
  | .sum => some l.sum
  | .prod => some l.prod
  | .mean => Np.mean l
  | .max => Np.amax l
  | .min => Np.amin l

/-- element of the result of `forward_path_layer` (`ReduceSum.py` 119-129 and the four siblings); the
activation function is not applied.  Axis 0 has one element. -/
def reduceForward [Zero α] [One α] [Add α] [Mul α] [Div α] [NatCast α] [Max α] [Min α] (fn : RFunc) (c : RedP)
    (x : Nat → Nat → Nat → α) (f i j : Nat) : Option α :=
  if c.axes = [] then
    if c.noop then some (x f i j) else redFn fn (redList true true true c.C c.H c.W x f i j)
  else redFn fn (redList (1 ∈ c.axes) (2 ∈ c.axes) (3 ∈ c.axes) c.C c.H c.W x f i j)

end Layers
end Verif

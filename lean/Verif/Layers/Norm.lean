import Verif.CMem.Fresh
import Verif.Layers.Numpy

/-!
# Softmax and BatchNormalization: generated code and Python reference
-/

namespace Verif.Layers
open Prog
variable {α : Type}

/-! ## Softmax -/

/-- the axes 1, 2, 3 of a tensor `(1, C, H, W)` (`layers/softmax/Softmax.py` 88-90) -/
inductive Axis | c | h | w
  deriving DecidableEq, Repr

/-- `layers/softmax/Softmax.py` 49-55: `size in output_shape`, the shape being `[1, C, H, W]`. -/
def softmaxOneDim (size C H W : Nat) : Bool := decide (size ∈ [1, C, H, W])

/-- the branch `1D` of `templates/layers/template_Softmax.c.tpl` -/
def softmaxCode1 [Zero α] [Add α] [Div α] (exp : α → α) (size : Nat) (act : α → α) (src : Buf) (road : Nat) :
    Prog α Unit := do
  let sum ← foldN size 0 fun i sum => do
    let x ← load src (i : Int)
    pure (sum + exp x)
  forN size fun j => do
    let x ← load src (j : Int)
    store (.out road) (j : Int) (exp x / sum)
    let y ← load (.out road) (j : Int)
    store (.out road) (j : Int) (act y)

/-- the branch `^1D` of `templates/layers/template_Softmax.c.tpl`, filled by
`layers/softmax/SoftmaxDefault.py` 56-81: `sum_dimension_1`, `sum_dimension_2`, `reduced_dimension`,
`reduced_position_1`, `reduced_position_2`, `softmax_indice` for each axis.  The template has no
activation here. -/
def softmaxCode3 [Zero α] [Add α] [Div α] (exp : α → α) (C H W : Nat) (axis : Axis) (src : Buf) (road : Nat) :
    Prog α Unit :=
  let d1 := match axis with | .c => H | .h => C | .w => C
  let d2 := match axis with | .c => W | .h => W | .w => H
  let red := match axis with | .c => C | .h => H | .w => W
  let pos1 := fun f i => match axis with | .c => i + W * f | .h => i + W * f | .w => i + H * f
  let pos2 := fun f i j => match axis with
    | .c => i + W * (f + H * j)
    | .h => i + W * (j + H * f)
    | .w => j + W * (i + H * f)
  let indice := fun f i j => match axis with | .c => j + W * i | .h => j + W * f | .w => i + H * f
  do
  forN d1 fun f => forN d2 fun i => do
    store .temp (pos1 f i : Int) 0
    forN red fun j => do
      let t ← load .temp (pos1 f i : Int)
      let x ← load src (pos2 f i j : Int)
      store .temp (pos1 f i : Int) (t + exp x)
  loop3 C H W fun f i j => do
    let x ← load src (at3 H W f i j : Int)
    let s ← load .temp (indice f i j : Int)
    store (.out road) (at3 H W f i j : Int) (exp x / s)

/-- `SoftmaxDefault.generate_inference_code_layer` (`layers/softmax/SoftmaxDefault.py` 36-90).  With no
axis on a tensor that is not one-dimensional the loop bounds are missing from the text, which is not C
(`none`). -/
def softmaxCode [Zero α] [Add α] [Div α] (exp : α → α) (size C H W : Nat) (axis : Option Axis) (act : α → α)
    (src : Buf) (road : Nat) : Option (Prog α Unit) :=
  if softmaxOneDim size C H W then some (softmaxCode1 exp size act src road)
  else axis.map fun a => softmaxCode3 exp C H W a src road

/-- `np.sum(e, keepdims=True, axis=axis)` of a `C × H × W` array, at the position `f, i, j` of the
array it is broadcast to. -/
def sumAxis [AddCommMonoid α] (C H W : Nat) (e : Nat → Nat → Nat → α) (axis : Axis) (f i j : Nat) : α :=
  match axis with
  | .c => ∑ k ∈ Finset.range C, e k i j
  | .h => ∑ k ∈ Finset.range H, e f k j
  | .w => ∑ k ∈ Finset.range W, e f i k

/-- `Softmax.forward_path_layer` (`layers/softmax/Softmax.py` 102-115), tensor that is not
one-dimensional. -/
def softmaxForward3 [AddCommMonoid α] [Div α] (exp : α → α) (C H W : Nat) (axis : Axis)
    (x : Nat → Nat → Nat → α) : Nat → Nat → Nat → α :=
  fun f i j => exp (x f i j) / sumAxis C H W (fun f i j => exp (x f i j)) axis f i j

/-- `Softmax.forward_path_layer` (`layers/softmax/Softmax.py` 102-115) with `axis=None` on a tensor that is not
one-dimensional. -/
def softmaxForwardAll [AddCommMonoid α] [Div α] (exp : α → α) (C H W : Nat) (x : Nat → Nat → Nat → α) : Nat → Nat → Nat → α :=
  fun f i j => exp (x f i j) / ∑ c ∈ Finset.range C, ∑ a ∈ Finset.range H, ∑ b ∈ Finset.range W, exp (x c a b)

/-- `Softmax.forward_path_layer` (`layers/softmax/Softmax.py` 102-115), one-dimensional case: the input
is flattened and the axis is replaced by `-1`. -/
def softmaxForward1 [AddCommMonoid α] [Div α] (exp : α → α) (n : Nat) (x : Nat → α) : Nat → α :=
  fun i => exp (x i) / ∑ k ∈ Finset.range n, exp (x k)

/-! ## BatchNormalization -/

/-- `templates/layers/template_BatchNormalization.c.tpl`, filled by
`layers/batch_normalization/BatchNormalizationDefault.py` 38-66. -/
def batchNormCode [Add α] [Sub α] [Mul α] [Div α] (sqrt : α → α) (C channelSize idx : Nat) (eps : α) (act : α → α)
    (src : Buf) (road : Nat) : Prog α Unit :=
  forN C fun f => forN channelSize fun k => do
    let scale ← load (.par .scale idx) (f : Int)
    let x ← load src ((k + channelSize * f : Nat) : Int)
    let mean ← load (.par .mean idx) (f : Int)
    let var ← load (.par .var idx) (f : Int)
    let bias ← load (.par .biases idx) (f : Int)
    store (.out road) ((k + channelSize * f : Nat) : Int) (scale * (x - mean) / sqrt (var + eps) + bias)
    let y ← load (.out road) ((k + channelSize * f : Nat) : Int)
    store (.out road) ((k + channelSize * f : Nat) : Int) (act y)

/-- `BatchNormalization.forward_path_layer` (`layers/batch_normalization/BatchNormalization.py`
131-145). -/
def batchNormForward [Add α] [Sub α] [Mul α] [Div α] (sqrt : α → α) (eps : α) (act : α → α)
    (scale mean var bias : Nat → α) (x : Nat → Nat → Nat → α) : Nat → Nat → Nat → α :=
  fun f i j => act ((x f i j - mean f) / sqrt (var f + eps) * scale f + bias f)

end Verif.Layers

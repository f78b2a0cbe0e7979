import Verif.Keras.Proto
import Verif.Onnx.Spec

/-!
# What a Keras model computes

The layers according to the documentation of Keras, written without reference to acetone, on exact real numbers, for one element of a batch:
a tensor has the dimensions of the Keras tensor without the batch axis.  Images are channels-last, `(H, W, C)`.  A value is `none` where a
layer is undefined or outside the fragment written down here.  `Onnx.Spec.Window` (sliding windows) and `Onnx.bcast` (numpy broadcasting) are
the vocabulary shared with the ONNX specification.
-/

namespace Verif.Keras.Spec
open Net Keras
open Onnx (prod indices ravel mk bcast)
open Onnx.Spec (Window sameTotal mkM unary axis? concat2)
open scoped Classical

/-- softmax along the last axis -/
noncomputable def softmax (x : Nd ℝ) : Option (Nd ℝ) :=
  match x.dims with
  | [] => none
  | _ :: _ =>
    let a := x.dims.length - 1
    some (mk x.dims fun ix => Real.exp (x.get ix) / ∑ k ∈ Finset.range (x.dims.getD a 0), Real.exp (x.get (ix.set a k)))

/-- `keras.activations`: `leaky_relu` has the slope 0.2, `swish` is `x * sigmoid(x)` -/
noncomputable def act (a : Activation) (x : Nd ℝ) : Option (Nd ℝ) :=
  match a with
  | .linear => some x
  | .relu => some (unary (fun v => max v 0) x)
  | .sigmoid => some (unary (fun v => 1 / (1 + Real.exp (-v))) x)
  | .tanh => some (unary Real.tanh x)
  | .leakyRelu => some (unary (fun v => if v < 0 then 0.2 * v else v) x)
  | .swish => some (unary (fun v => v * (1 / (1 + Real.exp (-v)))) x)
  | .softmax => softmax x
  | .other => none

/-- `get_weights()` of Dense and Conv2D: a kernel and, with `use_bias`, a bias -/
def kernelBias (ws : List (Nd ℝ)) : Option (Nd ℝ × Option (Nd ℝ)) :=
  match ws with
  | [k] => some (k, none)
  | [k, b] => some (k, some b)
  | _ => none

/-- the bias of unit `o`; 0 without bias -/
noncomputable def biasAt (b : Option (Nd ℝ)) (o : Nat) : ℝ := match b with | some v => v.get [o] | none => 0

/-- Dense: a product with the kernel along the last axis -/
noncomputable def dense (ws : List (Nd ℝ)) (a : Activation) (x : Nd ℝ) : Option (Nd ℝ) := do
  let (k, b) ← kernelBias ws
  match k.dims with
  | [i, o] =>
    if x.dims.getLast? = some i ∧ ∀ v ∈ b, v.dims = [o] then
      act a (mk (x.dims.dropLast ++ [o]) fun ix =>
        (∑ p ∈ Finset.range i, x.get (ix.dropLast ++ [p]) * k.get [p, ix.getLastD 0]) + biasAt b (ix.getLastD 0))
    else none
  | _ => none

/-- the window of an axis: `valid` has no padding; `same` pads so that there are `ceil(len / stride)` positions, the larger half after -/
def window (padding : Padding) (len kernel stride dil : Nat) : Window :=
  match padding with
  | .valid => ⟨len, kernel, stride, dil, 0, 0⟩
  | .same => let t := sameTotal len kernel stride dil; ⟨len, kernel, stride, dil, t / 2, t - t / 2⟩

/-- Conv2D: `y[i, j, f] = bias[f] + sum of x[.., .., c] * kernel[a, b, c, f]` over the window, without groups -/
noncomputable def conv2D (ws : List (Nd ℝ)) (kernel strides dilation : Nat × Nat) (padding : Padding) (a : Activation) (x : Nd ℝ) :
    Option (Nd ℝ) := do
  let (k, b) ← kernelBias ws
  match x.dims, k.dims with
  | [H, W, C], [kh, kw, C', F] =>
    let wh := window padding H kh strides.1 dilation.1
    let ww := window padding W kw strides.2 dilation.2
    if (kh, kw) = kernel ∧ C = C' ∧ wh.Fits ∧ ww.Fits ∧ ∀ v ∈ b, v.dims = [F] then
      act a (mk [wh.out, ww.out, F] fun ix =>
        (∑ c ∈ Finset.range C, ∑ p ∈ Finset.range kh, ∑ q ∈ Finset.range kw,
          match wh.pos (ix.getD 0 0) p, ww.pos (ix.getD 1 0) q with
          | some r, some s => x.get [r, s, c] * k.get [p, q, c, ix.getD 2 0]
          | _, _ => 0) + biasAt b (ix.getD 2 0))
    else none
  | _, _ => none

/-- the elements of channel `c` under a window -/
noncomputable def under (x : Nd ℝ) (wh ww : Window) (i j c : Nat) : List ℝ :=
  (List.range wh.kernel).flatMap fun p => (List.range ww.kernel).filterMap fun q =>
    match wh.pos i p, ww.pos j q with
    | some r, some s => some (x.get [r, s, c])
    | _, _ => none

/-- MaxPooling2D, AveragePooling2D: the maximum or the mean of the elements under the window; padding does not count -/
noncomputable def pool (f : List ℝ → Option ℝ) (size strides : Nat × Nat) (padding : Padding) (x : Nd ℝ) : Option (Nd ℝ) :=
  match x.dims with
  | [H, W, C] =>
    let wh := window padding H size.1 strides.1 1
    let ww := window padding W size.2 strides.2 1
    if wh.Fits ∧ ww.Fits then mkM [wh.out, ww.out, C] fun ix => f (under x wh ww (ix.getD 0 0) (ix.getD 1 0) (ix.getD 2 0)) else none
  | _ => none

noncomputable def mean (l : List ℝ) : Option ℝ := if l.length = 0 then none else some (l.sum / (l.length : ℝ))

/-- merge layers on tensors of equal rank, from left to right -/
noncomputable def merge (op : ℝ → ℝ → ℝ) (xs : List (Nd ℝ)) : Option (Nd ℝ) :=
  match xs with
  | x :: y :: zs => if ∀ z ∈ y :: zs, z.dims.length = x.dims.length then (y :: zs).foldlM (bcast op) x else none
  | _ => none

/-- Concatenate: the axis counts the batch axis, negative ones count from the end -/
noncomputable def concatenate (axis : Int) (xs : List (Nd ℝ)) : Option (Nd ℝ) := do
  let x ← xs.head?
  let a ← axis? (x.dims.length + 1) axis
  if a = 0 then none else xs.tail.foldlM (concat2 (a - 1)) x

/-- rows before and after, columns before and after -/
def padSides : ZeroPad → (Nat × Nat) × (Nat × Nat)
  | .one p => ((p, p), (p, p))
  | .two h w => ((h, h), (w, w))
  | .four t b l r => ((t, b), (l, r))

/-- ZeroPadding2D -/
noncomputable def zeroPadding (p : ZeroPad) (x : Nd ℝ) : Option (Nd ℝ) :=
  match x.dims with
  | [H, W, C] =>
    let s := padSides p
    some (mk [H + s.1.1 + s.1.2, W + s.2.1 + s.2.2, C] fun ix =>
      let i := ix.getD 0 0
      let j := ix.getD 1 0
      if s.1.1 ≤ i ∧ i < s.1.1 + H ∧ s.2.1 ≤ j ∧ j < s.2.1 + W then x.get [i - s.1.1, j - s.2.1, ix.getD 2 0] else 0)
  | _ => none

/-- `get_weights()` of BatchNormalization: gamma if `scale`, beta if `center`, moving mean, moving variance; absent ones are `none` -/
def bnWeights (scale center : Bool) (ws : List (Nd ℝ)) : Option (Option (Nd ℝ) × Option (Nd ℝ) × Nd ℝ × Nd ℝ) :=
  match scale, center, ws with
  | true, true, [g, b, m, v] => some (some g, some b, m, v)
  | true, false, [g, m, v] => some (some g, none, m, v)
  | false, true, [b, m, v] => some (none, some b, m, v)
  | false, false, [m, v] => some (none, none, m, v)
  | _, _, _ => none

/-- BatchNormalization (inference) along an axis, counted with the batch axis: `gamma * (x - mean) / sqrt(var + epsilon) + beta` -/
noncomputable def batchNorm (axis : Int) (eps : ℝ) (scale center : Bool) (ws : List (Nd ℝ)) (x : Nd ℝ) : Option (Nd ℝ) := do
  let (g, b, m, v) ← bnWeights scale center ws
  let a ← axis? (x.dims.length + 1) axis
  let n := x.dims.getD (a - 1) 0
  if a ≠ 0 ∧ (∀ t ∈ g, t.dims = [n]) ∧ (∀ t ∈ b, t.dims = [n]) ∧ m.dims = [n] ∧ v.dims = [n] then
    some (mk x.dims fun ix =>
      let c := ix.getD (a - 1) 0
      (match g with | some t => t.get [c] | none => 1) * (x.get ix - m.get [c]) / Real.sqrt (v.get [c] + eps) + biasAt b c)
  else none

def one (xs : List (Nd ℝ)) (f : Nd ℝ → Option (Nd ℝ)) : Option (Nd ℝ) :=
  match xs with
  | [x] => f x
  | _ => none

/-- the value of a layer for the values of its inputs -/
noncomputable def layer (k : Kind) (xs : List (Nd ℝ)) : Option (Nd ℝ) :=
  match k with
  | .dense ws a => one xs (dense ws a)
  | .conv2D ws _ kernel strides dilation padding groups a => if groups = 1 then one xs (conv2D ws kernel strides dilation padding a) else none
  | .maxPooling2D size strides padding => one xs (pool List.max? size strides padding)
  | .averagePooling2D size strides padding => one xs (pool mean size strides padding)
  | .flatten => one xs fun x => some ⟨[prod x.dims], x.data⟩
  | .add => merge (· + ·) xs
  | .multiply => merge (· * ·) xs
  | .subtract => if xs.length = 2 then merge (· - ·) xs else none
  | .maximum => merge max xs
  | .minimum => merge min xs
  | .average => (merge (· + ·) xs).map (unary fun v => v / (xs.length : ℝ))
  | .concatenate axis => concatenate axis xs
  | .zeroPadding2D p => one xs (zeroPadding p)
  | .batchNormalization axis eps scale center ws => one xs (batchNorm axis eps scale center ws)
  | .reshape target => one xs fun x => if prod target = prod x.dims then some ⟨target, x.data⟩ else none
  | .dropout => one xs some
  | .inputLayer | .other => none

/-- the values of the inputs of a layer: for a Sequential model that of the layer before it (the input of the model if there is none),
otherwise those of the layers it names -/
def args (m : Model) (x : Nd ℝ) (vs : List (Nd ℝ)) (l : Layer) : Option (List (Nd ℝ)) :=
  if m.sequential then some [vs.getLast?.getD x]
  else l.inputs.mapM fun s => (m.layers.findIdx? fun k => k.name = s).bind fun j => vs[j]?

/-- the value of a layer is appended to those of the layers before it; the layers of a model are listed in an order of evaluation -/
noncomputable def step (m : Model) (x : Nd ℝ) (vs : List (Nd ℝ)) (l : Layer) : Option (List (Nd ℝ)) := do
  let v ← (if l.kind.isInput then some x else do layer l.kind (← args m x vs l) : Option (Nd ℝ))
  some (vs ++ [v])

/-- the values of all the layers of a model on the input `x` -/
noncomputable def eval (m : Model) (x : Nd ℝ) : Option (List (Nd ℝ)) := m.layers.foldlM (step m x) []

/-- the output of the model -/
noncomputable def output (m : Model) (x : Nd ℝ) : Option (Nd ℝ) := do
  let vs ← eval m x
  vs[← m.layers.findIdx? fun k => k.name = m.output]?

end Verif.Keras.Spec

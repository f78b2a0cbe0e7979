import Verif.Torch.Proto
import Verif.Onnx.Spec

/-!
# What an exported PyTorch program computes

The operators (`torch.ops.aten`) according to the documentation of PyTorch, written without reference to acetone, on exact real numbers.  A tensor
has the dimensions of the PyTorch tensor, with its batch axis.  A value is `none` where a call is undefined or outside the fragment written down
here.  `Onnx.Spec.Window` (sliding windows) and `Onnx.bcast` (broadcasting) are the vocabulary shared with the ONNX specification.
-/

namespace Verif.Torch.Spec
open Net Torch
open Onnx (prod indices mk bcast)
open Onnx.Spec (Window mkM unary axis? concat2)
open scoped Classical

/-- the value of an argument -/
inductive Val
  | t (x : Nd ℝ)
  | ts (xs : List (Nd ℝ))
  | int (k : Int)
  | ints (ks : List Int)
  | num (v : ℝ)
  | bool (b : Bool)
  | absent

/-- a tensor argument -/
def Val.tensor? : Val → Option (Nd ℝ)
  | .t x => some x
  | _ => none

/-- an optional tensor argument -/
def Val.opt? : Val → Option (Option (Nd ℝ))
  | .t x => some (some x)
  | .absent => some none
  | _ => none

/-- a number -/
noncomputable def Val.number? : Val → Option ℝ
  | .int k => some k
  | .num v => some v
  | _ => none

/-- two naturals -/
def Val.pair? : Val → Option (Nat × Nat)
  | .ints [a, b] => if 0 ≤ a ∧ 0 ≤ b then some (a.toNat, b.toNat) else none
  | _ => none

def Val.int? : Val → Option Int
  | .int k => some k
  | _ => none

def Val.bool? : Val → Option Bool
  | .bool b => some b
  | _ => none

/-- the argument at a position, or its default value -/
def arg (vs : List Val) (k : Nat) (default : Val) : Val := vs.getD k default

/-- element of an optional bias -/
noncomputable def biasAt (b : Option (Nd ℝ)) (k : Nat) : ℝ :=
  match b with
  | some v => v.get [k]
  | none => 0

/-- `linear(x, w, b)`: `y[.., o] = sum of x[.., i] * w[o, i] + b[o]` -/
noncomputable def linear (x w : Nd ℝ) (b : Option (Nd ℝ)) : Option (Nd ℝ) :=
  match w.dims with
  | [o, i] =>
    if x.dims.getLast? = some i ∧ ∀ v ∈ b, v.dims = [o] then
      some (mk (x.dims.dropLast ++ [o]) fun ix => (∑ p ∈ Finset.range i, x.get (ix.dropLast ++ [p]) * w.get [ix.getLastD 0, p]) +
        biasAt b (ix.getLastD 0))
    else none
  | _ => none

/-- element of a convolution without groups on one image -/
noncomputable def convAt (x : Nd ℝ) (wh ww : Window) (C : Nat) (w : Nat → Nat → Nat → Nat → ℝ) (b : Nat → ℝ) (n f i j : Nat) : ℝ :=
  (∑ c ∈ Finset.range C, ∑ p ∈ Finset.range wh.kernel, ∑ q ∈ Finset.range ww.kernel,
    match wh.pos i p, ww.pos j q with
    | some r, some s => x.get [n, c, r, s] * w f c p q
    | _, _ => 0) + b f

/-- `conv2d(x, w, b, stride, padding, dilation)` for `groups = 1`: a cross-correlation, the padding is symmetric -/
noncomputable def conv2d (x w : Nd ℝ) (b : Option (Nd ℝ)) (stride padding dilation : Nat × Nat) : Option (Nd ℝ) :=
  match x.dims, w.dims with
  | [N, C, H, W], [F, C', kh, kw] =>
    let wh : Window := ⟨H, kh, stride.1, dilation.1, padding.1, padding.1⟩
    let ww : Window := ⟨W, kw, stride.2, dilation.2, padding.2, padding.2⟩
    if C = C' ∧ wh.Fits ∧ ww.Fits ∧ ∀ v ∈ b, v.dims = [F] then
      some (mk [N, F, wh.out, ww.out] fun ix =>
        convAt x wh ww C (fun f c p q => w.get [f, c, p, q]) (biasAt b)
          (ix.getD 0 0) (ix.getD 1 0) (ix.getD 2 0) (ix.getD 3 0))
    else none
  | _, _ => none

/-- `batch_norm` in evaluation mode: `(x - mean) / sqrt(var + eps) * weight + bias` for each channel, axis 1 -/
noncomputable def batchNorm (x w b rm rv : Nd ℝ) (eps : ℝ) : Option (Nd ℝ) :=
  match x.dims with
  | _ :: C :: _ =>
    if w.dims = [C] ∧ b.dims = [C] ∧ rm.dims = [C] ∧ rv.dims = [C] then
      some (mk x.dims fun ix => let c := ix.getD 1 0; (x.get ix - rm.get [c]) / Real.sqrt (rv.get [c] + eps) * w.get [c] + b.get [c])
    else none
  | _ => none

/-- `cat`: along an axis, negative ones count from the end -/
noncomputable def cat (axis : Int) (xs : List (Nd ℝ)) : Option (Nd ℝ) := do
  let x ← xs.head?
  let a ← axis? x.dims.length axis
  xs.tail.foldlM (concat2 a) x

/-- `flatten`: the axes from `first` to `last` become one -/
def flatten (first last : Int) (x : Nd ℝ) : Option (Nd ℝ) := do
  let a ← axis? x.dims.length first
  let b ← axis? x.dims.length last
  if a ≤ b then some ⟨x.dims.take a ++ [prod ((x.dims.drop a).take (b + 1 - a))] ++ x.dims.drop (b + 1), x.data⟩ else none

/-- `max_pool2d`: the maximum under a window, the padding counts as minus infinity -/
noncomputable def maxPool (x : Nd ℝ) (kernel stride padding dilation : Nat × Nat) : Option (Nd ℝ) :=
  match x.dims with
  | [N, C, H, W] =>
    let wh : Window := ⟨H, kernel.1, stride.1, dilation.1, padding.1, padding.1⟩
    let ww : Window := ⟨W, kernel.2, stride.2, dilation.2, padding.2, padding.2⟩
    if wh.Fits ∧ ww.Fits then mkM [N, C, wh.out, ww.out] fun ix => (Onnx.Spec.under x wh ww ix).max? else none
  | _ => none

/-- `adaptive_avg_pool2d` to `oh × ow`: the mean of the rows `floor(i H / oh) .. ceil((i + 1) H / oh)` and of the columns likewise -/
noncomputable def adaptiveAvgPool (x : Nd ℝ) (oh ow : Nat) : Option (Nd ℝ) :=
  match x.dims with
  | [N, C, H, W] =>
    if 0 < oh ∧ 0 < ow ∧ 0 < H ∧ 0 < W then
      let lo (i len out : Nat) := i * len / out
      let hi (i len out : Nat) := ((i + 1) * len + out - 1) / out
      some (mk [N, C, oh, ow] fun ix =>
        let i := ix.getD 2 0
        let j := ix.getD 3 0
        (∑ p ∈ Finset.Ico (lo i H oh) (hi i H oh), ∑ q ∈ Finset.Ico (lo j W ow) (hi j W ow), x.get [ix.getD 0 0, ix.getD 1 0, p, q]) /
          (((hi i H oh - lo i H oh) * (hi j W ow - lo j W ow) : Nat) : ℝ))
    else none
  | _ => none

/-- the value of a call for the values of its arguments; keyword arguments other than those written down are outside the fragment -/
noncomputable def call (target : String) (vs : List Val) (kw : List (String × Val)) : Option (Nd ℝ) := do
  match target with
  | "linear.default" =>
    if kw.isEmpty then linear (← (arg vs 0 .absent).tensor?) (← (arg vs 1 .absent).tensor?) (← (arg vs 2 .absent).opt?) else none
  | "relu.default" | "relu_.default" => if kw.isEmpty then some (unary (fun v => max v 0) (← (arg vs 0 .absent).tensor?)) else none
  | "leaky_relu.default" =>
    if kw.isEmpty then
      let a ← (arg vs 1 (.num 0.01)).number?
      some (unary (fun v => if v < 0 then a * v else v) (← (arg vs 0 .absent).tensor?))
    else none
  | "sigmoid.default" => if kw.isEmpty then some (unary (fun v => 1 / (1 + Real.exp (-v))) (← (arg vs 0 .absent).tensor?)) else none
  | "clamp.default" =>
    if kw.isEmpty then
      let lo ← (arg vs 1 .absent).number?
      let hi ← (arg vs 2 .absent).number?
      some (unary (fun v => min (max v lo) hi) (← (arg vs 0 .absent).tensor?))
    else none
  | "conv2d.default" =>
    if kw.isEmpty ∧ (arg vs 6 (.int 1)).int? = some 1 then
      conv2d (← (arg vs 0 .absent).tensor?) (← (arg vs 1 .absent).tensor?) (← (arg vs 2 .absent).opt?) (← (arg vs 3 (.ints [1, 1])).pair?)
        (← (arg vs 4 (.ints [0, 0])).pair?) (← (arg vs 5 (.ints [1, 1])).pair?)
    else none
  | "batch_norm.default" =>
    if kw.isEmpty ∧ (arg vs 5 .absent).bool? = some false then
      batchNorm (← (arg vs 0 .absent).tensor?) (← (arg vs 1 .absent).tensor?) (← (arg vs 2 .absent).tensor?) (← (arg vs 3 .absent).tensor?)
        (← (arg vs 4 .absent).tensor?) (← (arg vs 7 .absent).number?)
    else none
  | "add.Tensor" =>
    let alpha ← (match kw with | [] => some 1 | [("alpha", v)] => v.number? | _ => none : Option ℝ)
    bcast (fun a b => a + alpha * b) (← (arg vs 0 .absent).tensor?) (← (arg vs 1 .absent).tensor?)
  | "cat.default" =>
    match arg vs 0 .absent with
    | .ts xs => if kw.isEmpty then cat (← (arg vs 1 (.int 0)).int?) xs else none
    | _ => none
  | "dropout.default" =>
    if kw.isEmpty ∧ (arg vs 2 .absent).bool? = some false then (arg vs 0 .absent).tensor? else none
  | "flatten.using_ints" =>
    if kw.isEmpty then flatten (← (arg vs 1 (.int 0)).int?) (← (arg vs 2 (.int (-1))).int?) (← (arg vs 0 .absent).tensor?) else none
  | "max_pool2d.default" =>
    if kw.isEmpty ∧ (arg vs 5 (.bool false)).bool? = some false then
      let kernel ← (arg vs 1 .absent).pair?
      -- by default, and for an empty list, the stride is the size of the window
      let stride ← (match arg vs 2 (.ints []) with | .ints [] => some kernel | v => v.pair? : Option (Nat × Nat))
      maxPool (← (arg vs 0 .absent).tensor?) kernel stride (← (arg vs 3 (.ints [0, 0])).pair?) (← (arg vs 4 (.ints [1, 1])).pair?)
    else none
  | "adaptive_avg_pool2d.default" =>
    if kw.isEmpty then
      let o ← (arg vs 1 .absent).pair?
      adaptiveAvgPool (← (arg vs 0 .absent).tensor?) o.1 o.2
    else none
  | _ => none

/-- values of the nodes by name -/
abbrev Env := String → Option (Nd ℝ)

def value (E : Env) : Arg → Option Val
  | .node s => (E s).map .t
  | .nodes l => (l.mapM E).map .ts
  | .int k => some (.int k)
  | .ints l => some (.ints l)
  | .num v => some (.num v)
  | .bool b => some (.bool b)
  | .absent => some .absent

/-- evaluation of a node on the input `x` of the program -/
noncomputable def step (x : Nd ℝ) (E : Env) (n : Node) : Option Env := do
  match n.kind with
  | .placeholder _ => some fun s => if s = n.name then some x else E s
  | .getAttr v => some fun s => if s = n.name then some v else E s
  | .call t args kw =>
    let vs ← args.mapM (value E)
    let kvs ← kw.mapM fun e => (value E e.2).map fun v => (e.1, v)
    let y ← call t vs kvs
    some fun s => if s = n.name then some y else E s
  | .output _ => some E
  | .other => none

/-- the values of all the nodes -/
noncomputable def eval (p : Program) (x : Nd ℝ) : Option Env := p.nodes.foldlM (step x) fun _ => none

/-- the name of the returned tensor -/
def outputName (p : Program) : Option String :=
  p.nodes.findSome? fun n => match n.kind with | .output s => some s | _ => none

/-- the output of the program -/
noncomputable def output (p : Program) (x : Nd ℝ) : Option (Nd ℝ) := do (← eval p x) (← outputName p)

end Verif.Torch.Spec

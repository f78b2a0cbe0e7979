import Verif.Onnx.Proto
import Mathlib.Analysis.Complex.Trigonometric
import Mathlib.Analysis.Real.Sqrt

/-!
# What an ONNX model computes

The semantics of the operators according to the ONNX operator specification (docs/Operators.md of the onnx project),
written without reference to acetone, on exact real numbers.  A value is `none` where the specification leaves the node
undefined or where an attribute is outside the fragment written down here (`ceil_mode`, `training_mode`, five or more
dimensions of a convolution, ...).  Only the first output of a node is given a value.
-/

namespace Verif.Onnx.Spec
open Net Onnx
open scoped Classical

/-- values of the tensors by name -/
abbrev Env := String → Option (Nd ℝ)

/-- a tensor and its elements, computing an element being undefined in some cases -/
noncomputable def mkM (d : List Nat) (v : List Nat → Option ℝ) : Option (Nd ℝ) := ((indices d).mapM v).map fun l => ⟨d, l⟩

/-- an element by element function -/
noncomputable def unary (f : ℝ → ℝ) (x : Nd ℝ) : Nd ℝ := ⟨x.dims, x.data.map f⟩

/-- an axis of a tensor of rank `r`: negative ones count from the end -/
def axis? (r : Nat) (a : Int) : Option Nat :=
  if 0 ≤ a ∧ a < r then some a.toNat else if -(r : Int) ≤ a ∧ a < 0 then some (r + a).toNat else none

/-- an attribute that must be a list of two naturals -/
def two (l : List Int) : Option (Nat × Nat) :=
  match l with
  | [a, b] => if 0 ≤ a ∧ 0 ≤ b then some (a.toNat, b.toNat) else none
  | _ => none

/-- an integer stored in a tensor -/
noncomputable def toInt (x : ℝ) : Int := ⌊x⌋

/-! ## Windows: Conv, MaxPool, AveragePool -/

/-- one axis of a sliding window: length of the input, size of the kernel, stride, dilation, padding before and after -/
structure Window where
  (len kernel stride dil before after : Nat)

/-- length covered by the kernel -/
def Window.span (w : Window) : Nat := (w.kernel - 1) * w.dil + 1

/-- number of positions: `floor((len + pads - span) / stride) + 1` -/
def Window.out (w : Window) : Nat := (w.len + w.before + w.after - w.span) / w.stride + 1

/-- the window fits -/
def Window.Fits (w : Window) : Prop := 1 ≤ w.kernel ∧ 1 ≤ w.stride ∧ 1 ≤ w.dil ∧ w.span ≤ w.len + w.before + w.after

/-- the input position read by the kernel position `a` for the output position `i`; `none` in the padding -/
def Window.pos (w : Window) (i a : Nat) : Option Nat :=
  let p := i * w.stride + a * w.dil
  if w.before ≤ p ∧ p < w.before + w.len then some (p - w.before) else none

/-- the padding for `auto_pad` = `SAME_UPPER` and `SAME_LOWER`: that which gives `ceil(len / stride)` positions -/
def sameTotal (len kernel stride dil : Nat) : Nat := ((len + stride - 1) / stride - 1) * stride + ((kernel - 1) * dil + 1) - len

/-- the two windows of a node with the given kernel on an image of `H × W` -/
def windows (n : Node) (H W kh kw : Nat) : Option (Window × Window) := do
  let (s0, s1) ← two ((n.ints? "strides").getD [1, 1])
  let (d0, d1) ← two ((n.ints? "dilations").getD [1, 1])
  let th := sameTotal H kh s0 d0
  let tw := sameTotal W kw s1 d1
  let (t, l, b, r) ← (match (n.str? "auto_pad").getD "NOTSET" with
    | "NOTSET" => (match (n.ints? "pads").getD [0, 0, 0, 0] with
      | [t, l, b, r] => if 0 ≤ t ∧ 0 ≤ l ∧ 0 ≤ b ∧ 0 ≤ r then some (t.toNat, l.toNat, b.toNat, r.toNat) else none
      | _ => none)
    | "VALID" => some (0, 0, 0, 0)
    | "SAME_UPPER" => some (th / 2, tw / 2, th - th / 2, tw - tw / 2)
    | "SAME_LOWER" => some (th - th / 2, tw - tw / 2, th / 2, tw / 2)
    | _ => none : Option (Nat × Nat × Nat × Nat))
  some (⟨H, kh, s0, d0, t, b⟩, ⟨W, kw, s1, d1, l, r⟩)

/-- Conv in two dimensions: `Y[n, f] = B[f] + sum over the channels c of the group of f, X[n, c] cross-correlated with W[f, c]` -/
noncomputable def conv (n : Node) (x w : Nd ℝ) (b : Option (Nd ℝ)) : Option (Nd ℝ) :=
  match x.dims, w.dims with
  | [N, C, H, W], [F, Cg, kh, kw] => do
    let (wh, ww) ← windows n H W kh kw
    let g := (n.int? "group").getD 1
    if wh.Fits ∧ ww.Fits ∧ (C : Int) = g * Cg ∧ 0 < g ∧ (F : Int) % g = 0 ∧ (∀ v ∈ b, v.dims = [F]) ∧
        (∀ k ∈ n.ints? "kernel_shape", k = [(kh : Int), (kw : Int)]) then
      let perGroup := F / g.toNat
      some (mk [N, F, wh.out, ww.out] fun ix =>
        let f := ix.getD 1 0
        (∑ c ∈ Finset.range Cg, ∑ a ∈ Finset.range kh, ∑ e ∈ Finset.range kw,
          match wh.pos (ix.getD 2 0) a, ww.pos (ix.getD 3 0) e with
          | some p, some q => x.get [ix.getD 0 0, f / perGroup * Cg + c, p, q] * w.get [f, c, a, e]
          | _, _ => 0) + (match b with | some v => v.get [f] | none => 0))
    else none
  | _, _ => none

/-- the elements under a window -/
noncomputable def under (x : Nd ℝ) (wh ww : Window) (ix : List Nat) : List ℝ :=
  (List.range wh.kernel).flatMap fun a => (List.range ww.kernel).filterMap fun e =>
    match wh.pos (ix.getD 2 0) a, ww.pos (ix.getD 3 0) e with
    | some p, some q => some (x.get [ix.getD 0 0, ix.getD 1 0, p, q])
    | _, _ => none

/-- MaxPool in two dimensions: padding counts as minus infinity -/
noncomputable def maxPool (n : Node) (x : Nd ℝ) : Option (Nd ℝ) :=
  match x.dims with
  | [N, C, H, W] => do
    let (kh, kw) ← two (← n.ints? "kernel_shape")
    let (wh, ww) ← windows n H W kh kw
    if wh.Fits ∧ ww.Fits ∧ (n.int? "ceil_mode").getD 0 = 0 then
      mkM [N, C, wh.out, ww.out] fun ix => (under x wh ww ix).max?
    else none
  | _ => none

/-- AveragePool in two dimensions: padding is counted if `count_include_pad` -/
noncomputable def averagePool (n : Node) (x : Nd ℝ) : Option (Nd ℝ) :=
  match x.dims with
  | [N, C, H, W] => do
    let (kh, kw) ← two (← n.ints? "kernel_shape")
    let (wh, ww) ← windows n H W kh kw
    if wh.Fits ∧ ww.Fits ∧ (n.int? "ceil_mode").getD 0 = 0 then
      mkM [N, C, wh.out, ww.out] fun ix =>
        let l := under x wh ww ix
        let count := if (n.int? "count_include_pad").getD 0 = 0 then l.length else kh * kw
        if count = 0 then none else some (l.sum / count)
    else none
  | _ => none

/-- GlobalAveragePool: the mean of each channel -/
noncomputable def globalAveragePool (x : Nd ℝ) : Option (Nd ℝ) :=
  match x.dims with
  | [N, C, H, W] =>
    if H * W = 0 then none
    else some (mk [N, C, 1, 1] fun ix => (∑ i ∈ Finset.range H, ∑ j ∈ Finset.range W, x.get [ix.getD 0 0, ix.getD 1 0, i, j]) / ((H * W : Nat) : ℝ))
  | _ => none

/-! ## Linear algebra -/

/-- Gemm: `Y = alpha * A' * B' + beta * C` with `C` broadcast to `(M, N)` -/
noncomputable def gemm (n : Node) (a b : Nd ℝ) (c : Option (Nd ℝ)) : Option (Nd ℝ) :=
  let tA := (n.int? "transA").getD 0 ≠ 0
  let tB := (n.int? "transB").getD 0 ≠ 0
  match (if tA then a.dims.reverse else a.dims), (if tB then b.dims.reverse else b.dims) with
  | [M, K], [K', N] =>
    if K = K' ∧ ∀ v ∈ c, bshape v.dims [M, N] = some [M, N] then
      some (mk [M, N] fun ix =>
        let i := ix.getD 0 0
        let j := ix.getD 1 0
        (n.float? "alpha").getD 1 * (∑ k ∈ Finset.range K, a.get (if tA then [k, i] else [i, k]) * b.get (if tB then [j, k] else [k, j])) +
          (n.float? "beta").getD 1 * (match c with | some v => v.bget [i, j] | none => 0))
    else none
  | _, _ => none

/-- MatMul as `numpy.matmul` on tensors of rank at least two: a product of matrices, the other axes broadcast -/
noncomputable def matmul (a b : Nd ℝ) : Option (Nd ℝ) :=
  match a.dims.reverse, b.dims.reverse with
  | K :: M :: da, N :: K' :: db =>
    if K = K' then do
      let d ← bshape da.reverse db.reverse
      let r := d.length
      some (mk (d ++ [M, N]) fun ix =>
        let batch := ix.take r
        let i := ix.getD r 0
        let j := ix.getD (r + 1) 0
        let ia := mask (padTo r da.reverse) batch ++ [i]
        let ib := mask (padTo r db.reverse) batch
        ∑ k ∈ Finset.range K, a.data.getD (ravel (padTo r da.reverse ++ [M, K]) (ia ++ [k])) 0 *
          b.data.getD (ravel (padTo r db.reverse ++ [K, N]) (ib ++ [k, j])) 0)
    else none
  | _, _ => none

/-! ## Normalisation -/

/-- BatchNormalization (inference): axis 1 is the channel -/
noncomputable def batchNorm (n : Node) (x scale bias mean var : Nd ℝ) : Option (Nd ℝ) :=
  match x.dims with
  | _ :: C :: _ =>
    if scale.dims = [C] ∧ bias.dims = [C] ∧ mean.dims = [C] ∧ var.dims = [C] ∧ (n.int? "training_mode").getD 0 = 0 then
      some (mk x.dims fun ix =>
        let c := ix.getD 1 0
        (x.get ix - mean.get [c]) / Real.sqrt (var.get [c] + (n.float? "epsilon").getD 1e-5) * scale.get [c] + bias.get [c])
    else none
  | _ => none

/-- Softmax since opset 13: along one axis, by default the last -/
noncomputable def softmax13 (n : Node) (x : Nd ℝ) : Option (Nd ℝ) := do
  let a ← axis? x.dims.length ((n.int? "axis").getD (-1))
  some (mk x.dims fun ix => Real.exp (x.get ix) / ∑ k ∈ Finset.range (x.dims.getD a 0), Real.exp (x.get (ix.set a k)))

/-- Softmax before opset 13: along all the axes from `axis`, by default 1 -/
noncomputable def softmax1 (n : Node) (x : Nd ℝ) : Option (Nd ℝ) := do
  let a ← axis? x.dims.length ((n.int? "axis").getD 1)
  some (mk x.dims fun ix => Real.exp (x.get ix) / ((indices (x.dims.drop a)).map fun jx => Real.exp (x.get (ix.take a ++ jx))).sum)

/-! ## Moving data -/

/-- two tensors one after the other along an axis -/
noncomputable def concat2 (a : Nat) (x y : Nd ℝ) : Option (Nd ℝ) :=
  if x.dims.length = y.dims.length ∧ x.dims.eraseIdx a = y.dims.eraseIdx a then
    some (mk (x.dims.set a (x.dims.getD a 0 + y.dims.getD a 0)) fun ix =>
      if ix.getD a 0 < x.dims.getD a 0 then x.get ix else y.get (ix.set a (ix.getD a 0 - x.dims.getD a 0)))
  else none

/-- Concat -/
noncomputable def concat (n : Node) (xs : List (Nd ℝ)) : Option (Nd ℝ) := do
  let x ← xs.head?
  let a ← axis? x.dims.length (← n.int? "axis")
  xs.tail.foldlM (concat2 a) x

/-- Transpose: axis `k` of the result is axis `perm[k]` of the operand, by default in reverse order -/
noncomputable def transpose (n : Node) (x : Nd ℝ) : Option (Nd ℝ) :=
  let r := x.dims.length
  let perm := ((n.ints? "perm").map (List.map Int.toNat)).getD (List.range r).reverse
  if perm.Perm (List.range r) then
    some (mk (perm.map fun k => x.dims.getD k 0) fun ix => x.get ((List.range r).map fun d => ix.getD (perm.idxOf d) 0))
  else none

/-- an index along an axis of length `s`: negative ones count from the end -/
def index? (s : Nat) (z : Int) : Option Nat :=
  if 0 ≤ z ∧ z < s then some z.toNat else if -(s : Int) ≤ z ∧ z < 0 then some (s + z).toNat else none

/-- Gather: by default along axis 0 -/
noncomputable def gather (n : Node) (x idx : Nd ℝ) : Option (Nd ℝ) := do
  let a ← axis? x.dims.length ((n.int? "axis").getD 0)
  let l ← idx.data.mapM fun z => index? (x.dims.getD a 0) (toInt z)
  let q := idx.dims.length
  some (mk (x.dims.take a ++ idx.dims ++ x.dims.drop (a + 1)) fun ix =>
    x.get (ix.take a ++ [l.getD (ravel idx.dims ((ix.drop a).take q)) 0] ++ ix.drop (a + q)))

/-- GatherElements: by default along axis 0 -/
noncomputable def gatherElements (n : Node) (x idx : Nd ℝ) : Option (Nd ℝ) := do
  let a ← axis? x.dims.length ((n.int? "axis").getD 0)
  let l ← idx.data.mapM fun z => index? (x.dims.getD a 0) (toInt z)
  if idx.dims.length = x.dims.length ∧ ∀ k, k ≠ a → idx.dims.getD k 0 ≤ x.dims.getD k 0 then
    some (mk idx.dims fun ix => x.get (ix.set a (l.getD (ravel idx.dims ix) 0)))
  else none

/-- where an index of a padded axis is read; `none`: the constant -/
def padIndex (mode : String) (len : Nat) (z : Int) : Option (Option Nat) :=
  if 0 ≤ z ∧ z < len then some (some z.toNat)
  else match mode with
    | "constant" => some none
    -- the nearest element
    | "edge" => some (some (if z < 0 then 0 else len - 1))
    -- mirror images around the first and last elements
    | "reflect" => let p := 2 * ((len : Int) - 1); let y := z % p; some (some (if y < len then y.toNat else (p - y).toNat))
    -- periodic
    | "wrap" => some (some (z % (len : Int)).toNat)
    | _ => none

/-- Pad, with `pads = [begin of each axis, end of each axis]`; the optional input `axes` is not written down -/
noncomputable def pad (n : Node) (x pads : Nd ℝ) (k : Option (Nd ℝ)) : Option (Nd ℝ) := do
  let r := x.dims.length
  let mode := (n.str? "mode").getD "constant"
  let p := pads.data.map toInt
  let c ← (match k with | none => some 0 | some v => if v.data.length = 1 then v.data.head? else none : Option ℝ)
  if p.length = 2 * r ∧ (∀ z ∈ p, 0 ≤ z) ∧ (∀ d ∈ x.dims, 0 < d) then
    mkM ((List.range r).map fun q => x.dims.getD q 0 + (p.getD q 0).toNat + (p.getD (r + q) 0).toNat) fun ix => do
      let jx ← (List.range r).mapM fun q => padIndex mode (x.dims.getD q 0) ((ix.getD q 0 : Int) - p.getD q 0)
      some (if jx.all Option.isSome then x.get (jx.map fun o => o.getD 0) else c)
  else none

/-- the same elements with other dimensions -/
def reshaped (x : Nd ℝ) (d : List Nat) : Option (Nd ℝ) := if prod d = prod x.dims then some ⟨d, x.data⟩ else none

/-- Reshape: 0 copies a dimension (unless `allowzero`), -1 is inferred -/
noncomputable def reshape (n : Node) (x shape : Nd ℝ) : Option (Nd ℝ) :=
  let l := shape.data.map toInt
  let copied := l.zipIdx.map fun e => if e.1 = 0 ∧ (n.int? "allowzero").getD 0 = 0 then ((x.dims.getD e.2 0 : Nat) : Int) else e.1
  let known := prod ((copied.filter fun z => z ≠ -1).map Int.toNat)
  reshaped x (copied.map fun z => if z = -1 then prod x.dims / known else z.toNat)

/-- Flatten: to a matrix, the axes before `axis` and the others -/
noncomputable def flatten (n : Node) (x : Nd ℝ) : Option (Nd ℝ) := do
  let r := x.dims.length
  let a := (n.int? "axis").getD 1
  let k ← (if a = r then some r else axis? r a : Option Nat)
  reshaped x [prod (x.dims.take k), prod (x.dims.drop k)]

/-- Unsqueeze: axes of length one are inserted -/
def unsqueeze (x : Nd ℝ) (axes : List Int) : Option (Nd ℝ) := do
  let r := x.dims.length + axes.length
  let ks ← axes.mapM (axis? r)
  if ks.Nodup then
    reshaped x ((List.range r).map fun k => if k ∈ ks then 1 else x.dims.getD ((List.range k).countP fun q => q ∉ ks) 0)
  else none

/-! ## Nodes and models -/

/-- the bounds of Clip are scalars or absent -/
noncomputable def bound : Option (Nd ℝ) → Option (Option ℝ)
  | none => some none
  | some t => if t.data.length = 1 then t.data.head?.map some else none

/-- `min(max(x, lo), hi)` -/
noncomputable def clip (lo hi : Option ℝ) (z : ℝ) : ℝ :=
  let y := match lo with | none => z | some l => max z l
  match hi with | none => y | some h => min y h

/-- operators with one, two, and two or three arguments -/
def arg1 (args : List (Option (Nd ℝ))) (f : Nd ℝ → Option (Nd ℝ)) : Option (Nd ℝ) :=
  match args with
  | [some x] => f x
  | _ => none
def arg2 (args : List (Option (Nd ℝ))) (f : Nd ℝ → Nd ℝ → Option (Nd ℝ)) : Option (Nd ℝ) :=
  match args with
  | [some x, some y] => f x y
  | _ => none
def arg3 (args : List (Option (Nd ℝ))) (f : Nd ℝ → Nd ℝ → Option (Nd ℝ) → Option (Nd ℝ)) : Option (Nd ℝ) :=
  match args with
  | [some x, some y] => f x y none
  | [some x, some y, z] => f x y z
  | _ => none

/-- the arguments of Pad without the omitted `axes` -/
def padArgs : List (Option (Nd ℝ)) → List (Option (Nd ℝ))
  | [a, b, c, none] => [a, b, c]
  | l => l

/-- value of the first output of a node, for the values of its inputs (`none`: an omitted optional input) -/
noncomputable def node (opset : Nat) (n : Node) (args : List (Option (Nd ℝ))) : Option (Nd ℝ) :=
  match n.op with
  | .Relu => arg1 args fun x => some (unary (fun v => max 0 v) x)
  | .Tanh => arg1 args fun x => some (unary Real.tanh x)
  | .Sigmoid => arg1 args fun x => some (unary (fun v => 1 / (1 + Real.exp (-v))) x)
  | .Exp => arg1 args fun x => some (unary Real.exp x)
  | .Log => arg1 args fun x => some (unary Real.log x)
  | .LeakyRelu => arg1 args fun x => some (unary (fun v => if v < 0 then (n.float? "alpha").getD 0.01 * v else v) x)
  | .Clip => (match args with
    | some x :: rest => do
      let lo ← bound (rest.getD 0 none)
      let hi ← bound (rest.getD 1 none)
      some (unary (clip lo hi) x)
    | _ => none)
  | .Add => arg2 args (bcast (· + ·))
  | .Sub => arg2 args (bcast (· - ·))
  | .Mul => arg2 args (bcast (· * ·))
  | .Div => arg2 args (bcast (· / ·))
  | .Conv => arg3 args (conv n)
  | .MaxPool => arg1 args (maxPool n)
  | .AveragePool => arg1 args (averagePool n)
  | .GlobalAveragePool => arg1 args globalAveragePool
  | .Gemm => arg3 args (gemm n)
  | .MatMul => arg2 args matmul
  | .BatchNormalization => (match args with
    | [some x, some s, some b, some m, some v] => batchNorm n x s b m v
    | _ => none)
  | .Softmax => arg1 args (if 13 ≤ opset then softmax13 n else softmax1 n)
  | .Concat => do concat n (← args.mapM id)
  | .Transpose => arg1 args (transpose n)
  | .Gather => arg2 args (gather n)
  | .GatherElements => arg2 args (gatherElements n)
  | .Pad => arg3 (padArgs args) (pad n)
  | .Dropout => args.head?.bind id
  | .Flatten => arg1 args (flatten n)
  | .Reshape => arg2 args (reshape n)
  | .Unsqueeze => (match args with
    | [some x] => unsqueeze x ((n.ints? "axes").getD [])
    | [some x, some a] => unsqueeze x (a.data.map toInt)
    | _ => none)
  | .Shape => arg1 args fun x => some ⟨[x.dims.length], x.dims.map (fun d => (d : ℝ))⟩
  | .Constant => (match n.attrs with
    | (_, .tensor d p) :: _ => if args = [] ∧ p.reals.length = prod d then some ⟨d, p.reals⟩ else none
    | _ => none)
  | _ => none

/-- the values of the inputs of a node: the empty name is an omitted optional input -/
def args (E : Env) (n : Node) : Option (List (Option (Nd ℝ))) :=
  n.inputs.mapM fun s => if s = "" then some none else (E s).map some

/-- evaluation of a node -/
noncomputable def step (opset : Nat) (E : Env) (n : Node) : Option Env := do
  let y ← node opset n (← args E n)
  let o ← n.output?
  some fun s => if s = o then some y else E s

/-- the initializers and the input -/
def env0 (m : Model) (input : String) (x : Nd ℝ) : Env := fun s =>
  if s = input then some x else (m.inits.find? fun i => i.name = s).bind Init.array

/-- the values of all the tensors of a model with one input -/
noncomputable def eval (m : Model) (input : String) (x : Nd ℝ) : Option Env := m.nodes.foldlM (step m.opset) (env0 m input x)

end Verif.Onnx.Spec

import Verif.Onnx.Proto
import Verif.Gen.Padding

/-!
# The layers that the importer creates for the nodes of an ONNX model

Model of `importers/ONNX_importer/create_layer.py`.  For a node, the layer and the names recorded in `dict_input`; `none`: an
exception.  Checks of the constructors of layers that only raise are left out where the theorems do not need them: the model
imports at least what the code imports.  Resize and LSTM nodes are not modelled (they count as exceptions), nor are tensors
with more than four dimensions or a first dimension, of four, other than 1 where a layer would depend on it.
-/

namespace Verif.Onnx
open Net Layers Gen
open scoped Classical

/-- a layer and the names of its inputs, in the order of `dict_input` -/
abbrev Made := Op ℝ × List String

/-- an integer that Python uses as a size or an offset; negative ones are not modelled -/
def nat? (z : Int) : Option Nat := if 0 ≤ z then some z.toNat else none

/-- axis 1, 2 or 3 (the constructors raise on others) -/
def npAxis (z : Int) : Option Np.Axis :=
  if z = 1 then some .c else if z = 2 then some .h else if z = 3 then some .w else none

/-- the axes of Softmax -/
def smAxis (z : Int) : Option Layers.Axis :=
  if z = 1 then some .c else if z = 2 then some .h else if z = 3 then some .w else none

/-- the four dimensions `[1, C, H, W]` -/
def batch1 (d : List Nat) : Option Shape :=
  match d with
  | [1, c, h, w] => some ⟨c, h, w⟩
  | _ => none

/-- `while len(shape) < 4: shape = (1, *shape)` -/
def pad4 (d : List Nat) : List Nat := padTo 4 d

/-- an array of shape `(1, C, H, W)`, or of a shape that is extended to it -/
noncomputable def arr4 (t : Nd ℝ) : Option (Arr ℝ) := (batch1 (pad4 t.dims)).map fun s => arrOf s t.data

/-! ## Convolution and pooling -/

/-- the `padding` argument (`create_layer.py` 289-295, 1063-1069, 1102-1108) -/
def Node.padding (n : Node) : Padding :=
  let pads := match n.ints? "pads" with | none => .str "VALID" | some l => .list l
  match n.str? "auto_pad" with
  | none => pads
  | some s => if s = "NOTSET" then pads else .str s

/-- `attributes["strides"][0]`, `[1, 1]` by default -/
def Node.stride (n : Node) : Option Nat := do
  let l := (n.ints? "strides").getD [1, 1]
  nat? (← l.head?)

/-- `create_conv` (`create_layer.py` 267-323) and the attributes set by `Conv2D.py` 50-108, with the checks of 170-223 -/
noncomputable def createConv (m : Model) (n : Node) : Option Made := do
  let x ← n.input? 0
  let o ← n.output?
  let i ← shape3 (m.shape x)
  let os ← shape3 (m.shape o)
  let stride ← n.stride
  let dil ← nat? (← ((n.ints? "dilations").getD [1]).head?)
  let ks ← n.ints? "kernel_shape"
  let kh ← nat? (← ks[0]?)
  let kw ← nat? (← ks[1]?)
  let W ← (← m.init? (← n.input? 1)).array
  let filters ← W.dims.head?
  let B ← (if (n.inputs.drop 1).length = 2 then do (← m.init? (← n.input? 2)).array
    else some ⟨[os.C], List.replicate os.C 0⟩ : Option (Nd ℝ))
  let p ← computePadding n.padding i.H i.W kh kw stride dil
  let c : ConvP := ⟨filters, i.C, i.H, i.W, os.H, os.W, kh, kw, stride, dil, ← nat? p.top, ← nat? p.bottom, ← nat? p.left, ← nat? p.right⟩
  if W.dims = [filters, i.C, kh, kw] ∧ B.dims = [filters] ∧ c.Accepted then
    some (.conv .loops6 c (fun f q a b => W.get [f, q, a, b]) (fun f => B.get [f]) id, [x])
  else none

/-- the attributes set by `Pooling2D.py` 50-83, with the checks of 120-137 -/
noncomputable def poolP (i os : Shape) (stride pool : Nat) (padding : Padding) : Option PoolP := do
  let p ← computePadding padding i.H i.W pool pool stride
  let c : PoolP := ⟨i.C, i.H, i.W, os.H, os.W, stride, pool, ← nat? p.top, ← nat? p.bottom, ← nat? p.left, ← nat? p.right⟩
  if c.Accepted then some c else none

/-- `create_max_pool` (`create_layer.py` 1047-1083), `create_average_pool` (1086-1122): the parameters -/
noncomputable def createPool (m : Model) (n : Node) : Option PoolP := do
  let x ← n.input? 0
  let o ← n.output?
  let i ← shape3 (m.shape x)
  let os ← shape3 (m.shape o)
  let ks ← n.ints? "kernel_shape"
  poolP i os (← n.stride) (← nat? (← ks.head?)) n.padding

/-- `create_max_pool`: all the inputs are recorded -/
noncomputable def createMaxPool (m : Model) (n : Node) : Option Made := do
  some (.maxPool (← createPool m n) id, n.inputs)

/-- `create_average_pool` -/
noncomputable def createAveragePool (m : Model) (n : Node) : Option Made := do
  some (.avgPool (← createPool m n) id, [← n.input? 0])

/-- `create_global_average_pool` (`create_layer.py` 1125-1149): a window of `input_shape[2]` rows and columns -/
noncomputable def createGlobalAveragePool (m : Model) (n : Node) : Option Made := do
  let x ← n.input? 0
  let o ← n.output?
  let i ← shape3 (m.shape x)
  let os ← shape3 (m.shape o)
  some (.avgPool (← poolP i os 1 i.H (.list [0, 0, 0, 0])) id, n.inputs)

/-! ## Linear algebra -/

/-- `create_gemm` (`create_layer.py` 563-603) and `Gemm.py` 44-160.  The type check of `beta` is made under the condition that `alpha` is not 1
and reads `self.beta[0]` (`Gemm.py` 99-103), which raises if `beta` is 1.  Biases of another shape than `[N]`, which the reference
broadcasts and the generated code reads out of bounds (`C10_fails_scalar_bias`), are not modelled. -/
noncomputable def createGemm (m : Model) (n : Node) : Option Made := do
  let x ← n.input? 0
  let o ← n.output?
  let i ← (if m.shape x = [] then some ⟨1, 1, 1⟩ else shape3 (m.shape x) : Option Shape)
  let os ← shape3 (m.shape o)
  let W ← (← m.init? (← n.input? 1)).array
  -- `to_array(np.zeros((1, 1)))` raises if there is no third input
  let B ← (if n.inputs.length = 3 then do (← m.init? (← n.input? 2)).array else none : Option (Nd ℝ))
  let tA := (n.int? "transA").getD 0 ≠ 0
  let tB := (n.int? "transB").getD 0 ≠ 0
  let M := if tA then i.W else i.H
  let Kd := if tA then i.H else i.W
  let N := os.W
  if os.H = M ∧ W.dims = (if tB then [N, Kd] else [Kd, N]) ∧ B.dims = [N] ∧
      ((n.float? "alpha").getD 1 = 1 ∨ (n.float? "beta").getD 1 ≠ 1) then
    some (.gemm tA tB M N Kd ((n.float? "alpha").getD 1) ((n.float? "beta").getD 1) (fun a b => W.get [a, b])
      (fun j => B.bget [j]) id, [x])
  else none

/-- `_collect_node_inputs` (`create_layer.py` 1152-1166): an initializer has the shape of its array, another tensor its
declared shape -/
def Model.collect (m : Model) (name : String) : Option (List Nat) :=
  match m.init? name with
  | some i => i.array.map Nd.dims
  | none => some (m.rawShape name)

/-- `create_matmul` (`create_layer.py` 650-680) and `MatMul.py` 38-70 -/
noncomputable def createMatMul (m : Model) (n : Node) : Option Made := do
  let l ← n.input? 0
  let r ← n.input? 1
  let o ← n.output?
  let sl ← m.collect l
  let sr ← m.collect r
  let a ← batch1 (pad4 sl)
  let b ← batch1 (pad4 (if sr.length < 2 then sr ++ [1] else sr))
  if b.H = a.W ∧ findSize (m.shape o) = b.W * a.H * a.C then some (.matmul a.C b.C a.H a.W b.W id, n.inputs) else none

/-- `create_batch_norm` (`create_layer.py` 683-716) with the checks of `BatchNormalization.py` 100-121; the default
`epsilon` is 1e-05 -/
noncomputable def createBatchNorm (m : Model) (n : Node) : Option Made := do
  let x ← n.input? 0
  let o ← n.output?
  let s ← shape3 (m.shape o)
  let scale ← (← m.init? (← n.input? 1)).array
  let bias ← (← m.init? (← n.input? 2)).array
  let mean ← (← m.init? (← n.input? 3)).array
  let var ← (← m.init? (← n.input? 4)).array
  if scale.dims = [s.C] ∧ bias.dims = [s.C] ∧ mean.dims = [s.C] ∧ var.dims = [s.C] then
    some (.batchNorm s ((n.float? "epsilon").getD 1e-5) (fun c => scale.get [c]) (fun c => mean.get [c]) (fun c => var.get [c])
      (fun c => bias.get [c]) id, [x])
  else none

/-! ## Moving data -/

/-- An `axis` attribute as the importer resolves it: `len(output_shape) + axis` if negative, otherwise
`len(input_shape) + axis - len(unextended shape)` (`create_layer.py` 344-347, 498-503); all shapes have four entries. -/
def resolve (rank : Nat) (axis : Int) : Int := if axis < 0 then 4 + axis else 4 + axis - rank

/-- `create_concat` (`create_layer.py` 327-356) and `Concatenate.py` 38-66 -/
noncomputable def createConcat (m : Model) (n : Node) : Option Made := do
  let x ← n.input? 0
  let ss ← n.inputs.mapM fun i => shape3 (m.shape i)
  let a ← npAxis (resolve (m.rawShape x).length (← n.int? "axis"))
  some (.concat a ss id, n.inputs)

/-- `create_softmax` (`create_layer.py` 232-263): without `axis`, 1 before opset 13 and `len(output_shape) - 1` after -/
noncomputable def createSoftmax (m : Model) (n : Node) : Option Made := do
  let x ← n.input? 0
  let o ← n.output?
  let s ← batch1 (m.shape o)
  let axis := match n.int? "axis" with
    | none => if m.opset < 13 then 1 else 3
    | some a => resolve (m.rawShape x).length a
  some (.softmax s (some (← smAxis axis)) id, n.inputs)

/-- `perm` (`Transpose.py` 47-59): other permutations than those of the last three axes of four are not modelled (the
constructor or `np.transpose` raises, or the batch axis is moved) -/
def perm3 (l : List Int) : Option Perm3 :=
  if l = [0, 1, 2, 3] then some .p123 else if l = [0, 1, 3, 2] then some .p132 else if l = [0, 2, 1, 3] then some .p213
  else if l = [0, 2, 3, 1] then some .p231 else if l = [0, 3, 1, 2] then some .p312 else if l = [0, 3, 2, 1] then some .p321 else none

/-- `create_transpose` (`create_layer.py` 719-740) -/
noncomputable def createTranspose (m : Model) (n : Node) : Option Made := do
  let x ← n.input? 0
  let s ← batch1 (m.shape x)
  let p ← perm3 (← n.ints? "perm")
  some (.transpose s p id, n.inputs)

/-- length of an axis -/
def _root_.Verif.Net.Shape.dim (s : Shape) : Np.Axis → Nat
  | .c => s.C
  | .h => s.H
  | .w => s.W

/-- `indices[i] = input_shape[axis] - abs(indices[i])` for negative ones (`create_layer.py` 504-507), and the check of
`Gather.py` 100-104 -/
def fixIndex (len : Nat) (z : Int) : Option Nat :=
  let k := if z < 0 then (len : Int) - z.natAbs else z
  if 0 ≤ k ∧ k < len then some k.toNat else none

/-- `create_gather` (`create_layer.py` 483-519): the default axis is 0, which the constructor rejects -/
noncomputable def createGather (m : Model) (n : Node) : Option Made := do
  let x ← n.input? 0
  let s ← batch1 (m.shape x)
  let (d, l) ← (← m.init? (← n.input? 1)).intArray
  let axis := match n.int? "axis" with
    | none => 0
    | some a => resolve (m.rawShape x).length a
  let a ← npAxis axis
  let idx ← l.mapM (fixIndex (s.dim a))
  some (.gather a s d idx id, [x])

/-- `create_gather_elements` (`create_layer.py` 522-560): the indices are extended to rank four -/
noncomputable def createGatherElements (m : Model) (n : Node) : Option Made := do
  let x ← n.input? 0
  let o ← n.output?
  let s ← batch1 (m.shape x)
  let os ← batch1 (m.shape o)
  let (d, l) ← (← m.init? (← n.input? 1)).intArray
  let axis := match n.int? "axis" with
    | none => 0
    | some a => resolve (m.rawShape x).length a
  let a ← npAxis axis
  let idx ← l.mapM (fixIndex (s.dim a))
  if pad4 d = [1, os.C, os.H, os.W] then some (.gatherElements a s os (fun f i j => idx.getD (at3 os.H os.W f i j) 0) id, [x]) else none

/-- the names that iterating on a string gives: `dict_input[idx] = node.input[0]` -/
def chars (s : String) : List String := s.toList.map fun c => String.ofList [c]

/-- `create_tile` (`create_layer.py` 743-770): `dict_input[idx] = node.input[0]` records the characters of the name -/
noncomputable def createTile (m : Model) (n : Node) : Option Made := do
  let x ← n.input? 0
  let s ← batch1 (m.shape x)
  let (_, l) ← (← m.init? (← n.input? 1)).intArray
  let reps ← (List.replicate (4 - l.length) 1 ++ l).mapM nat?
  match reps with
  | [1, rc, rh, rw] => some (.tile s rc rh rw id, chars x)
  | _ => none

/-- `create_reduce_sum`, `.._max`, `.._min`, `.._mean`, `.._prod` (`create_layer.py` 773-1042): before the opset `v` the
conversion of the attribute `axes` (a list, or absent) raises; `dict_input[idx] = node.input[0]` as in Tile -/
noncomputable def createReduce (fn : RFunc) (v : Nat) (m : Model) (n : Node) : Option Made := do
  let x ← n.input? 0
  let s ← batch1 (m.shape x)
  if m.opset < v then none else do
  let axes ← (if n.inputs.length = 2 then do
      let (_, l) ← (← m.init? (← n.input? 1)).intArray
      l.mapM fun a => nat? (resolve (m.rawShape x).length a)
    else some [] : Option (List Nat))
  some (.reduce fn ⟨s.C, s.H, s.W, axes, (n.int? "noop_with_empty_axes").getD 0 ≠ 0⟩ ((n.int? "keepdims").getD 1 ≠ 0) id, chars x)

/-- `create_pad` (`create_layer.py` 440-480), `create_pad_obj` (95-112), `Pad.py` 60-67: `mode` is required, as are the two
initializers; `axes` are read when there are four inputs (462-463, an exception if there is no such initializer), then ignored -/
noncomputable def createPad (m : Model) (n : Node) : Option Made := do
  let x ← n.input? 0
  let s ← batch1 (m.shape x)
  let (_, l) ← (← m.init? (← n.input? 1)).intArray
  let k ← (← m.init? (← n.input? 2)).array
  -- `float(..)` of an array with one element
  let kv ← (if k.data.length = 1 then k.data.head? else none : Option ℝ)
  let pads ← l.mapM nat?
  let _ ← (if n.inputs.length = 3 then some ⟨[], []⟩ else (n.input? 3).bind fun a => (m.init? a).bind Init.array : Option (Nd ℝ))
  match pads with
  | _ :: cf :: hf :: wf :: _ :: cb :: hb :: wb :: _ =>
    let p : Pads3 := ⟨cf, cb, hf, hb, wf, wb⟩
    match n.str? "mode" with
    | some "constant" => some (.constantPad s p kv id, [x])
    | some "edge" => some (.pad .edge s p id, [x])
    | some "wrap" => some (.pad .wrap s p id, [x])
    | some "reflect" => some (.pad .reflect s p id, [x])
    | _ => none
  | _ => none

/-! ## Element-wise operators -/

/-- `create_add` (`create_layer.py` 1169-1196): initializers are inputs -/
noncomputable def createAdd (m : Model) (n : Node) : Option Made := do
  let o ← n.output?
  let os ← batch1 (m.shape o)
  let ss ← n.inputs.mapM fun i => do batch1 (pad4 (← m.collect i))
  some (.broadcast .add os ss none id, n.inputs)

/-- one iteration of the loop on the inputs of Div, Mul and Sub (`create_layer.py` 1213-1220): an initializer is combined with
the constant, another tensor is an input -/
noncomputable def foldInit (m : Model) (op : ℝ → ℝ → ℝ) (st : Nd ℝ × List String) (name : String) : Option (Nd ℝ × List String) :=
  match m.init? name with
  | some i => do
    let c ← bcast op st.1 (← i.array)
    some (c, st.2)
  | none => some (st.1, st.2 ++ [name])

/-- `create_div`, `create_mul`, `create_sub` (`create_layer.py` 1199-1327): `e` is 1 or 0, the value of the initial constant,
which is kept only if all its elements are different from `e` -/
noncomputable def createBin (m : Model) (n : Node) (bop : BOp) (op : ℝ → ℝ → ℝ) (e : ℝ) : Option Made := do
  let x ← n.input? 0
  let o ← n.output?
  let os ← batch1 (m.shape o)
  let (c, names) ← n.inputs.foldlM (foldInit m op) (mk (m.shape x) fun _ => e, [])
  let ss ← names.mapM fun i => batch1 (m.shape i)
  if ∀ v ∈ c.data, v ≠ e then do
    let a ← arr4 c
    some (.broadcast bop os ss (some a) id, names)
  else some (.broadcast bop os ss none id, names)

/-- `create_max`, `create_min` (`create_layer.py` 1330-1379); the shape of an initializer is empty, which raises -/
noncomputable def createMinMax (m : Model) (n : Node) (bop : BOp) : Option Made := do
  let o ← n.output?
  let os ← batch1 (m.shape o)
  let ss ← n.inputs.mapM fun i => batch1 (m.shape i)
  some (.broadcast bop os ss none id, n.inputs)

/-- a bound of Clip: `None` (infinite) for an empty name, otherwise `to_array(..)[0]`, which raises on an array of rank
zero (`create_layer.py` 1429-1433); arrays of rank two or more are not modelled -/
noncomputable def clipBound (m : Model) (name : String) : Option (Option ℝ) :=
  if name = "" then some none else do
    let t ← (← m.init? name).array
    match t.dims, t.data with
    | [_], v :: _ => some (some v)
    | _, _ => none

/-- `np.clip` -/
noncomputable def clipFn (lo hi : Option ℝ) (z : ℝ) : ℝ :=
  let y := match lo with | none => z | some l => max z l
  match hi with | none => y | some h => min y h

/-- `instantiate_activation_layer` (`create_layer.py` 1407-1436) with the checks of the constructors -/
noncomputable def activation (m : Model) (n : Node) : Option (ℝ → ℝ) :=
  match n.op with
  | .Relu => some (Act.compute .relu)
  | .Tanh => some (Act.compute .tanh)
  | .Sigmoid => some (Act.compute .sigmoid)
  | .Exp => some (Act.compute .exponential)
  | .Log => some (Act.compute .logarithm)
  | .LeakyRelu =>
    let a := (n.float? "alpha").getD 0.01
    if (Act.leakyRelu a).accepted then some (Act.compute (.leakyRelu a)) else none
  | .Clip => do
    let lo ← clipBound m (← n.input? 1)
    let hi ← clipBound m (← n.input? 2)
    if ∀ l ∈ lo, ∀ h ∈ hi, l ≤ h then some (clipFn lo hi) else none
  | _ => none

/-- `create_activation_layer` (`create_layer.py` 1439-1457) -/
noncomputable def createActivation (m : Model) (n : Node) : Option Made := do
  let x ← n.input? 0
  let o ← n.output?
  some (.activation (findSize (m.shape o)) (← activation m n), [x])

/-- `layer_type[node.op_type]` (`create_layer.py` 1460-1496) -/
noncomputable def create (m : Model) (n : Node) : Option Made :=
  match n.op with
  | .Softmax => createSoftmax m n
  | .BatchNormalization => createBatchNorm m n
  | .Conv => createConv m n
  | .Pad => createPad m n
  | .Concat => createConcat m n
  | .Gather => createGather m n
  | .GatherElements => createGatherElements m n
  | .Gemm => createGemm m n
  | .MatMul => createMatMul m n
  | .Transpose => createTranspose m n
  | .Tile => createTile m n
  | .ReduceSum => createReduce .sum 13 m n
  | .ReduceMax => createReduce .max 18 m n
  | .ReduceMin => createReduce .min 18 m n
  | .ReduceMean => createReduce .mean 18 m n
  | .ReduceProd => createReduce .prod 18 m n
  | .MaxPool => createMaxPool m n
  | .AveragePool => createAveragePool m n
  | .GlobalAveragePool => createGlobalAveragePool m n
  | .Add => createAdd m n
  | .Mul => createBin m n .mul (· * ·) 1
  | .Div => createBin m n .div (· / ·) 1
  | .Sub => createBin m n .sub (· - ·) 0
  | .Max => createMinMax m n .max
  | .Min => createMinMax m n .min
  | .Relu | .Tanh | .Sigmoid | .Clip | .Exp | .Log | .LeakyRelu => createActivation m n
  -- `Average(input_shapes=<list>)` raises (`Average.py`: `input_shapes[:, 1:]`)
  | .Mean => none
  | _ => none

end Verif.Onnx

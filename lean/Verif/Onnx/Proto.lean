import Verif.Onnx.Tensor
import Mathlib.Analysis.SpecialFunctions.Log.Basic

/-!
# ONNX models

The parts of an `onnx.ModelProto` that the importer reads.  Simplifications: attributes have the type required by the
operator (the ONNX checker rejects others) and distinct names; dimensions are not negative (`0`: symbolic or unset).
-/

namespace Verif.Onnx
open Net

/-- elements of a tensor: numbers are real, so that a `FLOAT` tensor is exact -/
inductive Payload
  | floats (l : List ℝ)
  | ints (l : List Int)

def Payload.reals : Payload → List ℝ
  | .floats l => l
  | .ints l => l.map (fun z : Int => (z : ℝ))

/-- `onnx.TensorProto` -/
structure Init where
  name : String
  dims : List Nat
  payload : Payload

/-- values of attributes -/
inductive Attr
  | int (z : Int)
  | ints (l : List Int)
  | float (x : ℝ)
  | str (s : String)
  /-- the attribute `value` of a Constant node -/
  | tensor (d : List Nat) (p : Payload)

/-- `op_type`: the keys of `layer_type` and `unused_layers` (`ONNX_importer/create_layer.py` 1460-1496, 1525-1533), or
any other string -/
inductive OpType
  | Softmax | BatchNormalization | Conv | Resize | Pad | Concat | Gather | GatherElements | Gemm | MatMul | Transpose | Tile
  | ReduceSum | ReduceMax | ReduceMin | ReduceMean | ReduceProd | MaxPool | AveragePool | GlobalAveragePool
  | Add | Mul | Div | Sub | Max | Min | Mean | LSTM | Relu | Tanh | Sigmoid | Clip | Exp | Log | LeakyRelu
  | Dropout | Constant | Unsqueeze | Reshape | LRN | Shape | Flatten
  | other (s : String)
  deriving DecidableEq

/-- `onnx.NodeProto` -/
structure Node where
  op : OpType
  inputs : List String
  outputs : List String
  attrs : List (String × Attr) := []

/-- `onnx.ModelProto`: name and dimensions of the graph's inputs, outputs and intermediate tensors, initializers, nodes,
`opset_import[0].version` -/
structure Model where
  inputs : List (String × List Nat)
  outputs : List (String × List Nat)
  valueInfo : List (String × List Nat)
  inits : List Init
  nodes : List Node
  opset : Nat

/-! ## Attributes -/

def Node.int? (n : Node) (k : String) : Option Int := match n.attrs.lookup k with | some (.int z) => some z | _ => none
def Node.ints? (n : Node) (k : String) : Option (List Int) := match n.attrs.lookup k with | some (.ints l) => some l | _ => none
def Node.float? (n : Node) (k : String) : Option ℝ := match n.attrs.lookup k with | some (.float x) => some x | _ => none
def Node.str? (n : Node) (k : String) : Option String := match n.attrs.lookup k with | some (.str s) => some s | _ => none

/-! ## Utility functions of `ONNX_importer/create_layer.py` -/

/-- `onnx.numpy_helper.to_array`: raises if the number of elements does not fit the dimensions -/
def Init.array (i : Init) : Option (Nd ℝ) :=
  if i.payload.reals.length = prod i.dims then some ⟨i.dims, i.payload.reals⟩ else none

/-- `to_array` of a tensor of integers -/
def Init.intArray (i : Init) : Option (List Nat × List Int) :=
  match i.payload with
  | .ints l => if l.length = prod i.dims then some (i.dims, l) else none
  | .floats _ => none

/-- `look_for_initializer` (`create_layer.py` 116-126); `none` is the empty list -/
def Model.init? (m : Model) (name : String) : Option Init :=
  if name = "" then none else m.inits.find? fun i => i.name = name

/-- the last entry with this name -/
def lastOf (l : List (String × List Nat)) (name : String) : Option (List Nat) :=
  ((l.filter fun e => e.1 = name).getLast?).map (·.2)

/-- `get_shape(name, model, extend=False)` (`create_layer.py` 140-175): the declared dimensions, those of the graph's
outputs before those of its inputs before `value_info`; 0 becomes 1 -/
def Model.rawShape (m : Model) (name : String) : List Nat :=
  ((((lastOf m.outputs name).or (lastOf m.inputs name)).or (lastOf m.valueInfo name)).getD []).map fun d => if d = 0 then 1 else d

/-- the extension to four dimensions (`create_layer.py` 173-174) -/
def extend4 (d : List Nat) : List Nat := if d = [] then [] else List.replicate (4 - d.length) 1 ++ d

/-- `get_shape(name, model)` -/
def Model.shape (m : Model) (name : String) : List Nat := extend4 (m.rawShape name)

/-- `find_size` (`create_layer.py` 178-184) -/
def findSize (d : List Nat) : Nat := d.foldl (fun s i => if i ≠ 0 then s * i else s) 1

/-- `shape[1]`, `shape[2]`, `shape[3]` (`IndexError` if there are fewer) -/
def shape3 (d : List Nat) : Option Shape :=
  match d with
  | _ :: c :: h :: w :: _ => some ⟨c, h, w⟩
  | _ => none

/-- `node.input[k]` (`IndexError` if there are fewer) -/
def Node.input? (n : Node) (k : Nat) : Option String := n.inputs[k]?

/-- `node.output[0]` -/
def Node.output? (n : Node) : Option String := n.outputs[0]?

end Verif.Onnx

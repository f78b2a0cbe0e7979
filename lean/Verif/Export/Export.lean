import Verif.Onnx.Proto
import Verif.Onnx.Tensor

/-!
# The exporter to ONNX

`exporters/ONNX_exporter/exporter_onnx.py` and `exporters/ONNX_exporter/acetone_to_onnx_layer.py`: the ONNX model built from the list of layers.  Not modelled:
the names of the nodes (`original_name`), the element types of the tensors except that integers and floating-point numbers are distinguished, and the
attributes of `Resize`.  Numbers are exact.
-/

namespace Verif.Export
open Net Layers Onnx

/-- A layer: its attributes and its activation function (`.linear` for the classes that have no attribute `activation_function`).  The function inside `op` is
replaced by that of `act` (`XLayer.full`). -/
structure XLayer where
  op : Op ℝ
  act : Act ℝ

/-- the layer with the given activation function -/
def setAct (f : ℝ → ℝ) : Op ℝ → Op ℝ
  | .input r s => .input r s
  | .constant v => .constant v
  | .dense p n w b _ => .dense p n w b f
  | .activation n _ => .activation n f
  | .flatten s => .flatten s
  | .matmul C C' H Kd W _ => .matmul C C' H Kd W f
  | .gemm tA tB M N Kd alpha beta w c _ => .gemm tA tB M N Kd alpha beta w c f
  | .conv i c wt b _ => .conv i c wt b f
  | .maxPool c _ => .maxPool c f
  | .avgPool c _ => .avgPool c f
  | .broadcast b o ss k _ => .broadcast b o ss k f
  | .concat a ss _ => .concat a ss f
  | .gather a s d idx _ => .gather a s d idx f
  | .gatherElements a s o idx _ => .gatherElements a s o idx f
  | .tile s rc rh rw _ => .tile s rc rh rw f
  | .transpose s p _ => .transpose s p f
  | .constantPad s p k _ => .constantPad s p k f
  | .pad m s p _ => .pad m s p f
  | .softmax s a _ => .softmax s a f
  | .batchNorm s e sc m v b _ => .batchNorm s e sc m v b f
  | .reduce fn c k _ => .reduce fn c k f
  | .resize i m e C h w _ => .resize i m e C h w f

noncomputable def XLayer.full (L : XLayer) : Op ℝ := setAct L.act.compute L.op

/-- A network: the graph, the layer of each index, the data format. -/
structure XNet where
  graph : Graph.Dnn
  layer : Nat → XLayer
  fmt : DataFormat

/-- the network in the sense of the interpreter -/
noncomputable def XNet.network (net : XNet) : Network ℝ := ⟨net.graph, fun n => (net.layer n).full, net.fmt⟩

/-! ## Names -/

/-- `activation_function.name.capitalize()` (`generator/activation_functions.py`, `ActivationLayer.py` 46) -/
def actName : Act ℝ → String
  | .sigmoid => "Sigmoid"
  | .silu => "Silu"
  | .relu => "Relu"
  | .leakyRelu _ => "Leakyrelu"
  | .tanh => "Hyperb_tan"
  | .linear => "Linear"
  | .exponential => "Exponential"
  | .logarithm => "Logarithm"
  | .clip _ _ => "Clip"

/-- `layer.name`, set by the constructors -/
def XLayer.name (L : XLayer) : String :=
  match L.op with
  | .input .. => "Input_layer"
  | .constant _ => "Constant"
  | .dense .. => "Dense"
  | .activation .. => actName L.act
  | .flatten _ => "Flatten"
  | .matmul .. => "MatMul"
  | .gemm .. => "Gemm"
  | .conv .. => "Conv2D"
  | .maxPool .. => "MaxPooling2D"
  | .avgPool .. => "AveragePooling2D"
  | .broadcast .add .. => "Add"
  | .broadcast .sub .. => "Subtract"
  | .broadcast .mul .. => "Multiply"
  | .broadcast .div .. => "Divide"
  | .broadcast .max .. => "Maximum"
  | .broadcast .min .. => "Minimum"
  | .broadcast .avg .. => "Average"
  | .concat .. => "Concatenate"
  | .gather .. => "Gather"
  | .gatherElements .. => "GatherElements"
  | .tile .. => "Tile"
  | .transpose .. => "Transpose"
  | .constantPad .. => "ConstantPad"
  | .pad .edge .. => "EdgePad"
  | .pad .reflect .. => "ReflectPad"
  | .pad .wrap .. => "WrapPad"
  | .softmax .. => "Softmax"
  | .batchNorm .. => "BatchNormalization"
  | .reduce .sum .. => "ReduceSum"
  | .reduce .prod .. => "ReduceProd"
  | .reduce .mean .. => "ReduceMean"
  | .reduce .max .. => "ReduceMax"
  | .reduce .min .. => "ReduceMin"
  | .resize (.nearest _) .. => "ResizeNearest"
  | .resize .linear .. => "ResizeLinear"
  | .resize (.cubic _) .. => "ResizeCubic"

/-- `f"{layer.name}_{layer.idx}"` followed by a suffix -/
def XLayer.tensor (L : XLayer) (i : Nat) (suffix : String := "") : String := L.name ++ "_" ++ toString i ++ suffix

/-- the activation function is exported as a node of its own: it is not Linear, and the layer is not an ActivationLayer (`acetone_to_onnx_layer.py` 88-93,
`exporter_onnx.py` 61-65) -/
def XLayer.fused (L : XLayer) : Bool :=
  match L.op, L.act with
  | .activation .., _ => false
  | _, .linear => false
  | _, _ => true

/-- the output of `generate_input_output_name` (`acetone_to_onnx_layer.py` 81-98) -/
def XLayer.dest (L : XLayer) (i : Nat) : String := if L.fused then L.tensor i "_pre_activation" else L.tensor i

/-! ## Exporters of the layers -/

/-- `get_activation_op_type` (`acetone_to_onnx_layer.py` 597-617) -/
def actOp : Act ℝ → OpType
  | .relu => .Relu
  | .tanh => .Tanh
  | .sigmoid => .Sigmoid
  | .exponential => .Exp
  | .logarithm => .Log
  | .leakyRelu _ => .LeakyRelu
  | .clip _ _ => .Clip
  | .silu => .other "Silu"
  | .linear => .other "Linear"

/-- `broadcast_layer.name[:3]` (`acetone_to_onnx_layer.py` 147) -/
def bopOp : BOp → OpType
  | .add => .Add
  | .sub => .Sub
  | .mul => .Mul
  | .div => .Div
  | .max => .Max
  | .min => .Min
  | .avg => .other "Ave"

/-- the value of an axis attribute -/
def axisInt : Np.Axis → Int
  | .c => 1
  | .h => 2
  | .w => 3

/-- `1 if not alpha else alpha[0]` (`acetone_to_onnx_layer.py` 350-351); `Gemm.py` 60-67 stores `[]` for the value 1.  The `1` is an integer. -/
noncomputable def factorAttr (a : ℝ) : Attr := open Classical in if a = 1 then .int 1 else .float a

/-- `create_initializer_tensor` (`acetone_to_onnx_layer.py` 68-79) with a floating-point type -/
def floats (name : String) (dims : List Nat) (l : List ℝ) : Init := ⟨name, dims, .floats l⟩
/-- with the type INT64 -/
def ints (name : String) (dims : List Nat) (l : List Int) : Init := ⟨name, dims, .ints l⟩

/-- an exported node and its initializers -/
abbrev Piece := Node × List Init

/-- the extra input of an element-wise layer, if any (`export_broadcast`, `acetone_to_onnx_layer.py` 151-168): the constant with its axes of length one removed,
or a neutral element if there is a single producer -/
def broadcastConst (L : XLayer) (i : Nat) (b : BOp) (cst : Option (Arr ℝ)) (ins : List String) : List Init :=
  match cst with
  | some k => [floats (L.tensor i "_constant") ([k.C, k.H, k.W].filter (· ≠ 1)) k.flat]
  | none =>
    if ins.length = 1 then
      match b with
      | .add | .sub => [floats (L.tensor i "_constant") [] [0]]
      | .mul | .div => [floats (L.tensor i "_constant") [] [1]]
      | _ => []
    else []

/-- The exporter of a layer with the tensors `ins` of its producers: `list_exporters` and the functions `export_*` (`acetone_to_onnx_layer.py` 103-689).  `none`: an
exception; `some none`: no entry in `list_exporters`.  The batch entries of `pads`, `repeats` and of the index arrays, which the model of the layers does not keep,
are those of one image; the `axes` of a Pad are empty. -/
noncomputable def exportNode (L : XLayer) (i : Nat) (ins : List String) : Option (Option Piece) :=
  let node (op : OpType) (inits : List Init) (attrs : List (String × Attr)) : Option (Option Piece) :=
    some (some (⟨op, ins ++ inits.map Init.name, [L.dest i], attrs⟩, inits))
  match L.op with
  | .input .. => some none
  | .constant _ => some none
  -- `export_activation` 619-644: neither `alpha` nor bounds
  | .activation .. =>
    match L.act with
    | .linear => some none
    | a => node (actOp a) [] []
  -- `export_dense` 228-259: an operator of the project's own
  | .dense p n w b _ => node (.other "Dense") [floats (L.tensor i "_weight") [p, n] (matrix p n w), floats (L.tensor i "_bias") [n] (tensor n b)] []
  -- `export_flatten` 261-277
  | .flatten _ => node .Flatten [] [("axis", .int 0)]
  -- `export_matmul` 371-406 reads `side` and `weights`, which the class MatMul does not define: AttributeError
  | .matmul .. => none
  -- `export_gemm` 333-368
  | .gemm tA tB _ N Kd alpha beta w c _ => node .Gemm
      [floats (L.tensor i "_weight") (if tB then [N, Kd] else [Kd, N]) (if tB then matrix N Kd w else matrix Kd N w), floats (L.tensor i "_bias") [N] (tensor N c)]
      [("alpha", factorAttr alpha), ("beta", factorAttr beta), ("transA", .int (if tA then 1 else 0)), ("transB", .int (if tB then 1 else 0))]
  -- `export_conv2d` 195-225
  | .conv _ c wt b _ => node .Conv
      [floats (L.tensor i "_weight") [c.filters, c.inC, c.kh, c.kw] (tensor4 c.filters c.inC c.kh c.kw wt), floats (L.tensor i "_bias") [c.filters] (tensor c.filters b)]
      [("kernel_shape", .ints [c.kh, c.kw]), ("pads", .ints [c.padRight, c.padLeft, c.padBottom, c.padTop]), ("strides", .ints [c.stride, c.stride]),
        ("dilations", .ints [c.dil, c.dil])]
  -- `export_pool` 408-430
  | .maxPool c _ => node .MaxPool []
      [("strides", .ints [c.stride, c.stride]), ("kernel_shape", .ints [c.pool, c.pool]), ("pads", .ints [c.padRight, c.padLeft, c.padBottom, c.padTop])]
  | .avgPool c _ => node .AveragePool []
      [("strides", .ints [c.stride, c.stride]), ("kernel_shape", .ints [c.pool, c.pool]), ("pads", .ints [c.padRight, c.padLeft, c.padBottom, c.padTop])]
  -- `export_broadcast` 141-174
  | .broadcast b _ _ cst _ => node (bopOp b) (broadcastConst L i b cst ins) []
  -- `export_concatenate` 176-193
  | .concat a _ _ => node .Concat [] [("axis", .int (axisInt a))]
  -- `export_gather` 279-304 and `export_gather_elements` 306-331: the indices have the floating-point type
  | .gather a _ d idx _ => node .Gather [floats (L.tensor i "_indices") d (idx.map fun (k : Nat) => (k : ℝ))] [("axis", .int (axisInt a))]
  | .gatherElements a _ o idx _ => node .GatherElements
      [floats (L.tensor i "_indices") [1, o.C, o.H, o.W] (tensor3 o.C o.H o.W fun f p q => (idx f p q : ℝ))] [("axis", .int (axisInt a))]
  -- `export_tile` 553-577: the repetitions have the floating-point type
  | .tile _ rc rh rw _ => node .Tile [floats (L.tensor i "_repeat") [4] [1, rc, rh, rw]] []
  -- `export_transpose` 579-595
  | .transpose _ p _ => node .Transpose [] [("perm", .ints [0, axisInt (p.axis .c), axisInt (p.axis .h), axisInt (p.axis .w)])]
  -- `export_pad` 448-489
  | .constantPad _ p k _ => some (some (⟨.Pad, ins ++ [L.tensor i "_pads", L.tensor i "_constant", ""], [L.dest i], [("mode", .str "constant")]⟩,
      [ints (L.tensor i "_pads") [8] [0, p.cf, p.hf, p.wf, 0, p.cb, p.hb, p.wb], floats (L.tensor i "_constant") [] [k]]))
  | .pad m _ p _ => some (some (⟨.Pad, ins ++ [L.tensor i "_pads", L.tensor i "_constant", ""], [L.dest i],
      [("mode", .str (match m with | .edge => "edge" | .reflect => "reflect" | .wrap => "wrap"))]⟩,
      [ints (L.tensor i "_pads") [8] [0, p.cf, p.hf, p.wf, 0, p.cb, p.hb, p.wb], floats (L.tensor i "_constant") [] [0]]))
  -- `export_softmax` 432-446: no axis
  | .softmax .. => node .Softmax [] []
  -- `export_batch_normalization` 103-139
  | .batchNorm s eps scale mean var bias _ => node .BatchNormalization
      [floats (L.tensor i "_scale") [s.C] (tensor s.C scale), floats (L.tensor i "_biases") [s.C] (tensor s.C bias),
        floats (L.tensor i "_mean") [s.C] (tensor s.C mean), floats (L.tensor i "_var") [s.C] (tensor s.C var)] [("epsilon", .float eps)]
  -- `export_reduce` 525-551
  | .reduce fn c keepdims _ => node (match fn with | .sum => .ReduceSum | .prod => .ReduceProd | .mean => .ReduceMean | .max => .ReduceMax | .min => .ReduceMin)
      [ints (L.tensor i "_axes") [c.axes.length] (c.axes.map fun (a : Nat) => (a : Int))]
      [("keepdims", .int (if keepdims then 1 else 0)), ("noop_with_empty_axes", .int (if c.noop then 1 else 0))]
  -- `export_resize` 491-523 (attributes not modelled)
  | .resize _ _ _ _ h w _ => some (some (⟨.Resize, ins ++ ["", L.tensor i "_scale", ""], [L.dest i], []⟩,
      [floats (L.tensor i "_scale") [4] [1, 1, h.scale, w.scale]]))

/-- The exporter of the activation function (`list_activation_exporters`, `acetone_to_onnx_layer.py` 694-878) -/
def exportAct (L : XLayer) (i : Nat) : Option Piece :=
  let node (op : OpType) (inits : List Init) (attrs : List (String × Attr)) : Option Piece :=
    some (⟨op, L.tensor i "_pre_activation" :: inits.map Init.name, [L.tensor i], attrs⟩, inits)
  match L.act with
  | .relu => node .Relu [] []
  | .silu => node (.other "Silu") [] []
  | .tanh => node .Tanh [] []
  | .leakyRelu a => node .LeakyRelu [] [("alpha", .float a)]
  | .sigmoid => node .Sigmoid [] []
  | .exponential => node .Exp [] []
  | .logarithm => node .Log [] []
  | .clip hi lo => node .Clip [floats (L.tensor i "_clip_min") [] [lo], floats (L.tensor i "_clip_max") [] [hi]] []
  | .linear => none

/-- One iteration of the loop (`exporter_onnx.py` 55-70): the nodes appended and the initializers appended. -/
noncomputable def exportLayer (L : XLayer) (i : Nat) (ins : List String) : Option (List Piece) := do
  let p ← exportNode L i ins
  some (p.toList ++ (if L.fused then (exportAct L i).toList else []))

/-- the names of the producers' tensors (`acetone_to_onnx_layer.py` 85-87) -/
def XNet.ins (net : XNet) (i : Nat) : List String := (net.graph.prevOf i).map fun p => (net.layer p).tensor p

/-- `export_input` (`acetone_to_onnx_layer.py` 880-895): `len(None)` raises for the classes that have no attribute `input_shape`; unknown dimensions become 1. -/
def exportInput (L : XLayer) (i : Nat) : Option (String × List Nat) :=
  match L.op with
  | .input true s => some (L.tensor i, [1, s.C, s.H, s.W])
  | .input false s => some (L.tensor i, [1, s.size])
  | .conv _ c _ _ _ => some (L.tensor i, [c.inC, c.inH, c.inW])
  | _ => none

/-- `export_output` (`acetone_to_onnx_layer.py` 897-923) -/
def exportOutput (L : XLayer) (i : Nat) : String × List Nat :=
  (L.tensor i,
    match L.op with
    | .input true s => [1, s.C, s.H, s.W]
    | .input false s => [1, s.size]
    | .softmax s axis _ =>
      if softmaxOneDim s.size s.C s.H s.W then
        match axis with
        | some .c => [1, s.size, 1, 1]
        | some .h => [1, 1, s.size, 1]
        | _ => [1, 1, 1, s.size]
      else [1, s.C, s.H, s.W]
    | op => match op.chans with
      | some s => [1, s.C, s.H, s.W]
      | none => [1, 1, 1, 1])

/-- `onnx_exporter` (`exporter_onnx.py` 37-79) on the list of layers `order`; `helper.make_model` declares the newest operator set `opset` of the installed `onnx`. -/
noncomputable def XNet.export (net : XNet) (opset : Nat) (order : List Nat) : Option Model := do
  let inputs ← (order.filter fun i => net.graph.prevOf i = []).mapM fun i => exportInput (net.layer i) i
  let pieces ← order.mapM fun i => exportLayer (net.layer i) i (net.ins i)
  some
    { inputs := inputs
      outputs := (order.filter fun i => net.graph.nextOf i = []).map fun i => exportOutput (net.layer i) i
      valueInfo := []
      inits := pieces.flatten.flatMap Prod.snd
      nodes := pieces.flatten.map Prod.fst
      opset := opset }

/-- `exporter` (`exporters/exporter.py` 29-40): the only format is `"onnx"`, another one raises `ValueError`. -/
noncomputable def exporter (format : String) (net : XNet) (opset : Nat) (order : List Nat) : Option Model :=
  if format = "onnx" then net.export opset order else none

end Verif.Export

import Verif.Onnx.Create

/-!
# `load_onnx`

Model of `importers/ONNX_importer/parser_ONNX.py` 63-159, after shape inference.
-/

namespace Verif.Onnx
open Net
open scoped Classical

/-- the nodes treated by `bypass` (`create_layer.py` 1503-1509, 1525-1533) -/
def OpType.isBypass : OpType → Bool
  | .Dropout | .Unsqueeze | .Reshape | .LRN | .Shape | .Flatten => true
  | _ => false

/-- the state of the first part of `load_onnx`: the initializers of `model` grow with Constant nodes; the index of a layer is
its position -/
structure State where
  model : Model
  layers : List (Op ℝ)
  /-- `dict_input`, in insertion order -/
  dictIn : List (Nat × List String)
  /-- `dict_output` -/
  dictOut : String → Option Nat

def setOut (d : String → Option Nat) (k : String) (v : Option Nat) : String → Option Nat := fun s => if s = k then v else d s

/-- `create_input_layer` (`create_layer.py` 191-210): the size is the product of the known dimensions -/
noncomputable def inputOp (d : List Nat) : Op ℝ :=
  match d with
  | [n, c, h, w] => if c * h * w = findSize [n, c, h, w] then .input true ⟨c, h, w⟩ else .input true ⟨1, 1, findSize [n, c, h, w]⟩
  | d => .input false ⟨1, 1, findSize d⟩

/-- the input layers (`parser_ONNX.py` 88-91) -/
noncomputable def start (m : Model) : State where
  model := m
  layers := m.inputs.map fun e => inputOp e.2
  dictIn := []
  dictOut := (m.inputs.zipIdx).foldl (fun d e => setOut d e.1.1 (some e.2)) fun _ => none

/-- one iteration of the loop on the nodes (`parser_ONNX.py` 105-125); `create_initializer` (`create_layer.py` 1512-1521)
adds a tensor without dimensions -/
noncomputable def step (st : State) (n : Node) : Option State :=
  if n.op.isBypass then do
    let i ← n.input? 0
    let o ← n.output?
    let k ← st.dictOut i
    some { st with dictOut := setOut (setOut st.dictOut i none) o (some k) }
  else if n.op = .Constant then do
    let o ← n.output?
    match n.attrs with
    | (_, .tensor _ p) :: _ => some { st with model := { st.model with inits := st.model.inits ++ [⟨o, [], p⟩] } }
    | _ => none
  else do
    let (op, ins) ← create st.model n
    let o ← n.output?
    some { st with
      layers := st.layers ++ [op]
      dictIn := st.dictIn ++ [(st.layers.length, ins)]
      dictOut := setOut st.dictOut o (some st.layers.length) }

/-- the state of the second part: the links as pairs producer, consumer -/
structure LinkState where
  layers : List (Op ℝ)
  dictOut : String → Option Nat
  links : List (Nat × Nat)

/-- `init_dict` (`parser_ONNX.py` 94) -/
def initDict (m : Model) (name : String) : Option Init := m.inits.reverse.find? fun i => i.name = name

/-- an input name of layer `k` (`parser_ONNX.py` 131-145): a name without producer must be an initializer, for which a
constant layer is created (`create_initializer_layer`, `create_layer.py` 213-229) -/
noncomputable def linkName (m : Model) (k : Nat) (st : LinkState) (name : String) : Option LinkState :=
  match st.dictOut name with
  | some p => some { st with links := st.links ++ [(p, k)] }
  | none => do
    let t ← (← initDict m name).array
    some ⟨st.layers ++ [.constant t], setOut st.dictOut name (some st.layers.length), st.links ++ [(st.layers.length, k)]⟩

/-- the layers after the linking loop (`parser_ONNX.py` 127-145) -/
noncomputable def linkAll (m : Model) (dictIn : List (Nat × List String)) (st : LinkState) : Option LinkState :=
  dictIn.foldlM (fun st e => e.2.foldlM (linkName m e.1) st) st

/-- `isinstance(layer, ConstantLayer)` -/
def isConstant : Op ℝ → Bool
  | .constant _ => true
  | _ => false

/-- the graph -/
noncomputable def LinkState.graph (st : LinkState) : Graph.Dnn :=
  (List.range st.layers.length).map fun k => ⟨k, (st.links.filter fun e => e.2 = k).map (·.1), (st.links.filter fun e => e.1 = k).map (·.2),
    ((st.layers[k]?).map isConstant).getD false⟩

/-- the network; models of this importer are channels-first -/
noncomputable def LinkState.net (st : LinkState) : Network ℝ :=
  ⟨st.graph, fun k => (st.layers[k]?).getD (.constant ⟨[], []⟩), .first⟩

/-- `load_onnx`: the network before `tri_topo` (the type of the first input is read, so there must be one) -/
noncomputable def importNet (m : Model) : Option (Network ℝ) := do
  let st ← m.nodes.foldlM step (start m)
  let ls ← linkAll m st.dictIn ⟨st.layers, st.dictOut, []⟩
  if m.inputs = [] then none else some ls.net

/-- `load_onnx`: the network and the result of `tri_topo` -/
noncomputable def loadOnnx (m : Model) : Option (Network ℝ × Graph.Plan) := do
  let net ← importNet m
  let plan ← Graph.triTopo net.graph
  some (net, plan)

end Verif.Onnx

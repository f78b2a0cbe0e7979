import Verif.Onnx.Create

/-!
# Exported PyTorch programs

What `importers/PYTORCH_importer/parse_pytorch.py` reads of an `ExportedProgram`: the nodes of the fx graph of `program.module()` in their order,
each with its name, the shape of `node.meta['val']` and, for a call, the name of the operator overload and the arguments.  `state_dict()[node.target]`
of a `get_attr` node is attached to the node.
-/

namespace Verif.Torch
open Net

/-- a positional argument: a node, a list of nodes, a Python constant (`absent` is `None`) -/
inductive Arg
  | node (name : String)
  | nodes (names : List String)
  | int (k : Int)
  | ints (ks : List Int)
  | num (v : ℝ)
  | bool (b : Bool)
  | absent

inductive Kind
  /-- `channelsLast`: `is_contiguous(memory_format=torch.channels_last)` -/
  | placeholder (channelsLast : Bool)
  /-- a parameter or buffer -/
  | getAttr (value : Nd ℝ)
  /-- `target.__name__`, for instance `conv2d.default`, the positional arguments and the names of the keyword arguments -/
  | call (target : String) (args : List Arg) (kwargs : List (String × Arg))
  /-- the node that returns a tensor -/
  | output (name : String)
  /-- the kinds of nodes for which the visitor does nothing -/
  | other

structure Node where
  name : String
  shape : List Nat
  kind : Kind

/-- the nodes of the graph; `names` of an fx graph are unique -/
structure Program where
  nodes : List Node

/-- the node names in an argument -/
def Arg.names : Arg → List String
  | .node s => [s]
  | .nodes l => l
  | _ => []

/-- the names a node reads -/
def Node.reads (n : Node) : List String :=
  match n.kind with
  | .call _ args _ => args.flatMap Arg.names
  | .output s => [s]
  | _ => []

end Verif.Torch

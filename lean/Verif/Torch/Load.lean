import Verif.Torch.Proto
import Verif.Keras.Load

/-!
# `load_pytorch`

Model of `importers/PYTORCH_importer/parse_pytorch.py`.  `none`: an exception.
-/

namespace Verif.Torch
open Net Layers Gen
open Onnx (prod nat? npAxis poolP)
open scoped Classical

/-- `sub` occurs in a list of characters -/
def isIn (sub : List Char) : List Char → Bool
  | [] => sub.isPrefixOf []
  | c :: t => sub.isPrefixOf (c :: t) || isIn sub t

/-- Python's `sub in t` on strings -/
def has (sub t : String) : Bool := isIn sub.toList t.toList

/-- the branches of `visit_call_function` -/
inductive Branch
  | linear | relu | clamp | conv2d | batchNorm | add | cat | alias | maxPool | avgPool | ignored
  deriving DecidableEq, Repr

/-- the tests on `target_name`, in their order (`parse_pytorch.py` 130-262); `alias` is the branch of `dropout` and of `flatten` -/
def branch (t : String) : Branch :=
  if has "linear" t then .linear
  else if has "relu" t then .relu
  else if has "clamp" t then .clamp
  else if has "conv2d" t then .conv2d
  else if has "batch_norm" t then .batchNorm
  else if has "add" t then .add
  else if has "cat" t then .cat
  else if has "dropout" t then .alias
  else if has "flatten" t then .alias
  else if has "max_pool2d" t then .maxPool
  else if has "adaptive_avg_pool2d" t then .avgPool
  else .ignored

/-- `self.module.state_dict()[node.args[k].target]`: `KeyError` or `AttributeError` if the argument is not a `get_attr` node -/
def Program.param (p : Program) (a : Arg) : Option (Nd ℝ) :=
  match a with
  | .node s => (p.nodes.find? fun n => n.name = s).bind fun n =>
    match n.kind with
    | .getAttr v => some v
    | _ => none
  | _ => none

/-- `node.args[k][0]` of a list of integers -/
def Arg.head? : Arg → Option Int
  | .ints l => l.head?
  | _ => none

/-- a number, as `Clip` and the folding of `batch_norm` use it -/
noncomputable def Arg.number? : Arg → Option ℝ
  | .int k => some k
  | .num v => some v
  | _ => none

/-- `node.args[k].name` -/
def Arg.name? : Arg → Option String
  | .node s => some s
  | _ => none

/-- `node.args[k] + node.args[k]`, the padding given to the layers, `[0, 0, 0, 0]` if the argument is absent -/
def padding? (args : List Arg) (k : Nat) : Option Gen.Padding :=
  match args[k]? with
  | none => some (.list [0, 0, 0, 0])
  | some (.ints l) => some (.list (l ++ l))
  | some _ => none

/-- The visitor's state: the layers and links (`nb` is not used), and `layerdic`: for a node name the index of its layer and a shape.  Names are
unique, so an assignment to `layerdic` appends. -/
structure State where
  net : Keras.State
  dic : List (String × Nat × List Nat)
  fmt : DataFormat

def State.look (st : State) (s : String) : Option (Nat × List Nat) := (st.dic.find? fun e => e.1 = s).map Prod.snd

/-- the entries 1, 2 and 3 of a shape of rank four; other ranks raise (ranks above four are not modelled) -/
def shape4 (d : List Nat) : Option Shape :=
  match d with
  | [_, c, h, w] => some ⟨c, h, w⟩
  | _ => none

/-- a new layer with the next index, its producers, its name -/
def State.push (st : State) (name : String) (shape : List Nat) (op : Op ℝ) (prev : List Nat) : State :=
  let idx := st.net.layers.length
  ⟨⟨st.net.layers ++ [(idx, op)], st.net.links ++ prev.map fun q => (q, idx), st.net.nb⟩, st.dic ++ [(name, idx, shape)], st.fmt⟩

/-- a name for the layer of another name -/
def State.alias (st : State) (name : String) (e : Nat × List Nat) : State := { st with dic := st.dic ++ [(name, e)] }

/-- the attributes of the layer at an index are changed -/
def State.change (st : State) (k : Nat) (f : Nat × Op ℝ → Nat × Op ℝ) : State :=
  { st with net := { st.net with layers := st.net.layers.modify k f } }

/-- the attribute `activation_function` of a layer; setting it has no effect on an input layer -/
def setAct (f : ℝ → ℝ) : Op ℝ → Op ℝ
  | .dense i o w b _ => .dense i o w b f
  | .conv m c w b _ => .conv m c w b f
  | .maxPool c _ => .maxPool c f
  | .avgPool c _ => .avgPool c f
  | .broadcast b o ss c _ => .broadcast b o ss c f
  | .concat a ss _ => .concat a ss f
  | op => op

/-- the input layer (`parse_pytorch.py` 112-127; `Input.py` 66-78: the dimensions are positive) -/
def inputOp (d : List Nat) : Option (Op ℝ) :=
  if ∀ k ∈ d, 0 < k then
    some (match d with
    | [_, c, h, w] => .input true ⟨c, h, w⟩
    | d => .input false ⟨1, 1, prod d⟩)
  else none

/-- the weight matrix is transposed (`parse_pytorch.py` 130-140), with the checks of `Dense.py` 70-83; a weight has rank two -/
noncomputable def createLinear (shape : List Nat) (w b : Nd ℝ) : Option (Op ℝ) :=
  match w.dims with
  | [o, i] => if prod shape = o ∧ b.dims.head? = some o then some (.dense i o (fun p q => w.get [q, p]) (fun q => b.get [q]) id) else none
  | _ => none

/-- Conv2D (`parse_pytorch.py` 152-183) and `Conv2D.py` 50-108 with the checks of 170-223: the last dimension of the weight is used for both
dimensions of the kernel, `stride[0]` and `dilation[0]` for both axes, and the computation does not use `group`. -/
noncomputable def createConv (inShape shape : List Nat) (w b : Nd ℝ) (stride dil : Nat) (padding : Gen.Padding) (group : Nat) : Option (Op ℝ) := do
  let i ← shape4 inShape
  let os ← shape4 shape
  let k ← w.dims.getLast?
  let p ← computePadding padding i.H i.W k k stride dil
  let c : ConvP := ⟨os.C, i.C, i.H, i.W, os.H, os.W, k, k, stride, dil, ← nat? p.top, ← nat? p.bottom, ← nat? p.left, ← nat? p.right⟩
  if group ≠ 0 ∧ prod shape = os.C * os.H * os.W ∧ w.dims = [os.C, i.C / group, k, k] ∧ b.dims = [os.C] ∧ c.Accepted then
    some (.conv .loops6 c (fun f q a b => w.get [f, q, a, b]) (fun f => b.get [f]) id)
  else none

/-- Add (`parse_pytorch.py` 199-214) with the checks of `Broadcast.py` 92-113 -/
def createAdd (inShapes : List (List Nat)) (shape : List Nat) : Option (Op ℝ) := do
  let ss ← inShapes.mapM shape4
  let o ← shape4 shape
  if prod shape = o.size ∧ o.C = (ss.map Shape.C).foldl max 0 ∧ o.H = (ss.map Shape.H).foldl max 0 ∧ o.W = (ss.map Shape.W).foldl max 0 ∧
      ∀ s ∈ ss, (s.C = 1 ∨ s.C = o.C) ∧ (s.H = 1 ∨ s.H = o.H) ∧ (s.W = 1 ∨ s.W = o.W) then
    some (.broadcast .add o ss none id) else none

/-- Concatenate (`parse_pytorch.py` 215-230) with the checks of `Concatenate.py` 93-128 -/
def createCat (axis : Int) (inShapes : List (List Nat)) (shape : List Nat) : Option (Op ℝ) := do
  let ss ← inShapes.mapM shape4
  let o ← shape4 shape
  let a ← npAxis axis
  if prod shape = o.size ∧ (∀ s ∈ ss, (a ≠ .c → s.C = o.C) ∧ (a ≠ .h → s.H = o.H) ∧ (a ≠ .w → s.W = o.W)) ∧
      (a = .c → (ss.map Shape.C).sum = o.C) ∧ (a = .h → (ss.map Shape.H).sum = o.H) ∧ (a = .w → (ss.map Shape.W).sum = o.W) then
    some (.concat a ss id) else none

/-- `Pooling2D.py` 50-137 -/
noncomputable def createPool (inShape shape : List Nat) (kernel stride : Nat) (padding : Gen.Padding) : Option PoolP := do
  let i ← shape4 inShape
  let os ← shape4 shape
  if prod shape = i.C * os.H * os.W then poolP i os stride kernel padding else none

/-- `batch_norm` is folded into the weights and biases of its producer (`parse_pytorch.py` 184-198): the first axis of the weights is scaled, which
for a Dense layer, whose weights are transposed, is the axis of its inputs.  Layers without weights raise.  A Dense layer of other dimensions
raises now or when it is computed (the scaled weights have another shape). -/
noncomputable def foldNorm (w b rm rv : Nd ℝ) (eps : ℝ) : Op ℝ → Option (Op ℝ)
  | .conv m c wt bias f =>
    if w.dims = [c.filters] ∧ b.dims = [c.filters] ∧ rm.dims = [c.filters] ∧ rv.dims = [c.filters] then
      some (.conv m c (fun o q a e => wt o q a e * (w.get [o] * (1 / Real.sqrt (rv.get [o] + eps))))
        (fun o => (bias o - rm.get [o]) * (1 / Real.sqrt (rv.get [o] + eps)) * w.get [o] + b.get [o]) f)
    else none
  | .dense i o wt bias f =>
    if (i = o ∨ o = 1) ∧ w.dims = [o] ∧ b.dims = [o] ∧ rm.dims = [o] ∧ rv.dims = [o] then
      some (.dense i o (fun p q => wt p q * (let r := if o = 1 then 0 else p; w.get [r] * (1 / Real.sqrt (rv.get [r] + eps))))
        (fun q => (bias q - rm.get [q]) * (1 / Real.sqrt (rv.get [q] + eps)) * w.get [q] + b.get [q]) f)
    else none
  | _ => none

/-- one call of `visit_call_function` -/
noncomputable def Program.callStep (p : Program) (st : State) (name : String) (shape : List Nat) (t : String) (args : List Arg) : Option State := do
  match branch t with
  | .linear =>
    let w ← p.param (← args[1]?)
    let b ← p.param (← args[2]?)
    let op ← createLinear shape w b
    let e ← st.look (← (← args[0]?).name?)
    some (st.push name shape op [e.1])
  | .relu =>
    let e ← st.look (← (← args[0]?).name?)
    some ((st.change e.1 fun l => (l.1, setAct (Act.compute .relu) l.2)).alias name e)
  | .clamp =>
    let hi ← (← args[2]?).number?
    let lo ← (← args[1]?).number?
    if hi < lo then none
    else
      let e ← st.look (← (← args[0]?).name?)
      some ((st.change e.1 fun l => (l.1, setAct (Act.compute (.clip hi lo)) l.2)).alias name e)
  | .conv2d =>
    let stride ← nat? (← (match args[3]? with | some a => a.head? | none => some 1 : Option Int))
    let padding ← padding? args 4
    let dil ← nat? (← (match args[5]? with | some a => a.head? | none => some 1 : Option Int))
    let group ← (match (args[6]? : Option Arg) with | some (.int g) => nat? g | some _ => none | none => some 1 : Option Nat)
    let w ← p.param (← args[1]?)
    let e ← st.look (← (← args[0]?).name?)
    let b ← (match ← args[2]? with | .absent => some ⟨[shape.getD 1 0], List.replicate (shape.getD 1 0) 0⟩ | a => p.param a : Option (Nd ℝ))
    let op ← createConv e.2 shape w b stride dil padding group
    some (st.push name shape op [e.1])
  | .batchNorm =>
    let e ← st.look (← (← args[0]?).name?)
    let w ← p.param (← args[1]?)
    let b ← p.param (← args[2]?)
    let rm ← p.param (← args[3]?)
    let rv ← p.param (← args[4]?)
    let eps ← (← args[7]?).number?
    let l ← st.net.layers[e.1]?
    let op ← foldNorm w b rm rv eps l.2
    some ((st.change e.1 fun l => (l.1, op)).alias name e)
  | .add =>
    let s ← (← args[0]?).name?
    if (st.look s).isSome then
      let es ← args.mapM fun a => do st.look (← a.name?)
      let op ← createAdd (es.map Prod.snd) shape
      some (st.push name shape op (es.map Prod.fst))
    else some st
  | .cat =>
    let axis ← (match ← args[1]? with | .int k => some k | _ => none : Option Int)
    let l ← (match ← args[0]? with | .nodes l => some l | _ => none : Option (List String))
    let es ← l.mapM st.look
    let op ← createCat axis (es.map Prod.snd) shape
    some (st.push name shape op (es.map Prod.fst))
  | .alias =>
    let e ← st.look (← (← args[0]?).name?)
    some (st.alias name e)
  | .maxPool =>
    let kernel ← nat? (← (match args[1]? with | some a => a.head? | none => some 1 : Option Int))
    let stride ← nat? (← (match args[2]? with | some a => a.head? | none => some 1 : Option Int))
    let padding ← padding? args 3
    let e ← st.look (← (← args[0]?).name?)
    let c ← createPool e.2 shape kernel stride padding
    some (st.push name shape (.maxPool c id) [e.1])
  | .avgPool =>
    let e ← st.look (← (← args[0]?).name?)
    let c ← createPool e.2 shape (← e.2.getLast?) 1 (.list [0, 0, 0, 0])
    some (st.push name shape (.avgPool c id) [e.1])
  | .ignored => some st

/-- `visit_node` (`parse_pytorch.py` 49-61, 112-276) -/
noncomputable def Program.step (p : Program) (st : State) (n : Node) : Option State :=
  match n.kind with
  | .placeholder l => do
    let op ← inputOp n.shape
    some { st.push n.name n.shape op [] with fmt := if l then .last else .first }
  | .call t args _ => p.callStep st n.name n.shape t args
  | .getAttr _ | .output _ | .other => some st

/-- the visit of the graph -/
noncomputable def Program.built (p : Program) : Option State := p.nodes.foldlM p.step ⟨⟨[], [], 0⟩, [], .first⟩

/-- the list `[l[0] for l in layerdic.values()]` given to `tri_topo`: a layer occurs once for each of its names -/
def State.listed (st : State) : Graph.Dnn :=
  st.dic.map fun e => ⟨e.2.1, (st.net.links.filter fun k => k.2 = e.2.1).map (·.1), (st.net.links.filter fun k => k.1 = e.2.1).map (·.2), false⟩

/-- the network of the layers -/
noncomputable def State.network (st : State) : Network ℝ := ⟨st.net.graph, st.net.net.op, st.fmt⟩

/-- `load_pytorch`: the network and the result of `tri_topo` -/
noncomputable def loadTorch (p : Program) : Option (Network ℝ × Graph.Plan) := do
  let st ← p.built
  let plan ← Graph.triTopo st.listed
  some (st.network, plan)

end Verif.Torch

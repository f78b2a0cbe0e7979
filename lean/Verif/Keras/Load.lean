import Verif.Keras.Proto

/-!
# `load_keras`

Model of `importers/H5_importer/parser_h5.py`.  `none`: an exception.
-/

namespace Verif.Keras
open Net Layers Gen
open Onnx (prod nat? npAxis poolP)
open scoped Classical

/-- `get_input_dimensions(..)[1:]`, `get_output_dimensions(..)[1:]` (`parser_h5.py` 83-116) where the entries 1, 2 and 3 are read: a shape
`(None, H, W, C)` is permuted to `(None, C, H, W)`.  Shorter shapes have no entry 3; longer ones are not modelled. -/
def shape4 (d : List Nat) : Option Shape :=
  match d with
  | [h, w, c] => some ⟨c, h, w⟩
  | _ => none

/-- `create_actv_function_obj` (`parser_h5.py` 119-139): softmax becomes a layer of its own -/
noncomputable def actFn : Activation → Option (ℝ → ℝ)
  | .sigmoid => some (Act.compute .sigmoid)
  | .relu => some (Act.compute .relu)
  | .tanh => some (Act.compute .tanh)
  | .linear => some id
  | .leakyRelu => some (Act.compute (.leakyRelu 0.2))
  | .softmax => some id
  | .swish => some (Act.compute .silu)
  | .other => none

/-- the string given to the layer -/
def Padding.str : Padding → Gen.Padding
  | .valid => .str "valid"
  | .same => .str "same"

/-- Dense (`parser_h5.py` 216-234) with the checks of `Dense.py` 70-83.  `weights` is extended to rank four, which does not change its elements;
kernels of Dense layers have rank two. -/
noncomputable def createDense (l : Layer) (ws : List (Nd ℝ)) (a : Activation) : Option (Op ℝ) := do
  let W ← ws[0]?
  let B ← ws[1]?
  let f ← actFn a
  match W.dims with
  | [i, o] =>
    if prod l.outShape = o ∧ B.dims.head? = some o then some (.dense i o (fun p q => W.get [p, q]) (fun q => B.get [q]) f) else none
  | _ => none

/-- Conv2D (`parser_h5.py` 236-269) and `Conv2D.py` 50-108 with the checks of 170-223; `strides[0]` and `dilation_rate[0]` are used for both
axes, `groups` is not read.  After `np.moveaxis(w, -1, 0)` and `np.moveaxis(w, -1, 1)`, the element `[f, c, a, b]` is the element `[a, b, c, f]` of
the kernel. -/
noncomputable def createConv (l : Layer) (ws : List (Nd ℝ)) (filters : Nat) (kernel strides dilation : Nat × Nat) (padding : Padding)
    (a : Activation) : Option (Op ℝ) := do
  let W ← ws[0]?
  let B ← ws[1]?
  let i ← shape4 (← l.inShapes.head?)
  let os ← shape4 l.outShape
  let f ← actFn a
  let p ← computePadding padding.str i.H i.W kernel.1 kernel.2 strides.1 dilation.1
  let c : ConvP := ⟨filters, i.C, i.H, i.W, os.H, os.W, kernel.1, kernel.2, strides.1, dilation.1, ← nat? p.top, ← nat? p.bottom, ← nat? p.left,
    ← nat? p.right⟩
  if prod l.outShape = filters * os.H * os.W ∧ W.dims = [kernel.1, kernel.2, i.C, filters] ∧ B.dims = [filters] ∧ c.Accepted then
    some (.conv .loops6 c (fun f q a b => W.get [a, b, q, f]) (fun f => B.get [f]) f)
  else none

/-- AveragePooling2D, MaxPooling2D (`parser_h5.py` 271-301) and `Pooling2D.py` 50-137 -/
noncomputable def createPool (l : Layer) (pool strides : Nat × Nat) (padding : Padding) : Option PoolP := do
  let i ← shape4 (← l.inShapes.head?)
  let os ← shape4 l.outShape
  if prod l.outShape = i.C * os.H * os.W then poolP i os strides.1 pool.1 padding.str else none

/-- Flatten (`parser_h5.py` 303-310) with the check of `Flatten.py` 64-67 -/
def createFlatten (l : Layer) : Option (Op ℝ) := do
  let s ← shape4 (← l.inShapes.head?)
  if prod l.outShape = s.size then some (.flatten s) else none

/-- Add, Multiply, Subtract, Maximum, Minimum, Average (`parser_h5.py` 312-388) with the checks of `Broadcast.py` 92-113; one input raises
(`input_shapes` has rank one) -/
def createBroadcast (l : Layer) (op : BOp) : Option (Op ℝ) := do
  let ss ← l.inShapes.mapM shape4
  let o ← shape4 l.outShape
  if 2 ≤ ss.length ∧ prod l.outShape = o.size ∧ o.C = (ss.map Shape.C).foldl max 0 ∧ o.H = (ss.map Shape.H).foldl max 0 ∧
      o.W = (ss.map Shape.W).foldl max 0 then some (.broadcast op o ss none id) else none

/-- Concatenate (`parser_h5.py` 390-405): `axis = 1 if axis == 3 else axis + 1`, with the checks of `Concatenate.py` 93-128 -/
def createConcat (l : Layer) (axis : Int) : Option (Op ℝ) := do
  let ss ← l.inShapes.mapM shape4
  let o ← shape4 l.outShape
  let a ← npAxis (if axis = 3 then 1 else axis + 1)
  if 2 ≤ ss.length ∧ prod l.outShape = o.size ∧ (∀ s ∈ ss, (a ≠ .c → s.C = o.C) ∧ (a ≠ .h → s.H = o.H) ∧ (a ≠ .w → s.W = o.W)) ∧
      (a = .c → (ss.map Shape.C).sum = o.C) ∧ (a = .h → (ss.map Shape.H).sum = o.H) ∧ (a = .w → (ss.map Shape.W).sum = o.W) then
    some (.concat a ss id) else none

/-- the pads of ZeroPadding2D (`parser_h5.py` 407-418): top, bottom, left, right -/
def ZeroPad.pads : ZeroPad → Pads3
  | .one p => ⟨0, 0, p, p, p, p⟩
  | .two h w => ⟨0, 0, h, h, w, w⟩
  | .four t b l r => ⟨0, 0, t, b, l, r⟩

/-- ZeroPadding2D (`parser_h5.py` 407-428) with the check of `Pad.py` 103-108 -/
def createPad (l : Layer) (p : ZeroPad) : Option (Op ℝ) := do
  let s ← shape4 (← l.inShapes.head?)
  if prod l.outShape = (padShape s p.pads).size then some (.constantPad s p.pads 0 id) else none

/-- BatchNormalization (`parser_h5.py` 430-442): the four first weights, whatever `scale`, `center` and `axis`; with the checks of
`BatchNormalization.py` 100-121 -/
noncomputable def createBatchNorm (l : Layer) (eps : ℝ) (ws : List (Nd ℝ)) : Option (Op ℝ) := do
  let s ← shape4 (← l.inShapes.head?)
  let scale ← ws[0]?
  let bias ← ws[1]?
  let mean ← ws[2]?
  let var ← ws[3]?
  if prod l.outShape = s.size ∧ scale.dims = [s.C] ∧ bias.dims = [s.C] ∧ mean.dims = [s.C] ∧ var.dims = [s.C] then
    some (.batchNorm s eps (fun c => scale.get [c]) (fun c => mean.get [c]) (fun c => var.get [c]) (fun c => bias.get [c]) id)
  else none

/-- the layer made for a Keras layer; the other classes, and an InputLayer that is not the first layer, raise `TypeError` -/
noncomputable def create (l : Layer) : Option (Op ℝ) :=
  match l.kind with
  | .dense ws a => createDense l ws a
  | .conv2D ws filters kernel strides dilation padding _ a => createConv l ws filters kernel strides dilation padding a
  | .maxPooling2D pool strides padding => (createPool l pool strides padding).map fun c => .maxPool c id
  | .averagePooling2D pool strides padding => (createPool l pool strides padding).map fun c => .avgPool c id
  | .flatten => createFlatten l
  | .add => createBroadcast l .add
  | .multiply => createBroadcast l .mul
  | .subtract => createBroadcast l .sub
  | .maximum => createBroadcast l .max
  | .minimum => createBroadcast l .min
  | .average => createBroadcast l .avg
  | .concatenate axis => createConcat l axis
  | .zeroPadding2D p => createPad l p
  | .batchNormalization _ eps _ _ ws => createBatchNorm l eps ws
  | .inputLayer | .reshape _ | .dropout | .other => none

/-- the Softmax layer added for an activation (`parser_h5.py` 475-490), with `axis=None`: one-dimensional if the size is one of the
dimensions; output shapes of other ranks than 1 and 3 are not modelled -/
def softmaxOp (l : Layer) : Option (Op ℝ) :=
  match l.outShape with
  | [n] => some (.softmax ⟨1, 1, n⟩ none id)
  | [h, w, c] => some (.softmax ⟨c, h, w⟩ none id)
  | _ => none

/-- The lists built by the loop: the layers, each with its index, and the links as pairs producer, consumer of indices; `nb` is
`nb_softmax_layers`. -/
structure State where
  layers : List (Nat × Op ℝ)
  links : List (Nat × Nat)
  nb : Nat

/-- the input layer (`parser_h5.py` 182-199, `Input.py` 66-78: the dimensions are positive, for their product without zeros is the size) -/
def inputOp (d : List Nat) : Option (Op ℝ) :=
  if ∀ k ∈ d, 0 < k then
    some (match d with
    | [h, w, c] => .input true ⟨c, h, w⟩
    | d => .input false ⟨1, 1, prod d⟩)
  else none

/-- the first layer is an InputLayer: 1, otherwise 0 (`parser_h5.py` 182-199) -/
def Model.start (m : Model) : Nat := if (m.layers.head?).any fun l => l.kind.isInput then 1 else 0

/-- the state before the loop -/
def Model.init (m : Model) : Option State := do
  let l ← m.layers.head?
  let op ← inputOp (if l.kind.isInput then l.outShape else m.inputShape)
  some ⟨[(0, op)], [], 0⟩

/-- the positions in `layers` of the producers (`parser_h5.py` 452-470): the previous one for a Sequential model, otherwise the positions in
`model.layers` of the layers with the names of the producers; a name that is not found is passed over -/
def Model.producers (m : Model) (idx : Nat) (l : Layer) : List Nat :=
  if m.sequential then (if 1 ≤ idx then [idx - 1] else [])
  else l.inputs.filterMap fun s => m.layers.findIdx? fun k => k.name = s

/-- one iteration of the loop (`parser_h5.py` 205-490) on the layer at position `i`; `layers[..]` raises out of range -/
noncomputable def Model.step (m : Model) (st : State) (e : Nat × Layer) : Option State :=
  let idx := e.1 + 1 - m.start + st.nb
  if e.2.kind.skipped then some st
  else do
    let op ← create e.2
    let prev ← (m.producers idx e.2).mapM fun p => (st.layers[p]?).map Prod.fst
    let layers := st.layers ++ [(idx, op)]
    let links := st.links ++ prev.map fun p => (p, idx)
    if e.2.kind.softmaxed then do
      let sm ← softmaxOp e.2
      some ⟨layers ++ [(idx + 1, sm)], links ++ [(idx, idx + 1)], st.nb + 1⟩
    else some ⟨layers, links, st.nb⟩

/-- `enumerate(model.layers)` without the first `start` elements -/
def Model.rest (m : Model) : List (Nat × Layer) := (m.layers.zipIdx.map fun e => (e.2, e.1)).drop m.start

/-- the state after the loop -/
noncomputable def Model.built (m : Model) : Option State := do
  let st ← m.init
  m.rest.foldlM m.step st

/-- the graph; there are no constant layers -/
def State.graph (st : State) : Graph.Dnn :=
  st.layers.map fun e => ⟨e.1, (st.links.filter fun k => k.2 = e.1).map (·.1), (st.links.filter fun k => k.1 = e.1).map (·.2), false⟩

/-- the network, with `data_format = "channels_last"` -/
noncomputable def State.net (st : State) : Network ℝ :=
  ⟨st.graph, fun n => ((st.layers.find? fun e => e.1 = n).map Prod.snd).getD (.constant ⟨[], []⟩), .last⟩

/-- `load_keras`: the network before `tri_topo` -/
noncomputable def importNet (m : Model) : Option (Network ℝ) := m.built.map State.net

/-- `load_keras`: the network and the result of `tri_topo` -/
noncomputable def loadKeras (m : Model) : Option (Network ℝ × Graph.Plan) := do
  let net ← importNet m
  let plan ← Graph.triTopo net.graph
  some (net, plan)

end Verif.Keras

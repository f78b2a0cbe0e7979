import Verif.Export.Export
import Verif.Opt.RealSem
import Verif.Opt.Load
import Verif.Opt.LoadSafe
import Verif.Opt.Run
import Verif.Net.Run

/-!
# The optimisation pass on networks of concrete layers

The pass of `Verif/Opt/Model.lean` applied to the layers of `Verif/Net/Model.lean`: the classes and activation functions the patterns look at, the weights the
batch normalisations are folded into, and the program generated for the optimised network.  Channels-first.
-/

namespace Verif.OptNet
open Net Layers Opt Export

/-- the class of a layer (`generator/layers/__init__.py`), as far as the patterns of `pattern_matching/patterns` and the execution distinguish them -/
def clsOf : Op ℝ → Cls
  | .input .. => .input
  | .constant _ => .constant
  | .activation .. => .activation
  | .flatten _ => .flatten
  | .softmax .. => .softmax
  | .matmul .. => .matMul
  | .conv .. => .conv
  | .batchNorm .. => .batchNorm
  | .broadcast .mul .. => .multiply
  | .broadcast .add .. => .add
  | .dense .. => .other 0
  | .gemm .. => .other 1
  | .broadcast .sub .. => .other 2
  | .broadcast .div .. => .other 3
  | .broadcast .max .. => .other 4
  | .broadcast .min .. => .other 5
  | .concat .. => .other 6
  | .constantPad .. => .other 7
  | .broadcast .avg .. => .other 8
  | .maxPool .. => .other 9
  | .avgPool .. => .other 10
  | .gather .. => .other 11
  | .gatherElements .. => .other 12
  | .tile .. => .other 13
  | .transpose .. => .other 14
  | .pad .. => .other 15
  | .reduce .. => .other 16
  | .resize .. => .other 17

/-- the classes whose `forward_path_layer` and whose template both apply the activation function, once -/
def applies : Cls → Bool
  | .input | .constant | .flatten | .softmax => false
  | .activation | .conv | .batchNorm | .multiply | .matMul | .add => true
  | .other n => n ≤ 7

/-- the activation function of layer `i` as the patterns see it (they recognise `Linear` and `Sigmoid`, and build `Silu`) -/
def fnOf (i : Nat) : Act ℝ → Opt.Fn
  | .linear => .linear
  | .sigmoid => .sigmoid
  | .silu => .silu
  | _ => .other i

/-- the activation function meant by a `Fn` -/
def actOf (net : XNet) : Opt.Fn → Act ℝ
  | .linear => .linear
  | .sigmoid => .sigmoid
  | .silu => .silu
  | .other i => (net.layer i).act

/-- `FuseConvBatchNorm.apply_pattern` on the attributes of the two layers (`pattern_matching/patterns/FuseConvBatchNorm.py` 80-93); the pattern is only applied to
a convolution and a batch normalisation. -/
noncomputable def foldOp (M : CMath ℝ) : Op ℝ → Op ℝ → Op ℝ
  | .conv impl c wt b f, .batchNorm _ eps scale mean var bias _ =>
    .conv impl c (foldConvBN M.sqrt eps scale mean var bias c.filters wt b).1 (foldConvBN M.sqrt eps scale mean var bias c.filters wt b).2 f
  | _, _ => .constant ⟨[], []⟩

/-- the network after loading (`generator/neural_network.py` 137-160), before the pass -/
noncomputable def loaded (net : XNet) (plan : Graph.Plan) : Opt.Net (Op ℝ) :=
  load net.graph plan (fun n => clsOf (net.layer n).op) (fun n => fnOf n (net.layer n).act) fun n => (net.layer n).full

/-- `pattern_matcher.match` on the loaded network (`generator/neural_network.py` 159-160) -/
noncomputable def optimised (M : CMath ℝ) (net : XNet) (plan : Graph.Plan) : Res (Op ℝ) := optimise (foldOp M) (loaded net plan)

/-- layer `o` of a network in the middle of the pass: its attributes, with its present activation function -/
noncomputable def layerOp (net : XNet) (net' : Opt.Net (Op ℝ)) (o : Nat) : Op ℝ := setAct (actOf net (net'.fn o)).compute (net'.par o)

/-- the attribute `size` of layer `o` -/
noncomputable def layerSize (net : XNet) (net' : Opt.Net (Op ℝ)) (o : Nat) : Nat := (layerOp net net' o).size

/-- the code generated for layer `o`: its parameters are named after its present `idx` -/
noncomputable def layerCode (M : CMath ℝ) (net : XNet) (net' : Opt.Net (Op ℝ)) (o : Nat) (srcs : List Buf) (dst : Buf) : Prog ℝ Unit :=
  match dst with
  | .out road => ((layerOp net net' o).code M .first (net'.num o) road srcs).getD broken
  | _ => broken

/-- The function `inference` generated after the pass (`templates/template_source_file.c.tpl`). -/
noncomputable def program (M : CMath ℝ) (net : XNet) (net' : Opt.Net (Op ℝ)) : Prog ℝ Unit := net'.inference (layerSize net net') (layerCode M net net')

/-- The memory when `inference` is called: arrays with the sizes of the header generated from the optimised layers (`generator/neural_network.py` 981-1019),
the parameters written for them, the input, and a `prediction` array for the output. -/
structure Memory (net : XNet) (plan : Graph.Plan) (net' : Opt.Net (Op ℝ)) (x : List ℝ) (m : Mem ℝ) : Prop where
  declared : ∃ dict other, (∀ k c, (k, c) ∈ dict ↔ net'.dict k = some c) ∧
    Gen.declared (net'.layers.map fun o => (layerOp net net' o).info (net'.num o)) plan.maxPath dict other = some m.size
  params : ∀ o ∈ net'.layers, ∀ p ∈ (layerOp net net' o).params (net'.num o), Holds m p.1 p.2
  input : Holds m .input x
  pred : ∀ o, net'.layers.getLast? = some o → layerSize net net' o ≤ m.size .pred

/-- `output_channels`, `output_height`, `output_width` of a layer other than an activation layer -/
def opShape : Op ℝ → Shape
  | .input _ s => s
  | .softmax s _ _ => s
  | .constant ⟨[c, h, w], l⟩ => if c * h * w = l.length then ⟨c, h, w⟩ else ⟨1, 1, l.length⟩
  | .constant ⟨[1, c, h, w], l⟩ => if c * h * w = l.length then ⟨c, h, w⟩ else ⟨1, 1, l.length⟩
  | .constant v => ⟨1, 1, v.data.length⟩
  | o => match o.chans with
    | some s => s
    | none => ⟨1, 1, o.size⟩

/-- The shapes of the tensors agree with what batch normalisations and products of two tensors declare: `D n` is the shape of the tensor of layer `n`. -/
structure Shaped (net : XNet) (D : Nat → Shape) : Prop where
  op : ∀ l ∈ net.graph, (∀ n f, (net.layer l.idx).op ≠ .activation n f) → D l.idx = opShape (net.layer l.idx).op
  activation : ∀ l ∈ net.graph, ∀ n f p, (net.layer l.idx).op = .activation n f → l.prev = [p] → D l.idx = D p
  batchNorm : ∀ l ∈ net.graph, ∀ s e a b c d f p, (net.layer l.idx).op = .batchNorm s e a b c d f → l.prev = [p] → D p = s
  multiply : ∀ l ∈ net.graph, ∀ o ss k f p q, (net.layer l.idx).op = .broadcast .mul o ss k f → l.prev = [p, q] → ss = [D p, D q] ∧ k = none

/-- A network on which the pass can be relied upon: within the conditions of `Network.WF`, channels-first, with consistent shapes; the layers are listed
producers first; no activation layer after a layer that does not apply its activation function (`C35_fails_flatten`); the `idx` follow the order of the
layers (`Orderly`, see `C36_fails_collision`, `C36_fails_dict`, `C34_fails_buffer`). -/
structure Optimisable (net : XNet) (plan : Graph.Plan) (D : Nat → Shape) : Prop where
  wf : net.network.WF
  first : net.fmt = .first
  shapes : Shaped net D
  listed : Graph.Sorted net.graph.prevOf net.graph.idxs
  simpleNext : ∀ l ∈ net.graph, l.next.Nodup
  mulLinear : ∀ l ∈ net.graph, clsOf (net.layer l.idx).op = .multiply → (net.layer l.idx).act = .linear
  kept : ∀ l ∈ net.graph, applies (clsOf (net.layer l.idx).op) = false → ∀ c ∈ l.next, clsOf (net.layer c).op ≠ .activation
  orderly : Orderly (loaded net plan)

end Verif.OptNet

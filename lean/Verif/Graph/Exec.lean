import Verif.CMem.Basic
import Verif.Graph.Model

/-!
# Executing a loaded network: reference interpreter and generated inference function

Tensors are the flat (C-order) lists of their elements.
-/

namespace Verif.Graph
open Prog

/-- `layer_inputs` of `compute_inference` (`generator/neural_network.py` 508-510): a dictionary of
dictionaries.  An absent key is `none`. -/
abbrev Inputs (T : Type) := Nat → Option (Nat → Option T)

/-- Initial `layer_inputs`: `{i.idx: {i.idx: nn_input} for i in self.layers}`
(`generator/neural_network.py` 508-510). -/
def Inputs.init {T : Type} (order : List Nat) (x : T) : Inputs T := fun i =>
  if i ∈ order then some (fun j => if j = i then some x else none) else none

/-- `gather_inputs` (`generator/neural_network.py` 512-530) after the readiness test of 535-539;
a missing predecessor (`NotImplementedError`) or key (`KeyError`) is `none`. -/
def gather {T : Type} (prev : List Nat) (n : Nat) (li : Inputs T) : Option (List T) :=
  match li n with
  | none => none
  | some d => if prev = [] then (d n).map (fun t => [t]) else prev.mapM d

/-- The loop `for successor in layer.next_layer: layer_inputs[successor.idx][layer.idx] = output`
(`generator/neural_network.py` 548-549). -/
def publish {T : Type} (n : Nat) (y : T) : List Nat → Inputs T → Option (Inputs T)
  | [], li => some li
  | s :: ss, li =>
    match li s with
    | none => none
    | some d => publish n y ss (fun i => if i = s then some (fun j => if j = n then some y else d j) else li i)

/-- One iteration of the layer loop of `compute_inference` (`generator/neural_network.py` 533-552);
the second component is the variable `layer_output`.  `fwd n` is `layer.forward_path_layer`, taken
as a pure function of its inputs. -/
def interpStep {T : Type} (prevOf nextOf : Nat → List Nat) (fwd : Nat → List T → T)
    (st : Inputs T × Option T) (n : Nat) : Option (Inputs T × Option T) :=
  match gather (prevOf n) n st.1 with
  | none => none
  | some ins =>
    let y := fwd n ins
    match publish n y (nextOf n) st.1 with
    | none => none
    -- del layer_inputs[layer.idx]
    | some li => some (fun i => if i = n then none else li i, some y)

/-- The reference interpreter on one input: `nn_output = layer_output` after the loop
(`generator/neural_network.py` 487-571, without debug mode and layout conversion). -/
def interp {T : Type} (prevOf nextOf : Nat → List Nat) (fwd : Nat → List T → T)
    (order : List Nat) (x : T) : Option T :=
  match order.foldlM (interpStep prevOf nextOf fwd) (Inputs.init order x, none) with
  | none => none
  | some st => st.2

/-- `find_output_str` (`ir/layer.py` 168-179): where consumers read the output of layer `p`. -/
def outStr (plan : Plan) (p : Nat) : Buf :=
  match plan.cst p with
  | some k => .cst k
  | none => .out (plan.path p)

/-- The `{{#cst}}` block of `templates/template_source_file.c.tpl` 111-116, emitted for the layers
of `dict_cst` (`generator/neural_network.py` 905-907). -/
def cstCopy {α : Type} (plan : Plan) (size : Nat → Nat) (n : Nat) : Prog α Unit :=
  match plan.cst n with
  | none => ret ()
  | some k => forN (size n) fun a =>
      andThen (load (.out (plan.path n)) (a : Int)) fun v => store (.cst k) (a : Int) v

/-- The `{{#layers}}` section of `templates/template_source_file.c.tpl` 88-117: for each layer, the
code produced by its `generate_inference_code_layer` — which mentions its producers' `output_str`
and its own `path` — then the saved copy. -/
def runLayers {α : Type} (plan : Plan) (prevOf : Nat → List Nat) (size : Nat → Nat)
    (code : Nat → List Buf → Buf → Prog α Unit) : List Nat → Prog α Unit
  | [] => ret ()
  | n :: ns =>
    andThen (code n ((prevOf n).map (outStr plan)) (.out (plan.path n))) fun _ =>
    andThen (cstCopy plan size n) fun _ =>
    runLayers plan prevOf size code ns

/-- The `keep_channels` branch of `templates/memory_layout/template_output.c.tpl`, reading the
buffer of `layers[-1]` (`generator/neural_network.py` 931-945). -/
def outputCopy {α : Type} (plan : Plan) (size : Nat → Nat) : Prog α Unit :=
  match plan.order.getLast? with
  | none => ret ()
  | some n => forN (size n) fun a =>
      andThen (load (.out (plan.path n)) (a : Int)) fun v => store .pred (a : Int) v

/-- The generated `inference` function (`templates/template_source_file.c.tpl`), without timing,
debug prints and normalisation. -/
def inference {α : Type} (plan : Plan) (prevOf : Nat → List Nat) (size : Nat → Nat)
    (code : Nat → List Buf → Buf → Prog α Unit) : Prog α Unit :=
  andThen (runLayers plan prevOf size code plan.order) fun _ => outputCopy plan size

end Verif.Graph

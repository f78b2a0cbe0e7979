/-
Model of the implementation registry and of the choice of an implementation for
each layer (`versioning/layer_factories.py`, `versioning/versioning.py`,
`generator/neural_network.py`).
-/
import Mathlib.Data.List.Sort
import Mathlib.Data.String.Basic

namespace Verif.Gen

/-- The Python exceptions raised by the modelled helpers. -/
inductive PyErr
  | keyError | valueError | typeError | indexError | fileExists
deriving DecidableEq, Repr

/-- A Python `dict` read as the list of its items in insertion order.  Keys are
kept distinct by `PyDict.set`. -/
abbrev PyDict (κ υ : Type) := List (κ × υ)

/-- `d[k]` / `k in d` : the value stored under `k`, if any. -/
def PyDict.get? {κ υ : Type} [DecidableEq κ] (d : PyDict κ υ) (k : κ) : Option υ :=
  List.lookup k d

/-- `d[k] = v` : overwrite in place, or append at the end. -/
def PyDict.set {κ υ : Type} [DecidableEq κ] (d : PyDict κ υ) (k : κ) (v : υ) :
    PyDict κ υ :=
  if d.any (fun e => e.1 == k) then d.map (fun e => if e.1 = k then (k, v) else e)
  else d ++ [(k, v)]

/-- Name under which a variant is registered: a string, or `None` for the
default one (`layer_factories.py` 35: `dict[str | None, LayerVariant]`). -/
abbrev VariantName := Option String

/-- Sort key of `register_implementation` (`layer_factories.py` 51):
`"a" if x[0] is None else x[0]`. -/
def sortKey : VariantName → String
  | none => "a"
  | some s => s

/-- `LayerFactory` (`layer_factories.py` 29-35).  `V` is the type of variants
(functions from a layer and a version name to a layer). -/
structure Factory (V : Type) where
  /-- `self.layer_name` -/
  layerName : String
  /-- `self.implementations` -/
  impls : PyDict VariantName V

/-- `LayerFactory.__init__` (`layer_factories.py` 32-35). -/
def Factory.new {V : Type} (name : String) : Factory V := ⟨name, []⟩

/-- `LayerFactory.list_implementations` (`layer_factories.py` 37-40). -/
def Factory.listImplementations {V : Type} (f : Factory V) : List String :=
  f.impls.filterMap (fun e => e.1)

/-- `LayerFactory.register_implementation` (`layer_factories.py` 42-53): `KeyError`
if the name is taken, else insert and rebuild the dict from its items sorted by
`sortKey` (Python's `sorted` is a stable sort on strings compared by code points;
`insertionSort` is one too). -/
def Factory.register {V : Type} (f : Factory V) (name : VariantName) (v : V) :
    Except PyErr (Factory V) :=
  if (f.impls.get? name).isSome then .error .keyError
  else .ok { f with
    impls := (f.impls.set name v).insertionSort
      (fun a b => sortKey a.1 ≤ sortKey b.1) }

/-- `LayerFactory.__call__` up to the application of the variant
(`layer_factories.py` 55-61): `KeyError` for an unknown name. -/
def Factory.call {V : Type} (f : Factory V) (version : VariantName) : Except PyErr V :=
  match f.impls.get? version with
  | none => .error .keyError
  | some v => .ok v

/-- A client that issues registrations one after the other; a refused one (the
`KeyError` is caught by the caller) leaves the factory as it was. -/
def Factory.registerAll {V : Type} (f : Factory V) : List (VariantName × V) → Factory V
  | [] => f
  | (n, v) :: rest =>
    match f.register n v with
    | .ok f' => f'.registerAll rest
    | .error _ => f.registerAll rest

/-- `register_factory` (`versioning.py` 26-31). -/
def registerFactory {V : Type} (implemented : PyDict String (Factory V)) (name : String)
    (f : Factory V) : Except PyErr (PyDict String (Factory V)) :=
  if (implemented.get? name).isSome then .error .keyError
  else .ok (implemented.set name f)

/-! ### Choice of an implementation per layer -/

/-- Keys of the user's `versions` argument: a layer index or a layer type. -/
inductive VKey
  | idx (i : Nat)
  | name (s : String)
deriving DecidableEq

/-- `self.default_implementations` (`neural_network.py` 195-197). -/
def defaultImplementations : PyDict String VariantName := [("Conv2D", some "6loops")]

/-- The layer attributes read by `select_layers_implementation`. -/
structure Named where
  idx : Nat
  name : String
deriving DecidableEq

/-- One iteration of the loop of `select_layers_implementation`
(`neural_network.py` 344-354). -/
def selectStep (versions : Option (PyDict VKey VariantName))
    (sel : PyDict Nat VariantName) (layer : Named) : PyDict Nat VariantName :=
  let sel := sel.set layer.idx ((defaultImplementations.get? layer.name).getD none)
  match versions with
  | none => sel
  | some vs =>
    match vs.get? (.idx layer.idx) with
    | some v => sel.set layer.idx v
    | none =>
      match vs.get? (.name layer.name) with
      | some v => sel.set layer.idx v
      | none => sel

/-- `select_layers_implementation` (`neural_network.py` 325-355). -/
def selectLayersImplementation (layers : List Named)
    (versions : Option (PyDict VKey VariantName)) : PyDict Nat VariantName :=
  layers.foldl (selectStep versions) []

/-- The attributes of a layer object that `versioning` reads or copies.  `body`
stands for everything else the variant constructor decides. -/
structure LObj (B : Type) where
  idx : Nat
  name : String
  path : Nat
  nextLayer : List Nat
  previousLayer : List Nat
  outputStr : String
  activation : String
  body : B
deriving DecidableEq

/-- A registered variant: builds a new layer object from the old one and the
version name. -/
abbrev Variant (B : Type) := LObj B → VariantName → LObj B

/-- Body of the inner loop of `versioning` (`versioning.py` 52-61). -/
def reversion {B : Type} (implemented : PyDict String (Factory (Variant B)))
    (old : LObj B) (v : VariantName) : Except PyErr (LObj B) :=
  match implemented.get? old.name with
  | none => .error .keyError
  | some fac =>
    match fac.call v with
    | .error e => .error e
    | .ok build =>
      .ok { build old v with
        path := old.path
        nextLayer := old.nextLayer
        previousLayer := old.previousLayer
        outputStr := old.outputStr
        activation := old.activation }

/-- Inner loop of `versioning` for one key (`versioning.py` 50-61). -/
def versioningKey {B : Type} (implemented : PyDict String (Factory (Variant B)))
    (idx : Nat) (v : VariantName) : List (LObj B) → Except PyErr (List (LObj B))
  | [] => .ok []
  | l :: rest => do
    let l' ← if l.idx = idx then reversion implemented l v else .ok l
    let rest' ← versioningKey implemented idx v rest
    return l' :: rest'

/-- `versioning` (`versioning.py` 43-63): `version` is read through its items, in
order. -/
def versioning {B : Type} (implemented : PyDict String (Factory (Variant B))) :
    List (LObj B) → PyDict Nat VariantName → Except PyErr (List (LObj B))
  | layers, [] => .ok layers
  | layers, (idx, v) :: rest => do
    let layers' ← versioningKey implemented idx v layers
    versioning implemented layers' rest

/-! ### The built-in registrations -/

/-- Layer type ↦ names registered by the modules of `generator/layers` when the
package is imported, for each key of `implemented`
(`layer_factories.py` 102-147 and the `register_implementation` calls at the end
of each layer module, e.g. `Conv2D6loops.py` 97-98, `Conv2DStdGemm.py` 155-158).
Simplification: the activation layer types share one factory object in the code;
here each type has its own, with the same registrations. -/
def builtin : List (String × List VariantName) :=
  let dflt : List VariantName := [none, some "default"]
  let pool : List VariantName := [none, some "default", some "channels_last"]
  [("Add", dflt), ("Average", dflt), ("AveragePooling2D", pool),
   ("BatchNormalization", dflt), ("Clip", dflt), ("Concatenate", dflt),
   ("Constant", dflt), ("ConstantPad", dflt),
   ("Conv2D", [none, some "6loops", some "indirect_gemm_nn", some "indirect_gemm_tn",
      some "indirect_gemm_nt", some "indirect_gemm_tt", some "std_gemm_nn",
      some "std_gemm_tn", some "std_gemm_nt", some "std_gemm_tt", some "direct_block"]),
   ("Dense", dflt), ("Divide", dflt), ("EdgePad", dflt), ("Exponential", dflt),
   ("Flatten", dflt), ("Gather", dflt), ("GatherElements", dflt), ("Gemm", dflt),
   ("Hyperb_tan", dflt), ("Input_layer", dflt), ("Leakyrelu", dflt),
   ("Logarithm", dflt), ("MatMul", dflt), ("MaxPooling2D", pool), ("Maximum", dflt),
   ("Minimum", dflt), ("Multiply", dflt), ("ReduceMax", dflt), ("ReduceMean", dflt),
   ("ReduceMin", dflt), ("ReduceProd", dflt), ("ReduceSum", dflt),
   ("ReflectPad", dflt), ("Relu", dflt), ("ResizeCubic", dflt),
   ("ResizeLinear", dflt), ("ResizeNearest", dflt), ("Sigmoid", dflt), ("Silu", dflt),
   ("Softmax", dflt), ("Subtract", dflt), ("Tile", dflt), ("Transpose", dflt),
   ("WrapPad", dflt), ("LSTM", dflt)]

/-- The registry after the package import: each factory received its
registrations; the variant is represented by the version name it is called with. -/
def builtinRegistry : PyDict String (Factory VariantName) :=
  builtin.map (fun e => (e.1, (Factory.new e.1).registerAll (e.2.map fun n => (n, n))))

end Verif.Gen

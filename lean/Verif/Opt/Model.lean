import Verif.CMem.Basic
import Verif.Graph.Refine
import Mathlib.Logic.Function.Basic

/-!
# The optimisation pass

Model of `pattern_matching/Pattern.py`, `pattern_matching/PatternMatcher.py` and
`pattern_matching/patterns/*.py`.

Layers are mutable Python objects: an object is a number (its identity, never changed), and every
attribute the pass reads or writes is a function of the object.  `num` is the attribute `idx`, which
the pass renumbers.  `Layer.__eq__` (`ir/layer.py` 181-203), used by `in`, `list.index` and
`list.remove`, compares `idx`, type, sizes, path, …: it is modelled by identity, which it coincides
with as long as two distinct layers have distinct `idx`.
Python exceptions are modelled by `none`.
-/

namespace Verif.Opt

/-- Activation functions, as far as the patterns distinguish them
(`generator/activation_functions.py`). -/
inductive Fn | linear | sigmoid | silu | other (n : Nat)
  deriving DecidableEq, Repr

/-- Layer classes, as far as the patterns or the execution distinguish them
(`generator/layers/__init__.py`). -/
inductive Cls
  | activation | conv | batchNorm | multiply | matMul | add | input | constant | flatten | softmax
  | other (n : Nat)
  deriving DecidableEq, Repr

/-- The loaded network: `self.layers`, `self.dict_cst` and the attributes of the layer objects
(`ir/layer.py` 63-93); `par` stands for the parameters of the layer (weights, …). -/
structure Net (P : Type) where
  layers : List Nat
  cls : Nat → Cls
  fn : Nat → Fn
  par : Nat → P
  num : Nat → Nat
  path : Nat → Nat
  outS : Nat → Buf
  prev : Nat → List Nat
  next : Nat → List Nat
  dict : Nat → Option Nat

variable {P : Type}

/-- One iteration of the loop of `update_indices` (`pattern_matching/Pattern.py` 71-77). -/
def shiftOne (ref shift : Nat) (s : Net P) (o : Nat) : Net P :=
  if s.num o > ref then
    { s with
      dict := match s.dict (s.num o) with
        | none => s.dict
        | some k =>
          -- dict_cst.pop(idx); dict_cst[idx - shift] = cst_index
          Function.update (Function.update s.dict (s.num o) none) (s.num o - shift) (some k)
      num := Function.update s.num o (s.num o - shift) }
  else s

/-- `update_indices` (`pattern_matching/Pattern.py` 54-77).  The callers pass `index - 1`; a
negative argument raises the same `ValueError` as `0`, to which the natural subtraction sends it. -/
def updateIndices (index shift : Nat) (net : Net P) : Option (Net P) :=
  match net.layers[index]? with
  | none => none
  | some r =>
    if shift > index then none
    else some (net.layers.foldl (shiftOne (net.num r) shift) net)

/-- `update_next_layers` (`pattern_matching/Pattern.py` 79-90): the inner `while` loop replaces every
occurrence. -/
def updateNext (removed repl : Nat) (net : Net P) : Net P :=
  (net.next removed).foldl (fun s c =>
    { s with
      next := if c ∈ s.next repl then s.next else Function.update s.next repl (s.next repl ++ [c])
      prev := Function.update s.prev c ((s.prev c).map (fun q => if q = removed then repl else q)) })
    net

/-- `update_dict_cst` (`pattern_matching/Pattern.py` 106-112). -/
def updateDict (removed repl : Nat) (net : Net P) : Net P :=
  { net with
    outS := Function.update net.outS repl (net.outS removed)
    dict := match net.dict (net.num removed) with
      | none => net.dict
      | some k => Function.update (Function.update net.dict (net.num repl) (some k))
          (net.num removed) none }

/-- `FuseActivationLayer.is_pattern` (`pattern_matching/patterns/FuseActivationLayers.py` 46-68);
every layer has an attribute `activation_function` (`ir/layer.py` 93). -/
def isFuseAct (net : Net P) (a : Nat) : Prop :=
  net.cls a = .activation ∧ ∃ p, net.prev a = [p] ∧ net.cls p ≠ .activation ∧ net.fn p = .linear ∧
    (net.next p).length = 1

/-- `FuseConvBatchNorm.is_pattern` (`pattern_matching/patterns/FuseConvBatchNorm.py` 48-68). -/
def isConvBN (net : Net P) (b : Nat) : Prop :=
  net.cls b = .batchNorm ∧ ∃ p, net.prev b = [p] ∧ net.cls p = .conv ∧ (net.next p).length = 1 ∧
    net.fn p = .linear

/-- `MatMulAddToDense.is_pattern` (`pattern_matching/patterns/FuseMatMulAdd.py` 48-73), without the
tests on the shapes and on the constant of the `Add`: an over-approximation, shown never to hold of a
network whose `MatMul` layers have two producers. -/
def isMatMulAdd (net : Net P) (o : Nat) : Prop :=
  net.cls o = .matMul ∧ (net.prev o).length = 1 ∧ net.fn o = .linear ∧
    ∃ c, net.next o = [c] ∧ net.cls c = .add

/-- `SigmoidMultiplyToSilu.is_pattern` (`pattern_matching/patterns/FuseSigmoidMul.py` 46-82); the name of
an activation layer is that of its function (`activation_layers/ActivationLayer.py` 45). -/
def isSilu (net : Net P) (s : Nat) : Prop :=
  net.cls s = .activation ∧ net.fn s = .sigmoid ∧ ∃ q, net.prev s = [q] ∧ net.fn q = .linear ∧
    (net.next q).length = 2 ∧ ∃ m, net.next s = [m] ∧ net.cls m = .multiply ∧
    (net.prev m).length = 2 ∧ m ∈ net.next q

instance {A : Type} (l : List A) (p : A → Prop) [DecidablePred p] :
    Decidable (∃ x, l = [x] ∧ p x) :=
  match l with
  | [] => .isFalse (by simp)
  | [x] => if h : p x then .isTrue ⟨x, rfl, h⟩ else .isFalse (by rintro ⟨y, hy, hp⟩; simp_all)
  | _ :: _ :: _ => .isFalse (by simp)

instance (net : Net P) (a : Nat) : Decidable (isFuseAct net a) := by
  unfold isFuseAct; infer_instance
instance (net : Net P) (a : Nat) : Decidable (isConvBN net a) := by
  unfold isConvBN; infer_instance
instance (net : Net P) (a : Nat) : Decidable (isMatMulAdd net a) := by
  unfold isMatMulAdd; infer_instance
instance (net : Net P) (a : Nat) : Decidable (isSilu net a) := by
  unfold isSilu; infer_instance

/-- `layers.index(o)`: `ValueError` when absent. -/
def indexOf? (net : Net P) (o : Nat) : Option Nat :=
  if o ∈ net.layers then some (net.layers.idxOf o) else none

/-- `lst.remove(x)` on `o.next_layer`: `ValueError` when absent. -/
def removeNext (o x : Nat) (net : Net P) : Option (Net P) :=
  if x ∈ net.next o then
    some { net with next := Function.update net.next o ((net.next o).erase x) }
  else none

/-- The common end of the fusions: `layers.pop(index)`, `update_indices(index - 1, layers, 1,
dict_cst)`, and the returned position (`FuseActivationLayers.py` 88-97, `FuseConvBatchNorm.py`
105-109). -/
def dropLayer (index keep : Nat) (net : Net P) : Option (Net P × Nat) :=
  (updateIndices (index - 1) 1 { net with layers := net.layers.eraseIdx index }).bind fun net =>
  (indexOf? net keep).map fun i => (net, i)

/-- `FuseActivationLayer.apply_pattern` (`pattern_matching/patterns/FuseActivationLayers.py` 70-97). -/
def applyFuseAct (index : Nat) (net : Net P) : Option (Net P × Nat) :=
  match net.layers[index]? with
  | none => none
  | some a =>
    match net.prev a with
    | [] => none
    | p :: _ =>
      let net := { net with fn := Function.update net.fn p (net.fn a) }
      let net := updateDict a p net
      (removeNext p a net).bind fun net =>
      dropLayer index p (updateNext a p net)

/-- `FuseConvBatchNorm.apply_pattern` (`pattern_matching/patterns/FuseConvBatchNorm.py` 70-109).  The
convolution is `layers[index - 1]`; `fold` computes its new weights and biases (86-93). -/
def applyConvBN (fold : P → P → P) (index : Nat) (net : Net P) : Option (Net P × Nat) :=
  match net.layers[index]?, net.layers[index - 1]? with
  | some b, some p =>
    let net := { net with
      par := Function.update net.par p (fold (net.par p) (net.par b))
      fn := Function.update net.fn p (net.fn b) }
    (removeNext p b net).bind fun net =>
    dropLayer index p (updateDict b p (updateNext b p net))
  | _, _ => none

/-- `SigmoidMultiplyToSilu.apply_pattern` (`pattern_matching/patterns/FuseSigmoidMul.py` 84-124).  The new
`ActivationLayer` takes the `idx` and the place of the `Sigmoid` layer, which disappears from every
list: it is modelled by mutating the latter. -/
def applySilu (index : Nat) (net : Net P) : Option (Net P × Nat) :=
  match net.layers[index]? with
  | none => none
  | some s =>
    match net.prev s, net.next s with
    | q :: _, m :: _ =>
      (removeNext q m net).bind fun net =>
      (removeNext q s net).bind fun net =>
      let net := { net with
        fn := Function.update net.fn s .silu
        next := Function.update (Function.update net.next q (net.next q ++ [s])) s (net.next m)
        prev := Function.update net.prev s [q]
        path := Function.update net.path s (net.path m)
        outS := Function.update net.outS s (net.outS m) }
      let net := updateDict m s (updateNext m s net)
      if m ∈ net.layers then
        (updateIndices index 1 { net with layers := net.layers.erase m }).bind fun net =>
        (indexOf? net q).map fun i => (net, i)
      else none
    | _, _ => none

/-- `pattern.is_pattern(layer)` then `pattern.apply_pattern(index=i, …)`
(`pattern_matching/PatternMatcher.py` 54-61). -/
def tryPattern (isP : Net P → Nat → Prop) [∀ n o, Decidable (isP n o)]
    (apply : Nat → Net P → Option (Net P × Nat)) (o : Nat) (st : Net P × Nat) :
    Option (Net P × Nat) :=
  if isP st.1 o then apply st.2 st.1 else some st

/-- The loop over the registered patterns (`pattern_matching/PatternMatcher.py` 54-61), in their
registration order (`pattern_matching/patterns/__init__.py` 22-25).  `layer` stays the same object
even when the first pattern that fires has removed it from the list.  Applying `MatMulAddToDense`
raises: `MatMul` has no attribute `weights` (`FuseMatMulAdd.py` 86). -/
def patterns (fold : P → P → P) (o : Nat) (st : Net P × Nat) : Option (Net P × Nat) :=
  (tryPattern isFuseAct applyFuseAct o st).bind fun st =>
  (tryPattern isConvBN (applyConvBN fold) o st).bind fun st =>
  (tryPattern isMatMulAdd (fun _ _ => none) o st).bind fun st =>
  tryPattern isSilu applySilu o st

/-- Outcome of the pass: a network, a Python exception, or the bound on the number of iterations is
reached (shown impossible). -/
inductive Res (P : Type)
  | done (net : Net P)
  | raised
  | timeout

/-- The `while` loop of `PatternMatcher.match` (`pattern_matching/PatternMatcher.py` 48-64). -/
def matchLoop (fold : P → P → P) : Nat → Net P → Nat → Res P
  | 0, _, _ => .timeout
  | fuel + 1, net, i =>
    match net.layers[i]? with
    | none => .done net
    | some o =>
      match patterns fold o (net, i) with
      | none => .raised
      | some (net, i) => matchLoop fold fuel net (i + 1)

/-- `pattern_matcher.match(self.layers, self.dict_cst)` (`generator/neural_network.py` 159-160). -/
def optimise (fold : P → P → P) (net : Net P) : Res P :=
  matchLoop fold ((net.layers.length + 1) * (net.layers.length + 1) + 1) net 0

/-! ### Meaning of a network -/

/-- What the layers compute.  `op c p xs` is the result of a layer of class `c` and parameters `p`
before its activation function, `den` the meaning of the activation functions and `applies` tells
which classes apply the activation function they carry. -/
structure Sem (P T : Type) where
  op : Cls → P → List T → T
  den : Fn → T → T
  applies : Cls → Bool

/-- Result of layer `o` on `args`. -/
def Net.eval {T : Type} (S : Sem P T) (net : Net P) (o : Nat) (args : List T) : T :=
  if S.applies (net.cls o) then S.den (net.fn o) (S.op (net.cls o) (net.par o) args)
  else S.op (net.cls o) (net.par o) args

/-- `v` gives the tensor of every layer of the network on the input `x`: the equations that
`compute_inference` solves in the order of the list (`Graph.interp`; a layer without producer gets
the network input). -/
def Net.IsVal {T : Type} (S : Sem P T) (net : Net P) (x : T) (v : Nat → T) : Prop :=
  ∀ o ∈ net.layers, v o = net.eval S o (Graph.argsOf net.prev x v o)

end Verif.Opt

import Verif.Graph.Model

/-!
# What a correct ordering and allocation is

Independent of the algorithm: stated on the list of layers and the resulting plan only.
-/

namespace Verif.Graph

/-- `a` occurs before `b` in the list `l`. -/
def Before (l : List Nat) (a b : Nat) : Prop := ∃ pre mid post, l = pre ++ a :: mid ++ b :: post

/-- Layer indices identify layers. -/
def UniqueIdx (dnn : Dnn) : Prop := dnn.idxs.Nodup

/-- Every link leads to a layer of the model, and a layer is a producer of another one exactly when
the latter is one of its consumers. -/
def Consistent (dnn : Dnn) : Prop :=
  ∀ l ∈ dnn,
    (∀ p ∈ l.prev, ∃ q ∈ dnn, q.idx = p ∧ l.idx ∈ q.next) ∧
    (∀ s ∈ l.next, ∃ q ∈ dnn, q.idx = s ∧ l.idx ∈ q.prev)

/-- No layer takes the same producer twice (e.g. `Mul(x, x)`). -/
def SimpleInputs (dnn : Dnn) : Prop := ∀ l ∈ dnn, l.prev.Nodup

/-- The model has no cycle: layers can be ranked so that links go to higher ranks. -/
def Acyclic (dnn : Dnn) : Prop := ∃ rank : Nat → Nat, ∀ l ∈ dnn, ∀ s ∈ l.next, rank l.idx < rank s

/-- Once the layers of `done` have run, the output of layer `l` is still needed: it has been
computed, and one of its consumers has not run yet or it is an output of the network (no consumer). -/
def Needed (done : List Nat) (l : Layer) : Prop :=
  l.idx ∈ done ∧ ((∃ s ∈ l.next, s ∉ done) ∨ l.next = [])

/-- Number of layers with more than one consumer link. -/
def multiConsumers (dnn : Dnn) : Nat := (dnn.filter (fun l => l.next.length > 1)).length

instance (dnn : Dnn) : Decidable (UniqueIdx dnn) := inferInstanceAs (Decidable dnn.idxs.Nodup)
instance (dnn : Dnn) : Decidable (Consistent dnn) := inferInstanceAs (Decidable (∀ l ∈ dnn,
    (∀ p ∈ l.prev, ∃ q ∈ dnn, q.idx = p ∧ l.idx ∈ q.next) ∧
    (∀ s ∈ l.next, ∃ q ∈ dnn, q.idx = s ∧ l.idx ∈ q.prev)))
instance (dnn : Dnn) : Decidable (SimpleInputs dnn) :=
  inferInstanceAs (Decidable (∀ l ∈ dnn, l.prev.Nodup))

end Verif.Graph

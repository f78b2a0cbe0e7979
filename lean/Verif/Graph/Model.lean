/-!
# Layer ordering and buffer allocation

Model of `graph/graph_interpretor.py` (whole file) and of `Layer.find_output_str`
(`ir/layer.py` 168-179).

Layers are Python objects linked by `previous_layer` / `next_layer`; every function of this file
identifies a layer by its `idx` only, so a link is modelled by the `idx` it leads to and a layer
object is recovered by looking its `idx` up in the list given to `tri_topo`.
Python exceptions (`assert`, `other_layers[0]` on an empty list) are modelled by `none`.
-/

namespace Verif.Graph

/-- What `graph_interpretor.py` sees of a layer (`ir/layer.py` 30-60: `idx`, `previous_layer`,
`next_layer`; `isConst` is `isinstance(layer, ConstantLayer)`). -/
structure Layer where
  idx : Nat
  prev : List Nat
  next : List Nat
  isConst : Bool := false
  deriving DecidableEq, Repr

abbrev Dnn := List Layer

/-- the layer object with this index -/
def Dnn.get? (dnn : Dnn) (i : Nat) : Option Layer := dnn.find? (fun l => l.idx == i)

def Dnn.prevOf (dnn : Dnn) (i : Nat) : List Nat := ((dnn.get? i).map Layer.prev).getD []
def Dnn.nextOf (dnn : Dnn) (i : Nat) : List Nat := ((dnn.get? i).map Layer.next).getD []
def Dnn.constOf (dnn : Dnn) (i : Nat) : Bool := ((dnn.get? i).map Layer.isConst).getD false
def Dnn.idxs (dnn : Dnn) : List Nat := dnn.map Layer.idx

/-- `parcours_prof_topo` (`graph/graph_interpretor.py` 58-71): depth-first search, post-order
insertion at the front.  The state is `(sorted_layers, visited_layers)`.  The recursion depth is
bounded by a fuel argument (`triTopo` gives it the number of layers, which is never exhausted —
proved as `visit_spec`); Python's own recursion limit is not modelled. -/
def visit (succ : Nat → List Nat) : Nat → List Nat × List Nat → Nat → List Nat × List Nat
  | 0, st, _ => st
  | fuel + 1, (sorted, visited), i =>
    -- visited_layers.add(layer.idx); for nxt_layer in layer.next_layer: ...
    let st := (succ i).foldl
      (fun st j => if j ∈ st.2 then st else visit succ fuel st j) (sorted, i :: visited)
    -- sorted_layers.insert(0, layer)
    (i :: st.1, st.2)

/-- The first loop of `tri_topo` (`graph/graph_interpretor.py` 38-41). -/
def sortAll (succ : Nat → List Nat) (fuel : Nat) (order : List Nat) : List Nat × List Nat :=
  order.foldl (fun st i => if i ∈ st.2 then st else visit succ fuel st i) ([], [])

/-- `[other_layers[0]] + constants + other_layers[1:]` (`graph/graph_interpretor.py` 43-49);
`none` models the `IndexError` raised when there is no non-constant layer. -/
def moveConsts (isConst : Nat → Bool) (sorted : List Nat) : Option (List Nat) :=
  match sorted.filter (fun i => !isConst i) with
  | [] => none
  | o :: os => some (o :: (sorted.filter isConst ++ os))

/-- State of `assign_liveliness_index`: `index_count`, `available_indexes`, `indexes`. -/
structure Live where
  count : Nat := 0
  avail : List Nat := []
  indexes : List (Nat × Nat) := []
  deriving DecidableEq, Repr

/-- `indexes[i]` -/
def Live.get? (s : Live) (i : Nat) : Option Nat := (s.indexes.find? (fun e => e.1 == i)).map (·.2)

/-- The loop over `n.previous_layer` (`graph/graph_interpretor.py` 93-97): the free list after the
predecessors of `n` have been examined; `none` if `assert p.idx in indexes` fails. -/
def freePreds (nextOf : Nat → List Nat) (s : Live) (n : Nat) : List Nat → List Nat → Option (List Nat)
  | [], avail => some avail
  | p :: ps, avail =>
    match s.get? p with
    | none => none
    | some k =>
      if (nextOf p).all (fun c => c == n || (s.get? c).isSome) then freePreds nextOf s n ps (k :: avail)
      else freePreds nextOf s n ps avail

/-- One iteration of `assign_liveliness_index` (`graph/graph_interpretor.py` 90-105). -/
def liveStep (prevOf nextOf : Nat → List Nat) (s : Live) (n : Nat) : Option Live :=
  if (s.get? n).isSome then none else
  match freePreds nextOf s n (prevOf n) s.avail with
  | none => none
  | some [] => some { count := s.count + 1, avail := [], indexes := (n, s.count) :: s.indexes }
  | some (k :: avail) => some { count := s.count, avail := avail, indexes := (n, k) :: s.indexes }

/-- `assign_liveliness_index` (`graph/graph_interpretor.py` 74-106). -/
def assignLive (prevOf nextOf : Nat → List Nat) (order : List Nat) : Option Live :=
  order.foldlM (liveStep prevOf nextOf) {}

/-- State of `assign_cst`: `index_count`, `available_indexes`, `dict_cst`, `visited_layers`. -/
structure Cst where
  count : Nat := 0
  avail : List Nat := []
  dict : List (Nat × Nat) := []
  visited : List Nat := []
  deriving DecidableEq, Repr

/-- `dict_cst.get(i)` -/
def Cst.get? (s : Cst) (i : Nat) : Option Nat := (s.dict.find? (fun e => e.1 == i)).map (·.2)

/-- The loop over `layer.previous_layer` in `assign_cst` (`graph/graph_interpretor.py` 119-123);
`visited` already contains the current layer. -/
def freeCst (nextOf : Nat → List Nat) (s : Cst) (visited : List Nat) : List Nat → List Nat → List Nat
  | [], avail => avail
  | p :: ps, avail =>
    match s.get? p with
    | none => freeCst nextOf s visited ps avail
    | some k =>
      if (nextOf p).all (fun c => visited.contains c) then freeCst nextOf s visited ps (k :: avail)
      else freeCst nextOf s visited ps avail

/-- One iteration of `assign_cst` (`graph/graph_interpretor.py` 116-129).  (A layer visited twice
would be re-inserted in the dictionary; the first match of the association list is the newest.) -/
def cstStep (prevOf nextOf : Nat → List Nat) (s : Cst) (n : Nat) : Cst :=
  let visited := n :: s.visited
  let avail := freeCst nextOf s visited (prevOf n) s.avail
  if (nextOf n).length > 1 then
    match avail with
    | [] => { count := s.count + 1, avail := [], dict := (n, s.count) :: s.dict, visited := visited }
    | k :: avail => { count := s.count, avail := avail, dict := (n, k) :: s.dict, visited := visited }
  else { s with avail := avail, visited := visited }

/-- `assign_cst` (`graph/graph_interpretor.py` 109-130). -/
def assignCst (prevOf nextOf : Nat → List Nat) (order : List Nat) : Cst :=
  order.foldl (cstStep prevOf nextOf) {}

/-- Result of `tri_topo`: the sorted layers (by index), each layer's `path`, the number of paths and
`dict_cst`. -/
structure Plan where
  order : List Nat
  path : Nat → Nat
  maxPath : Nat
  cst : Nat → Option Nat

/-- `tri_topo` (`graph/graph_interpretor.py` 28-55). -/
def triTopo (dnn : Dnn) : Option Plan :=
  match moveConsts dnn.constOf (sortAll dnn.nextOf dnn.length dnn.idxs).1 with
  | none => none
  | some order =>
    match assignLive dnn.prevOf dnn.nextOf order with
    | none => none
    | some live =>
      let path := fun i => (live.get? i).getD 0
      some {
        order := order
        path := path
        -- max(i.path for i in sorted_layers) + 1
        maxPath := (order.map path).foldl max 0 + 1
        cst := (assignCst dnn.prevOf dnn.nextOf order).get? }

end Verif.Graph

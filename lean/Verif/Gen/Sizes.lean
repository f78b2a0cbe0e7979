import Verif.CMem.Basic
import Verif.Graph.Model

/-!
# The sizes of the arrays declared in `inference.h`
-/

namespace Verif.Gen

/-- What `generate_function_header_file` looks at in a layer (`generator/neural_network.py` 983-1019): its `idx`, its
`size`, its `patches_size` if it is a `Conv2DStdGemm` or `Conv2DGemmTarget`, whether it is a `Concatenate`. -/
structure LayerInfo where
  idx : Nat
  size : Nat
  patches : Option Nat := none
  concat : Bool := false
  deriving DecidableEq, Repr

/-- `l_size_max` (`generator/neural_network.py` 840) -/
def lSizeMax (ls : List LayerInfo) : Nat :=
  match ls with
  | [] => 1
  | l :: ls => ls.foldl (fun a l => max a l.size) l.size

/-- `patches_size_max` (`generator/neural_network.py` 981-990) -/
def patchesSizeMax (ls : List LayerInfo) : Nat :=
  ls.foldl (fun a l =>
    let a := match l.patches with
      | some p => if p > a then p else a
      | none => a
    if l.concat then max a l.size else a) 1

/-- `path_size` (`generator/neural_network.py` 992-997 and 1223-1228) -/
def pathSize (ls : List LayerInfo) : Nat :=
  if ls.any (fun l => l.patches.isSome) then max (lSizeMax ls) (patchesSizeMax ls) else lSizeMax ls

/-- `temp_size` (`generator/neural_network.py` 1019 and 1250) -/
def tempSize (ls : List LayerInfo) : Nat := max (lSizeMax ls) (patchesSizeMax ls)

/-- The loop filling `written` (`generator/neural_network.py` 1000-1013 and 1231-1244), over the items of `dict_cst`.
The variable `layer` survives from one iteration to the next: when no layer has the index, the previous one is used
(`none`: unbound, an exception). -/
def cstSizes (ls : List LayerInfo) : List (Nat × Nat) → Option LayerInfo → (Nat → Option Nat) → Option (Nat → Option Nat)
  | [], _, written => some written
  | (idx, k) :: rest, layer, written =>
    match (ls.find? fun l => l.idx == idx).or layer with
    | none => none
    | some l =>
      cstSizes ls rest (some l) fun k' => if k' = k then
        some (match written k with
          | none => l.size
          | some s => max s l.size)
        else written k'

/-- The declarations of `templates/template_header_file.c.tpl` 4-16, for a generated network with paths
`0 … maxPath-1` and `dict_cst` given as a list of items.  Arrays that are not declared there (the arguments of
`inference`, the parameters) have the sizes given by `other`. -/
def declared (ls : List LayerInfo) (maxPath : Nat) (dict : List (Nat × Nat)) (other : Buf → Nat) : Option (Buf → Nat) :=
  match cstSizes ls dict none (fun _ => none) with
  | none => none
  | some cst => some fun
    | .out k => if k < maxPath then pathSize ls else 0
    | .cst k => (cst k).getD 0
    | .temp => tempSize ls
    | b => other b

end Verif.Gen

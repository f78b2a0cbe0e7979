import Verif.Net.Model
import Mathlib.Data.List.Basic

/-!
# Tensors of any rank

Vocabulary of the ONNX specification (row-major tensors, multidirectional broadcasting), which is also that of numpy.
-/

namespace Verif.Onnx
open Net
variable {K : Type}

/-- number of elements of a tensor with dimensions `d` -/
def prod (d : List Nat) : Nat := d.foldr (· * ·) 1

/-- all the indices of a tensor with dimensions `d`, in row-major order -/
def indices : List Nat → List (List Nat)
  | [] => [[]]
  | d :: ds => (List.range d).flatMap fun i => (indices ds).map (i :: ·)

/-- position of an index in row-major order -/
def ravel : List Nat → List Nat → Nat
  | _ :: ds, i :: ix => i * prod ds + ravel ds ix
  | _, _ => 0

/-- the element at an index -/
def _root_.Verif.Net.Nd.get [Zero K] (t : Nd K) (ix : List Nat) : K := t.data.getD (ravel t.dims ix) 0

/-- the tensor with the given dimensions and elements -/
def mk (d : List Nat) (v : List Nat → K) : Nd K := ⟨d, (indices d).map v⟩

/-- the number of elements is what the dimensions say -/
def _root_.Verif.Net.Nd.Ok (t : Nd K) : Prop := t.data.length = prod t.dims

/-! ## Broadcasting -/

/-- dimensions extended on the left with ones to rank `r` -/
def padTo (r : Nat) (d : List Nat) : List Nat := List.replicate (r - d.length) 1 ++ d

/-- axes of length 1 are read at 0 -/
def mask : List Nat → List Nat → List Nat
  | n :: d, i :: ix => (if n = 1 then 0 else i) :: mask d ix
  | _, _ => []

/-- the element of `t` broadcast to a higher rank, at the index `ix` -/
def _root_.Verif.Net.Nd.bget [Zero K] (t : Nd K) (ix : List Nat) : K :=
  let d := padTo ix.length t.dims
  t.data.getD (ravel d (mask d ix)) 0

/-- the two lengths of an axis combined: equal, or one of them is 1 -/
def bdim (a b : Nat) : Option Nat := if a = b then some a else if a = 1 then some b else if b = 1 then some a else none

/-- the same for all the axes of two tensors of equal rank -/
def bdims : List Nat → List Nat → Option (List Nat)
  | [], [] => some []
  | x :: a, y :: b => do
    let d ← bdim x y
    let ds ← bdims a b
    some (d :: ds)
  | _, _ => none

/-- dimensions of the result of a broadcast -/
def bshape (a b : List Nat) : Option (List Nat) :=
  let r := max a.length b.length
  bdims (padTo r a) (padTo r b)

/-- `op(a, b)` element by element with broadcasting -/
def bcast [Zero K] (op : K → K → K) (a b : Nd K) : Option (Nd K) := do
  let d ← bshape a.dims b.dims
  some (mk d fun ix => op (a.bget ix) (b.bget ix))

end Verif.Onnx

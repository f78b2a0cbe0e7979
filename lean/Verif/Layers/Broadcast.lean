import Verif.CMem.Eval
import Mathlib.Algebra.Field.Defs
import Mathlib.Order.Defs.LinearOrder

/-!
# Broadcast layers (Add, Subtract, Multiply, Divide, Maximum, Minimum, Average)
-/

namespace Verif

/-- A numpy array of rank three (the batch axis is dropped by acetone). -/
structure Arr (α : Type) where
  C : Nat
  H : Nat
  W : Nat
  v : Nat → Nat → Nat → α

namespace Arr
variable {α β : Type}

/-- contents in C order -/
def flat (x : Arr α) : List α := tensor3 x.C x.H x.W x.v

/-- element-wise map -/
def map (g : α → β) (x : Arr α) : Arr β := ⟨x.C, x.H, x.W, fun f i j => g (x.v f i j)⟩

end Arr

namespace Np
variable {α : Type}

/-- numpy's rule for one axis: equal sizes, or one of them is 1 -/
def bdim (a b : Nat) : Option Nat :=
  if a = b then some a else if a = 1 then some b else if b = 1 then some a else none

/-- index used in an operand of size `d` for the index `i` of the result -/
def bidx (d i : Nat) : Nat := if d = 1 then 0 else i

/-- element of an array broadcast to a larger shape -/
def bget (x : Arr α) (f i j : Nat) : α := x.v (bidx x.C f) (bidx x.H i) (bidx x.W j)

/-- `np.maximum(x, y)`, `x + y`, ... : element-wise operation with broadcasting, or an exception -/
def binop (op : α → α → α) (x y : Arr α) : Option (Arr α) :=
  match bdim x.C y.C, bdim x.H y.H, bdim x.W y.W with
  | some C, some H, some W => some ⟨C, H, W, fun f i j => op (bget x f i j) (bget y f i j)⟩
  | _, _, _ => none

/-- `x += y`, ...: in-place operation; raises unless the result has the shape of `x` -/
def inplace (op : α → α → α) (x y : Arr α) : Option (Arr α) :=
  match binop op x y with
  | some z => if z.C = x.C ∧ z.H = x.H ∧ z.W = x.W then some z else none
  | none => none

end Np

namespace Layers
open Prog
variable {α : Type}

/-- an array read by a layer: its name (`output_str`) and its dimensions (`input_shapes[k][1:]`) -/
structure Operand where
  buf : Buf
  C : Nat
  H : Nat
  W : Nat

/-- `ctx->{{output_str}}[(j%W) + W*((i%H) + H*(f % C))]` (`template_Broadcast.c.tpl` 9-24) -/
def Operand.read (o : Operand) (f i j : Nat) : Prog α α :=
  load o.buf ((j % o.W + o.W * (i % o.H + o.H * (f % o.C)) : Nat) : Int)

/-- the classes deriving from Broadcast -/
inductive BOp | add | sub | mul | div | max | min | avg
  deriving DecidableEq

/-- `specific_operator` / `fmax` / `fmin` (`layers/broadcast/*/` classes, line 52; template 11, 17) -/
def BOp.fn [Field α] [LinearOrder α] : BOp → α → α → α
  | .add => (· + ·)
  | .sub => (· - ·)
  | .mul => (· * ·)
  | .div => (· / ·)
  | .max => Max.max
  | .min => Min.min
  | .avg => (· + ·)

/-- ` op o1 op o2 ...` after a left operand already evaluated to `x` (C is left-associative) -/
def chain (op : α → α → α) (f i j : Nat) : List Operand → α → Prog α α
  | [], x => pure x
  | o :: os, x => do
    let y ← o.read f i j
    chain op f i j os (op x y)

/-- the repeated `tensor_temp[..] = fmax(tensor_temp[..], o[..]);` statements -/
def chainTemp (op : α → α → α) (H W f i j : Nat) : List Operand → Prog α Unit
  | [] => pure ()
  | o :: os => do
    let t ← load .temp (at3 H W f i j : Int)
    let y ← o.read f i j
    store .temp (at3 H W f i j : Int) (op t y)
    chainTemp op H W f i j os

/-- `templates/layers/template_Broadcast.c.tpl` filled by `layers/broadcast/Broadcast.py` 127-191.
`cst` is the optional constant operand (its array is `constant_<name>_<idx>`), only written for the
operators of the `{{#other}}` section.  Without producer the rendered text is not C. -/
def broadcastCode [Field α] [LinearOrder α] (op : BOp) (C H W size : Nat) (act : α → α)
    (prev : List Operand) (cst : Option Operand) (road : Nat) : Prog α Unit := do
  loop3 C H W fun f i j =>
    match op, prev with
    | _, [] => fun _ => none
    | .max, o :: os => do
      let x ← o.read f i j
      store .temp (at3 H W f i j : Int) x
      chainTemp Max.max H W f i j os
    | .min, o :: os => do
      let x ← o.read f i j
      store .temp (at3 H W f i j : Int) x
      chainTemp Min.min H W f i j os
    | .avg, o :: os => do
      let x ← o.read f i j
      let s ← chain (· + ·) f i j os x
      store .temp (at3 H W f i j : Int) (s / ((os.length + 1 : Nat) : α))
    | op, o :: os => do
      let x ← o.read f i j
      let s ← chain op.fn f i j os x
      match cst with
      | none => store .temp (at3 H W f i j : Int) s
      | some c => do
        let y ← c.read f i j
        store .temp (at3 H W f i j : Int) (op.fn s y)
  copyMap size .temp (.out road) act

/-- `forward_path_layer` of Add (112-135), Subtract (125-137), Multiply, Divide, Maximum
(125-130), Minimum, Average (114-119) applied to the list of producers' tensors; `none` is a numpy
exception.  Without a constant, Subtract/Multiply/Divide still combine with `zeros(1)`/`ones(1)`.
(Simplification: the tensors have the shapes `input_shapes[k][1:]`.) -/
def broadcastForward [Field α] [LinearOrder α] (op : BOp) (act : α → α) (cst : Option (Arr α)) :
    List (Arr α) → Option (Arr α)
  | [] => none
  | x :: xs =>
    (match op with
    | .max => xs.foldlM (Np.binop Max.max) x
    | .min => xs.foldlM (Np.binop Min.min) x
    | .avg => (xs.foldlM (Np.inplace (· + ·)) x).map (Arr.map fun s => s / ((xs.length + 1 : Nat) : α))
    | .add => xs.foldlM (Np.inplace (· + ·)) x
    | .sub => do
      let r ← xs.foldlM (Np.inplace (· - ·)) x
      Np.binop (· - ·) r (cst.getD ⟨1, 1, 1, fun _ _ _ => 0⟩)
    | .mul => do
      let r ← xs.foldlM (Np.inplace (· * ·)) x
      Np.binop (· * ·) r (cst.getD ⟨1, 1, 1, fun _ _ _ => 1⟩)
    | .div => do
      let r ← xs.foldlM (Np.inplace (· / ·)) x
      Np.binop (· / ·) r (cst.getD ⟨1, 1, 1, fun _ _ _ => 1⟩)).map (Arr.map act)

/-- the shape check of the constructor (`Broadcast.py` 113-123): each dimension is 1 or that of the
output -/
def fits (C H W : Nat) (x : Arr α) : Prop :=
  (x.C = 1 ∨ x.C = C) ∧ (x.H = 1 ∨ x.H = H) ∧ (x.W = 1 ∨ x.W = W)

/-- the consistency check (`Broadcast.py` 103-112): some operand reaches each output dimension -/
def attains (C H W : Nat) (xs : List (Arr α)) : Prop :=
  (∃ x ∈ xs, x.C = C) ∧ (∃ x ∈ xs, x.H = H) ∧ (∃ x ∈ xs, x.W = W)

end Layers
end Verif

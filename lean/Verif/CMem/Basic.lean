/-!
# The memory of the generated C program

Models the arrays the generated C code works on:
* `ctx->output_k`, `ctx->cst_k`, `ctx->tensor_temp` — the fields of the context structure declared
  in `templates/template_header_file.c.tpl`, sized by `generator/neural_network.py` 962-1065;
* `nn_input`, `prediction` — the parameters of the generated `inference` function
  (`templates/template_source_file.c.tpl`);
* the parameter arrays (`weights_<Layer>_<idx>`, `biases_...`, ...) written by
  `generator/neural_network.py` 1212-1265 (`templates/template_global_var_file.c.tpl`).

Simplifications: cells hold values of an arbitrary type `α` (no floating-point rounding), array
indices are mathematical integers (no `int` overflow), and an access outside the declared size is
an error (`none`) instead of undefined behaviour.
-/

namespace Verif

/-- Kinds of parameter arrays emitted in `global_vars.c` / the parameter file
(`generator/neural_network.py` 1212-1265). -/
inductive PKind | weights | biases | scale | mean | var | constant | patches | indices
  deriving DecidableEq, Repr

/-- Names of arrays visible to the generated inference function. -/
inductive Buf
  /-- `ctx->output_k` -/
  | out (k : Nat)
  /-- `ctx->cst_k` -/
  | cst (k : Nat)
  /-- `ctx->tensor_temp` -/
  | temp
  /-- the argument `nn_input` -/
  | input
  /-- the argument `prediction` -/
  | pred
  /-- a parameter array of the layer with this index -/
  | par (p : PKind) (idx : Nat)
  deriving DecidableEq, Repr

/-- Memory: each array has a size and a content. -/
structure Mem (α : Type) where
  size : Buf → Nat
  val : Buf → Nat → α

/-- A piece of C code: transforms the memory, returns a value, or fails (out-of-bounds access). -/
abbrev Prog (α β : Type) := Mem α → Option (β × Mem α)

namespace Prog
variable {α β γ : Type}

/-- value without effect -/
def ret (b : β) : Prog α β := fun m => some (b, m)

/-- sequential composition `p; q` -/
def andThen (p : Prog α β) (q : β → Prog α γ) : Prog α γ := fun m =>
  match p m with
  | none => none
  | some (b, m') => q b m'

instance : Monad (Prog α) where
  pure := ret
  bind := andThen

/-- `b[a]` as an expression -/
def load (b : Buf) (a : Int) : Prog α α := fun m =>
  if 0 ≤ a ∧ a < m.size b then some (m.val b a.toNat, m) else none

/-- `b[a] = v;` -/
def store (b : Buf) (a : Int) (v : α) : Prog α Unit := fun m =>
  if 0 ≤ a ∧ a < m.size b then
    some ((), { m with val := fun b' a' => if b' = b ∧ a' = a.toNat then v else m.val b' a' })
  else none

/-- `for (i = 0; i < n; ++i) acc = body(i, acc)`: a counted loop with a local variable. -/
def foldN (n : Nat) (init : β) (body : Nat → β → Prog α β) : Prog α β :=
  match n with
  | 0 => ret init
  | n + 1 => andThen (foldN n init body) (body n)

/-- `for (i = 0; i < n; ++i) body(i)` -/
def forN (n : Nat) (body : Nat → Prog α Unit) : Prog α Unit :=
  foldN n () (fun i _ => body i)

end Prog
end Verif

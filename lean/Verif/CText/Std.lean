import Verif.CText.Act
import Verif.CText.Templates
import Verif.CMem.Loops
import Mathlib.Tactic.Linarith

/-!
# What surrounds a layer's text

The arrays and variables that `templates/template_source_file.c.tpl` and the other generated files declare, the
statement that a text does what a program does (`Renders`), and more rules for `Sim`.
-/

namespace Verif.CText
open Prog
set_option linter.unusedSectionVars false

/-! ## Arrays -/

/-- is `p` a prefix of `cs` -/
def isPrefix : List Char → List Char → Bool
  | [], _ => true
  | _ :: _, [] => false
  | a :: p, c :: cs => a = c && isPrefix p cs

/-- The kind of a parameter array, by the beginning of its name (`generator/neural_network.py` 1212-1265,
`templates/layers/*/..`, `templates/template_global_var_file.c.tpl`). -/
def parKind (cs : List Char) : Option PKind :=
  if isPrefix (chars! "weights_") cs then some .weights
  else if isPrefix (chars! "biases_") cs then some .biases
  else if isPrefix (chars! "scale_") cs then some .scale
  else if isPrefix (chars! "mean_") cs then some .mean
  else if isPrefix (chars! "var_") cs then some .var
  else if isPrefix (chars! "constant_") cs then some .constant
  else none

/-- The arrays of the generated program.  Fields of the context: `templates/template_header_file.c.tpl`; arguments:
`templates/template_source_file.c.tpl` 18; parameters: named with the layer's index printed with two digits at least
(`f"{layer.idx:02d}"`, `generator/neural_network.py` 1212-1265). -/
def stdBuf : Bool → Ident → Option Buf
  | true, (.output, some ⟨false, n⟩) => some (.out n)
  | true, (.cst, some ⟨false, n⟩) => some (.cst n)
  | true, (.tensor_temp, none) => some .temp
  | false, (.nn_input, none) => some .input
  | false, (.prediction, none) => some .pred
  | false, (.other cs, some s) => if s.padded = decide (s.value < 10) then (parKind cs).map (.par · s.value) else none
  | _, _ => none

/-- the C library: any functions, the same for the text and the program -/
structure Lib (K : Type) where
  exp : K → K
  log : K → K
  sqrt : K → K
  inf : K

/-- the environment of a layer's text; `ints` are the constant arrays `indice_Gather_<idx>` -/
def std {K : Type} (L : Lib K) (ints : Ident → Option (List Nat) := fun _ => none) : Globals K where
  buf := stdBuf
  ints := ints
  exp := L.exp
  log := L.log
  sqrt := L.sqrt
  inf := L.inf

/-- an operand of a layer: `layer.output_str` -/
inductive Ref | out (n : Nat) | cst (n : Nat)

/-- its text: `output_<n>` or `cst_<n>` (`core/layer.py`, `neural_network.py`) -/
def Ref.text {K : Type} : Ref → HVal K
  | .out n => .ref (chars! "output") n
  | .cst n => .ref (chars! "cst") n

def Ref.ident : Ref → Ident
  | .out n => (.output, some ⟨false, n⟩)
  | .cst n => (.cst, some ⟨false, n⟩)

/-- what the proofs about texts need of a reference -/
theorem Ref.any (K : Type) (r : Ref) : ∃ x n, (r.text : HVal K) = .ref x n ∧ r.ident = (.ofChars x, some ⟨false, n⟩) := by
  cases r <;> exact ⟨_, _, rfl, rfl⟩

def Ref.buf : Ref → Buf
  | .out n => .out n
  | .cst n => .cst n

/-- the tokens of a rendered template, to be part of another one -/
def rendered {K : Type} [NatCast K] [Div K] (text : List Char) (h : Hash K) : List (CTok K) :=
  ((tokens text).bind fun tt => inst tt h).getD []

variable {K : Type} [Field K] [LinearOrder K] [FloorRing K]

@[simp] theorem std_ref (L : Lib K) (ints : Ident → Option (List Nat)) (r : Ref) :
    (std L ints).buf true r.ident = some r.buf := by cases r <;> rfl

@[simp] theorem std_out (L : Lib K) (ints : Ident → Option (List Nat)) (n : Nat) :
    (std L ints).buf true (.output, some ⟨false, n⟩) = some (.out n) := rfl

@[simp] theorem std_temp (L : Lib K) (ints : Ident → Option (List Nat)) :
    (std L ints).buf true (.tensor_temp, none) = some .temp := rfl

@[simp] theorem std_input (L : Lib K) (ints : Ident → Option (List Nat)) :
    (std L ints).buf false (.nn_input, none) = some .input := rfl

@[simp] theorem std_pred (L : Lib K) (ints : Ident → Option (List Nat)) :
    (std L ints).buf false (.prediction, none) = some .pred := rfl

@[simp] theorem std_par (L : Lib K) (ints : Ident → Option (List Nat)) (cs : List Char) (n : Nat) :
    (std L ints).buf false (.other cs, some ⟨decide (n < 10), n⟩) = (parKind cs).map (.par · n) := by
  simp [std, stdBuf]

/-! ## Variables -/

/-- a type as a value -/
def Ty.dflt : Ty → Val K
  | .int => .int 0
  | .float => .flt 0
  | .ptr => .ptr .temp 0

/-- the variables `xs` are declared, with these types and any values -/
def Declares (e : Env K) (xs : List (Ident × Ty)) : Prop := ∀ p ∈ xs, sameTy (e p.1) (some (Ty.dflt (K := K) p.2))

theorem Declares.int {e : Env K} {xs : List (Ident × Ty)} (h : Declares e xs) (x : Ident) (hx : (x, Ty.int) ∈ xs) :
    IsInt e x := h _ hx

theorem Declares.float {e : Env K} {xs : List (Ident × Ty)} (h : Declares e xs) (x : Ident) (hx : (x, Ty.float) ∈ xs) :
    sameTy (e x) (some (.flt 0)) := h _ hx

/-- The text `text`, rendered with `h`, is a C program; run where the variables `xs` are declared, it does to the memory
exactly what `p` does: it fails where `p` fails, and otherwise terminates and leaves the same memory, having changed no
variable outside `xs`. -/
def Renders (G : Globals K) (text : List Char) (h : Hash K) (xs : List (Ident × Ty)) (p : Prog K Unit) : Prop :=
  ∃ s, code text h = some s ∧ ∃ F₀, ∀ e, Declares e xs → ∀ F, F₀ ≤ F → ∀ m,
    match p m with
    | none => s.run G F e m = none
    | some (_, m') => ∃ e', Agree (xs.map (·.1)) e' e ∧ s.run G F e m = some (e', m')

theorem Renders.of_sim {G : Globals K} {text : List Char} {h : Hash K} {xs : List (Ident × Ty)} {p : Prog K Unit}
    {s : Stmt K} (F₀ : Nat) (hs : code text h = some s)
    (hsim : ∀ e, Declares e xs → ∀ F, F₀ ≤ F → Sim G F (xs.map (·.1)) (xs.map (·.1)) e s p (fun _ => e)) : Renders G text h xs p := by
  refine ⟨s, hs, F₀, fun e he F hF m => ?_⟩
  have := hsim e he F hF e (Agree.refl _ _) m
  cases hp : p m with
  | none => rw [hp] at this; exact this
  | some r => rw [hp] at this; exact this

/-- Where the variables `xs` are declared, with any values, and where `p` succeeds, the statement `s` terminates and leaves
the same memory as `p`, having changed no variable outside `xs` and no type. -/
def DoesOk (G : Globals K) (s : Stmt K) (xs : List (Ident × Ty)) (p : Prog K Unit) : Prop :=
  ∃ F₀, ∀ e, Declares e xs → ∀ F, F₀ ≤ F → ∀ m u m', p m = some (u, m') →
    ∃ e', Agree (xs.map (·.1)) e' e ∧ s.run G F e m = some (e', m')

/-- `Renders` where `p` succeeds; where `p` fails nothing is claimed about the text. -/
def RendersOk (G : Globals K) (text : List Char) (h : Hash K) (xs : List (Ident × Ty)) (p : Prog K Unit) : Prop :=
  ∃ s, code text h = some s ∧ DoesOk G s xs p

theorem Renders.ok {G : Globals K} {text : List Char} {h : Hash K} {xs : List (Ident × Ty)} {p q : Prog K Unit}
    (hr : Renders G text h xs q) (hq : ∀ m r, p m = some r → q m = some r) : RendersOk G text h xs p := by
  obtain ⟨s, hs, F₀, hF⟩ := hr
  refine ⟨s, hs, F₀, fun e he F h m u m' hp => ?_⟩
  have := hF e he F h m
  rw [hq m _ hp] at this
  exact this

/-! ## Declarations -/

/-- no block declares an identifier twice -/
def noRedecl : Stmt K → Bool
  | .block s => decide (decls s).Nodup && noRedecl s
  | .seq a b => noRedecl a && noRedecl b
  | .for_ i _ s b => noRedecl i && noRedecl s && noRedecl b
  | .ite _ a b => noRedecl a && noRedecl b
  | _ => true

/-- a text that a C compiler accepts, as far as syntax and declarations are concerned -/
def IsC (text : List Char) (h : Hash K) : Prop := ∃ s, code text h = some s ∧ noRedecl s = true

end Verif.CText

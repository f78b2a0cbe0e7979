/-
Python floats as far as comparisons and exceptional values matter: NaN, the two infinities and
finite numbers.  Simplification: finite arithmetic is exact (no rounding, no overflow).
-/
import Mathlib.Algebra.Order.Field.Rat
import Mathlib.Tactic.NormNum

namespace Verif.Gen

/-- A Python float. -/
inductive PyFloat
  | nan
  | inf (neg : Bool)
  | fin (q : ℚ)
  deriving DecidableEq

namespace PyFloat

/-- IEEE `<`: false when an operand is NaN. -/
def lt : PyFloat → PyFloat → Bool
  | .nan, _ => false
  | _, .nan => false
  | .inf s, .inf t => s && !t
  | .inf s, .fin _ => s
  | .fin _, .inf t => !t
  | .fin p, .fin q => decide (p < q)

instance : LT PyFloat := ⟨fun a b => lt a b = true⟩
instance : DecidableLT PyFloat := fun a b => inferInstanceAs (Decidable (lt a b = true))

/-- Python `==` on floats: NaN is different from everything. -/
def eq : PyFloat → PyFloat → Bool
  | .nan, _ => false
  | a, b => decide (a = b)

/-- negation -/
def neg : PyFloat → PyFloat
  | .nan => .nan
  | .inf s => .inf !s
  | .fin q => .fin (-q)

/-- addition: `inf - inf` is NaN -/
def add : PyFloat → PyFloat → PyFloat
  | .nan, _ => .nan
  | _, .nan => .nan
  | .inf s, .inf t => if s = t then .inf s else .nan
  | .inf s, .fin _ => .inf s
  | .fin _, .inf t => .inf t
  | .fin p, .fin q => .fin (p + q)

/-- sign of a number as a factor, `none` for zero -/
def sgn (q : ℚ) : Option Bool := if q < 0 then some true else if q = 0 then none else some false

/-- multiplication: `0 * inf` is NaN -/
def mul : PyFloat → PyFloat → PyFloat
  | .nan, _ => .nan
  | _, .nan => .nan
  | .inf s, .inf t => .inf (xor s t)
  | .inf s, .fin q => match sgn q with
    | none => .nan
    | some t => .inf (xor s t)
  | .fin q, .inf s => match sgn q with
    | none => .nan
    | some t => .inf (xor s t)
  | .fin p, .fin q => .fin (p * q)

/-- division by a finite number other than zero (the only divisions that occur here) -/
def div : PyFloat → PyFloat → PyFloat
  | .nan, _ => .nan
  | _, .nan => .nan
  | .inf s, .fin q => .inf (xor s (decide (q < 0)))
  | .fin p, .fin q => .fin (p / q)
  | .fin _, .inf _ => .fin 0
  | .inf _, .inf _ => .nan

/-- `abs` -/
def abs : PyFloat → PyFloat
  | .nan => .nan
  | .inf _ => .inf false
  | .fin q => .fin |q|

instance : Neg PyFloat := ⟨neg⟩
instance : Add PyFloat := ⟨add⟩
instance : Sub PyFloat := ⟨fun a b => add a (neg b)⟩
instance : Mul PyFloat := ⟨mul⟩
instance : Div PyFloat := ⟨div⟩
instance : Zero PyFloat := ⟨.fin 0⟩

end PyFloat
end Verif.Gen

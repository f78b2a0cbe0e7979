import Verif.CText.Std
import Verif.CText.Tac

/-!
# The grammar and the pointers of the C fragment

Checks of the reader of C against C11: 6.5.5-6.5.9 (precedence and associativity of binary operators) and 6.5.2.1
(subscripting a pointer).
-/

namespace Verif.CText
open Prog
variable {K : Type}

/-- the symbol of an operator -/
def BinOp.sym : BinOp → Punct
  | .mul => .star | .div => .slash | .mod => .percent | .add => .plus | .sub => .minus
  | .lt => .lt | .gt => .gt | .le => .le | .ge => .ge | .eq => .eqeq

/-- C11: multiplicative operators bind tighter than additive ones, then relational ones, then equality -/
def BinOp.strength : BinOp → Nat
  | .mul | .div | .mod => 3
  | .add | .sub => 2
  | .lt | .gt | .le | .ge => 1
  | .eq => 0

/-- `x o₁ y o₂ z` is `x o₁ (y o₂ z)` if the second operator binds tighter, `(x o₁ y) o₂ z` otherwise. -/
theorem C53_precedence (o₁ o₂ : BinOp) (x y z : Nat) :
    expr (K := K) 40 0 [.num x, .punct o₁.sym, .num y, .punct o₂.sym, .num z] =
      some (if o₁.strength < o₂.strength then .bin o₁ (.num x) (.bin o₂ (.num y) (.num z))
        else .bin o₂ (.bin o₁ (.num x) (.num y)) (.num z), []) := by
  cases o₁ <;> cases o₂ <;> kernel_rfl

/-- A store through a pointer to the element `o` of an array goes to the element `o + a`. -/
theorem C53_pointer (G : Globals K) (env : Env K) (x : Ident) (b : Buf) (o a : Int) (hg : G.buf false x = none)
    (he : env x = some (.ptr b o)) : place G env false x a = some (b, o + a) := by
  simp [place, hg, he]

end Verif.CText

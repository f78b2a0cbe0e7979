/-
Model of the fixed-point support: `quantize/activation.py` (shift, cast and activation after a
quantised MatMul) and the quantisation of parameters in `generator/neural_network.py` 1067-1123.
Machine integers are integers; `wrapS w` is the conversion to a signed type of `w` bits.
-/
import Mathlib.Algebra.Order.Floor.Ring
import Mathlib.Data.Rat.Floor
import Verif.Gen.Text
import Verif.Layers.Activations

namespace Verif.Gen
open Verif.Layers

/-- Conversion of an integer to a signed `w`-bit type, in numpy (`astype`) and in C (`(int16_t)`;
implementation-defined in C11 6.3.1.3, reduction modulo `2^w` for gcc and clang). -/
def wrapS (w : Nat) (z : Int) : Int := z.bmod (2 ^ w)

/-- `z` is a value of the signed `w`-bit type. -/
def FitsS (w : Nat) (z : Int) : Prop := -2 ^ (w - 1) ≤ z ∧ z < 2 ^ (w - 1)

/-- `_compute_post_shift` (`quantize/activation.py` 45-62).  `none` is the `TypeError` of unpacking the
`None` that `parse_q_format` returns for a malformed string. -/
def postShift (tab : DigitTable) (qparam qin qout : List Char) : Option Nat :=
  match parseQFormat tab qparam, parseQFormat tab qin, parseQFormat tab qout with
  | some (_, mparam), some (_, min), some (_, mout) =>
    let qshift : Int := (min : Int) + mparam - mout
    if qshift < 0 then some 0 else some qshift.toNat
  | _, _, _ => none

/-- `np.right_shift(z, shift)` on a signed `w`-bit array element (`npy_rshift`: an arithmetic shift,
and the sign alone when `shift` is at least the width). -/
def npRightShift (w : Nat) (z : Int) (shift : Nat) : Int :=
  if shift < w then z / 2 ^ shift else if z < 0 then -1 else 0

/-- `QuantizeShiftActivation.compute` (`quantize/activation.py` 31-37) on one element of a signed
`wt`-bit array, with `pytype` a signed type of `wo` bits.  The logged warning is not modelled. -/
noncomputable def qshiftCompute (wt wo shift : Nat) (a : Act ℝ) (z : Int) : ℝ :=
  a.compute ((wrapS wo (npRightShift wt z shift) : Int) : ℝ)

/-- `QuantizeShiftActivation.write_activation_str` (`quantize/activation.py` 39-43): the wrapped
activation of the text `(ctype)(var >> shift)`. -/
noncomputable def qshiftText (shift : Nat) (a : Act ℝ) (x : Nat) : List (Tok ℝ) :=
  a.text [.cast, .lp, .var x, .op .shr, .num (shift : ℝ), .rp]

/-- C arithmetic of that text: integers are embedded in the reals; `>>` is an arithmetic shift (for
negative values implementation-defined in C11 6.5.7; so for gcc and clang), the cast is to a signed type of
`wo` bits. -/
noncomputable def qSem (wo : Nat) : Sem ℝ :=
  { realSem with
    shr := fun a b => ((⌊a⌋ / 2 ^ ⌊b⌋.toNat : Int) : ℝ)
    cast := fun a => ((wrapS wo ⌊a⌋ : Int) : ℝ) }

/-- The shift count is defined in C: smaller than the width of the promoted left operand
(C11 6.5.7p3; types narrower than `int` are promoted to 32 bits). -/
def ShiftDefined (wt shift : Nat) : Prop := shift < max wt 32

/-! ### Parameters -/

/-- `np.rint`: nearest integer, ties to even. -/
def rint (q : ℚ) : Int :=
  let f := ⌊q⌋
  if q - f < 1 / 2 then f
  else if 1 / 2 < q - f then f + 1
  else if f % 2 = 0 then f else f + 1

/-- Quantisation of an array of parameters (`neural_network.py` 1092-1114, the same three lines for
weights, biases and constant): `np.rint(w * 2**m).astype(dtype)`, and whether the "MSB truncated"
warning is logged.  `conv` is the conversion of a float to the integer type, which is
undefined for values that do not fit (numpy leaves it to the C compiler).
Simplification: the product `w * 2**m` is exact. -/
def quantParams (conv : Int → Int) (m : Nat) (ws : List ℚ) : List Int × Bool :=
  let r := ws.map fun w => rint (w * 2 ^ m)
  let q := r.map conv
  (q, (List.zipWith (fun a b => decide (a ≠ b)) r q).all id)

end Verif.Gen

/-
Model of the textual helpers: hexadecimal constants (`neural_network.py` 593-601), Q-formats
(`quantize/qform.py`) and the dispatch of a model file to its importer (`importers/parser.py`).
Texts are lists of characters.
-/
import Mathlib.Data.Rat.Defs
import Mathlib.Algebra.Order.Ring.Rat
import Mathlib.Data.List.Infix

namespace Verif.Gen

/-! ### Hexadecimal constants (C42) -/

/-- A Python `float` (IEEE double): zero, a finite number `± lead.mant · 2^exp` (`lead = false` for
subnormal numbers), or not finite. -/
inductive Dbl
  | zero (neg : Bool)
  | fin (neg lead : Bool) (mant : Nat) (exp : Int)
  | inf (neg : Bool)
  | nan

/-- One lower-case hexadecimal digit. -/
def hexDigit (d : Nat) : Char := "0123456789abcdef".toList.getD d '0'

/-- `'%0wx' % m`: `w` hexadecimal digits of `m`, most significant first. -/
def hexPad : Nat → Nat → List Char
  | 0, _ => []
  | w + 1, m => hexPad w (m / 16) ++ [hexDigit (m % 16)]

/-- `'%+d' % e`: the exponent with its sign. -/
def expText (e : Int) : List Char :=
  (if e < 0 then '-' else '+') :: Nat.toDigits 10 e.natAbs

/-- Python's `float.hex` (the C implementation: sign, `0x`, leading digit, 13 hexadecimal digits of
the mantissa, `p`, exponent). -/
def floatHex : Dbl → List Char
  | .zero neg => (if neg then ['-'] else []) ++ "0x0.0p+0".toList
  | .fin neg lead mant exp =>
    (if neg then ['-'] else []) ++ '0' :: 'x' :: (if lead then '1' else '0') :: '.' ::
      (hexPad 13 mant ++ 'p' :: expText exp)
  | .inf neg => (if neg then ['-'] else []) ++ "inf".toList
  | .nan => "nan".toList

/-- Python's `s.replace(pat, rep)` for a non-empty pattern: leftmost, non-overlapping. -/
def pyReplace (pat rep : List Char) (s : List Char) : List Char :=
  match s with
  | [] => []
  | c :: cs =>
    if pat.isPrefixOf (c :: cs) ∧ pat ≠ [] then
      rep ++ pyReplace pat rep ((c :: cs).drop pat.length)
    else c :: pyReplace pat rep cs
termination_by s.length
decreasing_by
  · rename_i h
    have : pat.length ≠ 0 := by
      intro h0; exact h.2 (List.length_eq_zero_iff.mp h0)
    simp only [List.length_drop, List.length_cons]; omega
  · simp

/-- The text written in the C files for a floating-point parameter when `to_hex` is set
(`data2c`, `neural_network.py` 593-599): `float.hex(float(d)).replace("0000000p", "p")`. -/
def data2c (d : Dbl) : List Char := pyReplace "0000000p".toList ['p'] (floatHex d)

/-! ### Q-formats (C43) -/

/-- Python's decimal digits: `\d` in a `str` pattern and `int()` accept every Unicode character of
category Nd.  The table is a parameter; only ASCII digits are used by this package. -/
abbrev DigitTable := Char → Option Nat

/-- Value of a digit string. -/
def digitsVal (tab : DigitTable) (ds : List Char) : Nat :=
  ds.foldl (fun acc c => 10 * acc + (tab c).getD 0) 0

/-- `parse_q_format` (`quantize/qform.py` 4-45): `re.match(r"^Q(-?\d+)\.(\d+)$", s)` then `int` of
both groups.  `\d+` is greedy and stops at the first character that is no digit; the pattern needs no
backtracking because neither `.` nor the end can be a digit.  `$` matches at the end and before a final newline.
Simplification: Python's limit on the length of integer texts is not modelled. -/
def parseQFormat (tab : DigitTable) (s : List Char) : Option (Int × Nat) :=
  match s with
  | 'Q' :: s =>
    let neg := s.head? = some '-'
    let s := if neg then s.drop 1 else s
    let ds := s.takeWhile (fun c => (tab c).isSome)
    match s.dropWhile (fun c => (tab c).isSome) with
    | '.' :: s =>
      let es := s.takeWhile (fun c => (tab c).isSome)
      let rest := s.dropWhile (fun c => (tab c).isSome)
      if ds ≠ [] ∧ es ≠ [] ∧ (rest = [] ∨ rest = ['\n']) then
        some (if neg then -(digitsVal tab ds : Int) else digitsVal tab ds, digitsVal tab es)
      else none
    | _ => none
  | _ => none

/-! ### Importer dispatch (C49) -/

/-- The importers of `importers/parser.py`. -/
inductive Importer | json | onnx | h5 | nnet
deriving DecidableEq

/-- `s[-4:]`. -/
def last4 (s : List Char) : List Char := s.drop (s.length - 4)

/-- `sub in s` for texts. -/
def contains (s sub : List Char) : Bool := s.tails.any (fun t => sub.isPrefixOf t)

/-- The chain of tests of `parser` on the extension (`importers/parser.py` 59-84); `keras` tells
whether the interpreter is a Python 3.10 or 3.11.  `none` is the final `TypeError`. -/
def dispatch (keras : Bool) (ext : List Char) : Option Importer :=
  if contains (last4 ext) "json".toList then some .json
  else if contains (last4 ext) "onnx".toList then some .onnx
  else if keras && contains (last4 ext) "h5".toList then some .h5
  else if contains (last4 ext) "nnet".toList then some .nnet
  else none

/-- `PurePath.suffix` of a path with final component `name`:
`i = name.rfind('.')`, and `name[i:]` if `0 < i < len(name) - 1`, else `''`. -/
def pathSuffix (name : List Char) : List Char :=
  let ext := name.reverse.takeWhile (· ≠ '.')
  if ext.length + 1 < name.length ∧ ext ≠ [] then '.' :: ext.reverse else []

/-- The argument of `parser`: a text or a `Path` (given by its final component). -/
inductive FileArg
  | text (s : List Char)
  | path (name : List Char)

/-- `parser` on a file name (`importers/parser.py` 50-84). -/
def parserFor (keras : Bool) : FileArg → Option Importer
  | .text s => dispatch keras s
  | .path name => dispatch keras (pathSuffix name)

end Verif.Gen

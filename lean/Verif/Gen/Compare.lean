/-
Model of `cli/compare.py`: the comparison of two files of inference results.

Simplifications: finite arithmetic is exact; `float.fromhex` with the splitting of a line
(`preprocess_line`) is a parameter that may fail.
-/
import Verif.Gen.PyFloat
import Verif.Gen.Normalize

namespace Verif.Gen

/-- Constants used by `compare_floats` (compare.py 32-33 and 42): `epsilon`, `abs_th`,
`sys.float_info.max`. -/
structure Tol where
  eps : ℚ
  absTh : ℚ
  maxF : ℚ

/-- `compare_floats` (compare.py 29-47): verdict, absolute and relative difference. -/
def compareFloats (t : Tol) (a b : PyFloat) : Bool × PyFloat × PyFloat :=
  let diff := (a - b).abs
  if a.eq b then (true, diff, .fin 0)
  else
    let norm := pyMin (a.abs + b.abs) (.fin t.maxF)
    let rel := if norm.eq (.fin 0) then .fin 0 else diff / (norm / .fin 2)
    if diff < pyMax (.fin t.absTh) (.fin t.eps * norm) then (true, diff, rel)
    else (false, diff, rel)

/-- The loop of `compare_lines` (compare.py 72-76), from position `j` on: `values_f2[j]` may be
missing (`IndexError`, `none`). -/
def compareValues (t : Tol) : List PyFloat → List PyFloat → Bool × PyFloat × PyFloat →
    Option (Bool × PyFloat × PyFloat)
  | [], _, acc => some acc
  | _ :: _, [], _ => none
  | a :: as, b :: bs, (ok, md, mr) =>
    let (c, diff, rel) := compareFloats t a b
    compareValues t as bs (c && ok, pyMax diff md, pyMax rel mr)

/-- `compare_lines` (compare.py 59-81); `read` is `preprocess_line`. -/
def compareLines {L : Type} (t : Tol) (read : L → Option (List PyFloat)) (l1 l2 : L) :
    Option (Bool × PyFloat × PyFloat) :=
  match read l1, read l2 with
  | some v1, some v2 => compareValues t v1 v2 (true, .fin 0, .fin 0)
  | _, _ => none

/-- The loop of `compare_files` (compare.py 98-113): it stops at the end of either file, and after
line number `nb_tests`, counted from 0; `k` is the number of lines still allowed. -/
def compareLoop {L : Type} (t : Tol) (read : L → Option (List PyFloat)) :
    Nat → List L → List L → Bool × PyFloat × PyFloat → Option (Bool × PyFloat × PyFloat)
  | 0, _, _, acc => some acc
  | _ + 1, [], _, acc => some acc
  | _ + 1, _ :: _, [], acc => some acc
  | k + 1, l1 :: f1, l2 :: f2, (ok, md, mr) =>
    match compareLines t read l1 l2 with
    | none => none
    | some (c, d, r) => compareLoop t read k f1 f2 (c && ok, pyMax d md, pyMax r mr)

/-- `compare_files` (compare.py 84-121): `range(nb_tests + 1)` allows `nb_tests + 1` lines. -/
def compareFiles {L : Type} (t : Tol) (read : L → Option (List PyFloat)) (f1 f2 : List L)
    (nbTests : Nat) : Option (Bool × PyFloat × PyFloat) :=
  compareLoop t read (nbTests + 1) f1 f2 (true, .fin 0, .fin 0)

/-- What `cli_compare` (compare.py 124-136) prints: the two maxima; the verdict is dropped. -/
def cliCompare {L : Type} (t : Tol) (read : L → Option (List PyFloat)) (f1 f2 : List L)
    (nbTests : Nat) : Option (PyFloat × PyFloat) :=
  (compareFiles t read f1 f2 nbTests).map fun r => r.2

end Verif.Gen

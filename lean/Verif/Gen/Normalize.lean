/-
Model of the input and output normalisation of NNET networks:
`importers/NNET_importer/nnet_normalize.py` (`Normalizer`) and
`templates/normalization/template_pre_processing.c.tpl`, `template_post_processing.c.tpl`,
`template_normalization_cst_in_global_var_file.c.tpl`.

Simplifications: no rounding (`float` against `double`); the C compiler's conversion of the decimal
texts of the constants is exact.
-/
import Verif.CMem.Basic

namespace Verif.Gen

variable {α : Type}

/-- `Normalizer.__init__` (nnet_normalize.py 34-51). -/
structure Normalizer (α : Type) where
  inputSize : Nat
  outputSize : Nat
  mins : List α
  maxes : List α
  means : List α
  ranges : List α

/-- Python's built-in `max(a, b)`: `b` only if it is larger. -/
def pyMax [LT α] [DecidableLT α] (a b : α) : α := if a < b then b else a

/-- Python's built-in `min(a, b)`: `b` only if it is smaller. -/
def pyMin [LT α] [DecidableLT α] (a b : α) : α := if b < a then b else a

/-- One element of `Normalizer.pre_processing` (nnet_normalize.py 128-129). -/
def prePy [LT α] [DecidableLT α] [Sub α] [Div α] (lo hi mean range x : α) : α :=
  (pyMax lo (pyMin hi x) - mean) / range

/-- `Normalizer.pre_processing` (nnet_normalize.py 121-130) on the flattened input: the loop over
`range(self.input_size)`; `none` is an `IndexError`. -/
def Normalizer.preProcessing [LT α] [DecidableLT α] [Sub α] [Div α] (N : Normalizer α) :
    Nat → List α → Option (List α)
  | 0, xs => some xs
  | i + 1, xs =>
    match N.preProcessing i xs with
    | none => none
    | some ys =>
      match ys[i]?, N.mins[i]?, N.maxes[i]?, N.means[i]?, N.ranges[i]? with
      | some x, some lo, some hi, some mean, some range => some (ys.set i (prePy lo hi mean range x))
      | _, _, _, _, _ => none

/-- `Normalizer.post_processing` (nnet_normalize.py 132-139); `none` is an `IndexError`
(`ranges[-1]` of an empty list). -/
def Normalizer.postProcessing [Add α] [Mul α] (N : Normalizer α) (ys : List α) : Option (List α) :=
  match N.ranges.getLast?, N.means.getLast? with
  | some range, some mean => some (ys.map fun y => y * range + mean)
  | _, _ => if ys = [] then some [] else none

/-- `float name[n] = {e0, e1, ...};` with the text of `array_to_str` (nnet_normalize.py 54-61):
missing elements are zero, too many are refused by the compiler, and so is the text of an empty
list. -/
def cArray [Zero α] (n : Nat) (l : List α) : Option (Nat → α) :=
  if l = [] ∨ n < l.length then none else some fun i => l.getD i 0

/-- The constants of `template_normalization_cst_in_global_var_file.c.tpl`, filled in by
`write_normalization_cst_in_globalvars_file` (nnet_normalize.py 99-119). -/
structure NormConsts (α : Type) where
  inputMin : Nat → α
  inputMax : Nat → α
  inputMean : Nat → α
  inputRange : Nat → α
  outputMean : α
  outputRange : α

/-- `write_normalization_cst_in_globalvars_file` (nnet_normalize.py 99-119): `means[:-1]`,
`ranges[:-1]` for the inputs, the last element for the outputs. -/
def Normalizer.consts [Zero α] (N : Normalizer α) : Option (NormConsts α) :=
  match cArray N.inputSize N.mins, cArray N.inputSize N.maxes,
      cArray N.inputSize N.means.dropLast, cArray N.inputSize N.ranges.dropLast,
      N.means.getLast?, N.ranges.getLast? with
  | some a, some b, some c, some d, some e, some f => some ⟨a, b, c, d, e, f⟩
  | _, _, _, _, _, _ => none

open Prog in
/-- `template_pre_processing.c.tpl` 1-17. -/
def preCode [LT α] [DecidableLT α] [Sub α] [Div α] (n : Nat) (K : NormConsts α) : Prog α Unit :=
  forN n fun i => do
    let x ← load .input i
    (if x < K.inputMin i then
      store .input i ((K.inputMin i - K.inputMean i) / K.inputRange i)
    else do
      let x ← load .input i
      (if K.inputMax i < x then
        store .input i ((K.inputMax i - K.inputMean i) / K.inputRange i)
      else do
        let x ← load .input i
        store .input i ((x - K.inputMean i) / K.inputRange i) : Prog α Unit) : Prog α Unit)

open Prog in
/-- `template_post_processing.c.tpl` 1-5. -/
def postCode [Add α] [Mul α] (n : Nat) (K : NormConsts α) : Prog α Unit :=
  forN n fun k => do
    let y ← load .pred k
    store .pred k (y * K.outputRange + K.outputMean)

end Verif.Gen

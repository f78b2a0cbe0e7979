/-
Model of the debug helpers (`debug/debug_tools.py`), of the choice of the layers to record
(`generator/neural_network.py` 357-369, 554-569, 909-921) and of the format of the debug file
(`templates/template_source_file.c.tpl`, the `debug_layer` block).

Texts are lists of characters; a text file is the list of its lines, each with its newline.
-/
import Verif.Gen.PyFloat
import Verif.CMem.Spec
import Mathlib.Data.List.Sort

namespace Verif.Gen

/-! ### Python texts -/

/-- `s.split(" ")`. -/
def splitSp : List Char → List (List Char)
  | [] => [[]]
  | c :: cs =>
    match splitSp cs with
    | [] => [[c]]
    | t :: ts => if c = ' ' then [] :: t :: ts else (c :: t) :: ts

/-- `int(s)`.  Simplification: only unsigned ASCII decimals are read; everything else is the
`ValueError` (Python also accepts signs, surrounding blanks, underscores and other digits). -/
def pyNat (s : List Char) : Option Nat :=
  if s ≠ [] ∧ s.all Char.isDigit then some (Nat.ofDigitChars 10 s 0) else none

/-! ### `reorder_outputs` (`debug_tools.py` 72-91) -/

/-- `d[k] = v` on a dictionary kept in insertion order: an existing key keeps its place. -/
def dictSet {K V : Type} [DecidableEq K] (k : K) (v : V) : List (K × V) → List (K × V)
  | [] => [(k, v)]
  | (k', v') :: d => if k' = k then (k', v) :: d else (k', v') :: dictSet k v d

/-- The first loop, lines 81-84: `dictionary[int(targets[i].split(" ")[-1])] = (outputs[i], targets[i])`. -/
def reorderDict {V : Type} : List V → List (List Char) → List (Nat × V × List Char) →
    Option (List (Nat × V × List Char))
  | _, [], d => some d
  | [], _ :: _, _ => none
  | o :: os, t :: ts, d =>
    match pyNat ((splitSp t).getLastD []) with
    | some k => reorderDict os ts (dictSet k (o, t) d)
    | none => none

/-- `reorder_outputs`; `none` is an exception. -/
def reorderOutputs {V : Type} (outputs : List V) (targets : List (List Char)) :
    Option (List V × List (List Char)) :=
  (reorderDict outputs targets []).map fun d =>
    let s := d.insertionSort (fun a b => a.1 ≤ b.1)
    (s.map (·.2.1), s.map (·.2.2))

/-! ### `extract_outputs_python` (`debug_tools.py` 136-149) -/

/-- The inner loop for one requested index: `indices == int(result_python[1][i][-1])` — the last
*character* of the target. -/
def pickPython {V : Type} (req : Nat) : List V → List (List Char) → Option (List V × List (List Char))
  | _, [] => some ([], [])
  | os, t :: ts =>
    match t.getLast?.bind (fun c => pyNat [c]) with
    | none => none
    | some k =>
      match pickPython req os.tail ts with
      | none => none
      | some (vs, us) =>
        if req = k then
          match os with
          | [] => none
          | o :: _ => some (o :: vs, t :: us)
        else some (vs, us)

/-- Both loops. -/
def pickAll {V : Type} (os : List V) (ts : List (List Char)) :
    List Nat → Option (List V × List (List Char))
  | [] => some ([], [])
  | r :: rs =>
    match pickPython r os ts, pickAll os ts rs with
    | some (v1, t1), some (v2, t2) => some (v1 ++ v2, t1 ++ t2)
    | _, _ => none

/-- `extract_outputs_python` -/
def extractPython {V : Type} (os : List V) (ts : List (List Char)) (req : List Nat) :
    Option (List V × List (List Char)) :=
  match pickAll os ts req with
  | some (vs, us) => reorderOutputs vs us
  | none => none

/-! ### The debug file and `extract_outputs_c` (`debug_tools.py` 93-134) -/

/-- One recorded layer: its name, index, the shape if it is to be transposed
(`neural_network.py` 909-921), and the values of its output. -/
structure Block (V : Type) where
  name : List Char
  idx : Nat
  shape : Option (Nat × Nat × Nat)
  vals : List V

/-- `str(layer.name) + " " + str(layer.idx)` (`neural_network.py` 569; `debug_tools.py` 108). -/
def targetText (name : List Char) (idx : Nat) : List Char := name ++ ' ' :: Nat.toDigits 10 idx

/-- The two lines printed for a layer (`template_source_file.c.tpl`, `debug_layer`):
`fprintf(fp, "{{name}} {{idx}} {{to_transpose}} {{channels}} {{height}} {{width}}\n")` and the values,
each followed by a blank, then a newline.  `print` is `%.9g`.  (As generated, the values are taken from
`output_k`, which is not declared — it should be `ctx->output_k` — so that the file in debug mode does
not compile; the format is modelled as intended.) -/
def blockLines {V : Type} (print : V → List Char) (b : Block V) : List (List Char) :=
  [targetText b.name b.idx ++ ' ' :: (match b.shape with
      | none => ['0', ' ', ' ', ' ']
      | some (c, h, w) => '1' :: ' ' :: (Nat.toDigits 10 c ++ ' ' :: (Nat.toDigits 10 h ++ ' ' ::
          Nat.toDigits 10 w))) ++ ['\n'],
   b.vals.flatMap (fun v => print v ++ [' ']) ++ ['\n']]

/-- `np.transpose(np.reshape(line, (C, H, W)), (1, 2, 0)).flatten()`; `none` if the sizes differ. -/
def chwToHwc {V : Type} (s : Nat × Nat × Nat) (l : List V) : Option (List V) :=
  let (C, H, W) := s
  if l.length = C * H * W then
    ((List.range (H * W * C)).map fun a => l[(a / C / W * W + a / C % W) + H * W * (a % C)]?).mapM id
  else none

/-- One line: state is (results, targets, shape to transpose with). -/
def extractStep {V : Type} (parse : List Char → Option V) (i : Nat) (line : List Char)
    (s : List (List V) × List (List Char) × Option (Nat × Nat × Nat)) :
    Option (List (List V) × List (List Char) × Option (Nat × Nat × Nat)) :=
  if i % 2 = 0 then do
    let toks := splitSp line.dropLast
    let a ← toks[0]?
    let b ← toks[1]?
    let tr ← toks[2]?.bind pyNat
    if tr ≠ 0 then do
      let c ← toks[3]?.bind pyNat
      let h ← toks[4]?.bind pyNat
      let w ← toks[5]?.bind pyNat
      some (s.1, s.2.1 ++ [a ++ ' ' :: b], some (c, h, w))
    else some (s.1, s.2.1 ++ [a ++ ' ' :: b], none)
  else do
    let v ← (splitSp line.dropLast.dropLast).mapM parse
    match s.2.2 with
    | some sh => do
      let v' ← chwToHwc sh v
      some (s.1 ++ [v'], s.2.1, s.2.2)
    | none => some (s.1 ++ [v], s.2.1, s.2.2)

/-- The loop over the lines, leaving after line `2 * nb_targets - 1`. -/
def extractLoop {V : Type} (parse : List Char → Option V) (nb : Nat) : Nat → List (List Char) →
    List (List V) × List (List Char) × Option (Nat × Nat × Nat) →
    Option (List (List V) × List (List Char) × Option (Nat × Nat × Nat))
  | _, [], s => some s
  | i, l :: ls, s =>
    match extractStep parse i l s with
    | none => none
    | some s' => if i + 1 = 2 * nb then some s' else extractLoop parse nb (i + 1) ls s'

/-- `extract_outputs_c`; `parse` is `int`, `float` or `np.float32` according to `data_type`
(for another `data_type` the values stay texts). -/
def extractC {V : Type} (parse : List Char → Option V) (lines : List (List Char)) (nb : Nat) :
    Option (List (List V) × List (List Char)) :=
  match extractLoop parse nb 0 lines ([], [], none) with
  | some (rs, ts, _) => reorderOutputs rs ts
  | none => none

/-! ### Which layers are recorded -/

/-- What matters of a layer here. -/
structure DebugLayer where
  name : List Char
  idx : Nat
  isConst : Bool

/-- `load_debug_target` (`neural_network.py` 357-369); `none` is the `IndexError` of `targets[-1]`. -/
def loadDebugTarget (keras : Bool) : List DebugLayer → List Nat → Option (List Nat)
  | [], acc => some acc
  | l :: ls, acc =>
    if keras ∧ l.name = "Softmax".toList then
      if acc = [] then none else loadDebugTarget keras ls (acc.dropLast ++ [l.idx])
    else loadDebugTarget keras ls (acc ++ [l.idx])

/-- The layers recorded in debug mode, by the reference (`neural_network.py` 555-569) and by the
generated code (909-921): both loop over `self.layers` with the same test. -/
def recorded (targets : List Nat) (layers : List DebugLayer) : List DebugLayer :=
  layers.filter fun l => decide (l.idx ∈ targets) && !l.isConst

/-! ### `compare_result` (`debug_tools.py` 27-70) -/

/-- One element of `np.testing.assert_allclose(actual, desired)`: NaN only with NaN, infinities only
with themselves, otherwise `|actual - desired| ≤ atol + rtol * |desired|`. -/
def allclose1 (atol rtol : ℚ) : PyFloat → PyFloat → Bool
  | .nan, .nan => true
  | .inf s, .inf t => s == t
  | .fin a, .fin d => decide (|a - d| ≤ atol + rtol * |d|)
  | _, _ => false

/-- `assert_allclose` on flat arrays passes (different lengths do not). -/
def allcloseArr (atol rtol : ℚ) (a d : List PyFloat) : Bool :=
  a.length == d.length && (List.zipWith (allclose1 atol rtol) a d).all id

/-- `compare_result` with `verbose=False`; `none` is the `IndexError` of `targets[i]`.
(With `verbose=True` and empty lists it divides by zero.) -/
def compareResult (atol rtol : ℚ) (a r : List (List PyFloat)) (targets : List (List Char)) :
    Option Bool :=
  if a.length ≠ r.length then some false
  else if targets.length < a.length then none
  else some ((List.zipWith (allcloseArr atol rtol) a r).foldl (· && ·) true)

end Verif.Gen

/-
Model of the generated test driver (`templates/template_main_file.c.tpl` 44-52) and of
`batch_loop` (`templates/template_train_hook_file.c.tpl` 7-18): the blocked loop that runs
`inference` on every sample, `MAX_BATCH_SIZE` samples at a time, each in its own context,
in an OpenMP parallel region.
-/
import Verif.CMem.Basic

namespace Verif.Gen

variable {α L : Type}

/-- What the driver works on: the contexts `Context[i]` (`template_global_var_file.c.tpl` 4),
the rows `predictions[r]` and the rows `nn_test_inputs[r]`. -/
structure World (α : Type) where
  ctx : Nat → Buf → Nat → α
  pred : Nat → Nat → α
  inp : Nat → Nat → α

/-- The arrays `inference(&Context[i], predictions[r], nn_test_inputs[r])` works on.  `sz` are the
declared sizes and `par` the constant parameter arrays, shared by all calls. -/
def World.view (w : World α) (sz : Buf → Nat) (par : PKind → Nat → Nat → α) (i r : Nat) :
    Mem α :=
  ⟨sz, fun b => match b with
    | .input => w.inp r
    | .pred => w.pred r
    | .par k n => par k n
    | .out k => w.ctx i (.out k)
    | .cst k => w.ctx i (.cst k)
    | .temp => w.ctx i .temp⟩

/-- The effect of a call (or of one step of it) on the driver's data: the context `i` and the rows
`r`.  The parameter arrays are `const`. -/
def World.write (w : World α) (i r : Nat) (m : Mem α) : World α where
  ctx := fun i' b => if i' = i then (match b with
    | .out k => m.val (.out k)
    | .cst k => m.val (.cst k)
    | .temp => m.val .temp
    | b => w.ctx i' b) else w.ctx i' b
  pred := fun r' => if r' = r then m.val .pred else w.pred r'
  inp := fun r' => if r' = r then m.val .input else w.inp r'

/-- One atomic step of a call: reads and writes its arrays and its local variables, or fails. -/
abbrev Step (α L : Type) := L × Mem α → Option (L × Mem α)

/-- A call executed alone, step after step. -/
def runSteps : List (Step α L) → L × Mem α → Option (L × Mem α)
  | [], s => some s
  | f :: fs, s => match f s with
    | none => none
    | some s' => runSteps fs s'

/-- State of a parallel region: the shared data, and for each iteration its local variables and
the number of steps it has executed. -/
structure Region (α L : Type) where
  world : World α
  loc : Nat → L
  pc : Nat → Nat

/-- Iteration `i` of the block starting at sample `j` executes its next step. -/
def Region.step (sz : Buf → Nat) (par : PKind → Nat → Nat → α) (j : Nat)
    (steps : List (Step α L)) (st : Region α L) (i : Nat) : Option (Region α L) :=
  match steps[st.pc i]? with
  | none => none
  | some f =>
    match f (st.loc i, st.world.view sz par i (j + i)) with
    | none => none
    | some (l, m) => some
        { world := st.world.write i (j + i) m
          loc := fun i' => if i' = i then l else st.loc i'
          pc := fun i' => if i' = i then st.pc i + 1 else st.pc i' }

/-- A schedule names, step by step, the iteration that moves. -/
def Region.run (sz : Buf → Nat) (par : PKind → Nat → Nat → α) (j : Nat)
    (steps : List (Step α L)) : Region α L → List Nat → Option (Region α L)
  | st, [] => some st
  | st, i :: sched => match st.step sz par j steps i with
    | none => none
    | some st' => Region.run sz par j steps st' sched

/-- `for (i = 0; i < fin_bloc; ++i) inference(&Context[i], predictions[j+i], nn_test_inputs[j+i])`
under an OpenMP schedule (`template_main_file.c.tpl` 46-50): every iteration `i < fin` runs to its
end, and the region ends with a barrier.  Sequential consistency is assumed; the calls share no
written data, see `C40_driver`. -/
def block (sz : Buf → Nat) (par : PKind → Nat → Nat → α) (steps : List (Step α L)) (l0 : L)
    (j : Nat) (sched : List Nat) (w : World α) : Option (World α) :=
  (Region.run sz par j steps ⟨w, fun _ => l0, fun _ => 0⟩ sched).map Region.world

/-- A schedule executes each iteration of the block completely and nothing else. -/
def Complete (fin len : Nat) (sched : List Nat) : Prop :=
  ∀ i, sched.count i = if i < fin then len else 0

/-- `int fin_bloc = j + B > n ? n % B : B` (`template_main_file.c.tpl` 45). -/
def finBloc (B n j : Nat) : Nat := if j + B > n then n % B else B

/-- `for (j = 0; j < n; j += B) { … }` (`template_main_file.c.tpl` 44-52) with `MAX_BATCH_SIZE = B + 1`;
`sched j` is the schedule of the block starting at `j`.
`MAX_BATCH_SIZE` is 32 (`neural_network.py` 970). -/
def driver (sz : Buf → Nat) (par : PKind → Nat → Nat → α) (steps : List (Step α L)) (l0 : L)
    (B n : Nat) (sched : Nat → List Nat) (j : Nat) (w : World α) : Option (World α) :=
  if j < n then
    match block sz par steps l0 j (sched j) w with
    | none => none
    | some w' => driver sz par steps l0 B n sched (j + (B + 1)) w'
  else some w
termination_by n - j

/-- The calls issued by the driver, in the order of the loop: context, prediction row, input row. -/
def calls (B n j : Nat) : List (Nat × Nat × Nat) :=
  if j < n then
    (List.range (finBloc (B + 1) n j)).map (fun i => (i, j + i, j + i)) ++ calls B n (j + (B + 1))
  else []
termination_by n - j

end Verif.Gen

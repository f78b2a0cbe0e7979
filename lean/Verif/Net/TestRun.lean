import Verif.Net.Keeps
import Verif.Net.Run
import Verif.Gen.DriverRows

/-!
# A whole run of the generated test program

The program of `templates/template_main_file.c.tpl` calls `inference` on every sample of the dataset, in parallel on
`MAX_BATCH_SIZE` contexts which are reused from block to block and never cleared.  Here: for every network of
`C52_network_partial`, every number of samples and of contexts, every contents of the contexts and every interleaving of the
parallel calls, row `s` of `predictions` ends as the reference's prediction for sample `s`.
-/

namespace Verif.Net
open Prog Graph Gen Layers

variable {K : Type} [Field K] [LinearOrder K] [FloorRing K]
set_option linter.unusedSectionVars false

/-- a program as one step of a call (it has no local variables) -/
def stepOf (p : Prog K Unit) : Step K Unit := fun s => p s.2

/-- the copy of the result to `prediction` (the end of `Network.inference`) -/
def Network.outputStep (net : Network K) (plan : Plan) : Prog K Unit :=
  match plan.order.getLast? with
  | none => ret ()
  | some n =>
    let s := ((net.op n).chans).getD ⟨0, 0, 0⟩
    outputCode net.fmt .first (net.op n).chans.isSome s.C s.H s.W (net.op n).size (plan.path n)

/-- `inference`, cut in steps: each layer's code, each copy to a `cst` array, the copy to `prediction` -/
def Network.steps (net : Network K) (M : CMath K) (plan : Plan) : List (Step K Unit) :=
  (plan.order.flatMap fun n =>
    [stepOf (net.layerCode M n ((net.graph.prevOf n).map (outStr plan)) (.out (plan.path n))), stepOf (cstCopy plan (fun n => (net.op n).size) n)]) ++
  [stepOf (net.outputStep plan)]

theorem runSteps_layers (net : Network K) (M : CMath K) (plan : Plan) (ns : List Nat) (m : Mem K) :
    runSteps (ns.flatMap fun n =>
      [stepOf (net.layerCode M n ((net.graph.prevOf n).map (outStr plan)) (.out (plan.path n))), stepOf (cstCopy plan (fun n => (net.op n).size) n)]) ((), m) =
    runLayers plan net.graph.prevOf (fun n => (net.op n).size) (net.layerCode M) ns m := by
  induction ns generalizing m with
  | nil => rfl
  | cons n ns ih =>
    simp only [List.flatMap_cons, List.cons_append, List.nil_append, runSteps, runLayers, stepOf, andThen]
    cases net.layerCode M n ((net.graph.prevOf n).map (outStr plan)) (.out (plan.path n)) m with
    | none => rfl
    | some r =>
      obtain ⟨⟨⟩, m₁⟩ := r
      simp only
      cases cstCopy plan (fun n => (net.op n).size) n m₁ with
      | none => rfl
      | some r =>
        obtain ⟨⟨⟩, m₂⟩ := r
        exact ih m₂

/-- the steps, one after the other, are the function `inference` -/
theorem runSteps_inference (net : Network K) (M : CMath K) (plan : Plan) (m : Mem K) :
    runSteps (net.steps M plan) ((), m) = net.inference M plan m := by
  unfold Network.steps
  rw [runSteps_append, runSteps_layers]
  unfold Network.inference
  simp only [bind, andThen]
  cases runLayers plan net.graph.prevOf (fun n => (net.op n).size) (net.layerCode M) plan.order m with
  | none => rfl
  | some r =>
    obtain ⟨⟨⟩, m₁⟩ := r
    simp only [Option.bind_some, runSteps, stepOf]
    unfold Network.outputStep
    cases plan.order.getLast? with
    | none => rfl
    | some n =>
      dsimp only
      cases outputCode net.fmt .first (net.op n).chans.isSome ((net.op n).chans.getD ⟨0, 0, 0⟩).C
        ((net.op n).chans.getD ⟨0, 0, 0⟩).H ((net.op n).chans.getD ⟨0, 0, 0⟩).W (net.op n).size (plan.path n) m₁ <;> rfl

theorem framed_of_keeps {p : Prog K Unit} (h : Keeps p) : Framed (stepOf p) := fun _ m _ m' hm => h.keeps m _ m' hm

theorem steps_framed (net : Network K) (M : CMath K) (plan : Plan) : ∀ f ∈ net.steps M plan, Framed f := by
  intro f hf
  simp only [Network.steps, List.mem_append, List.mem_flatMap, List.mem_cons, List.not_mem_nil, or_false] at hf
  rcases hf with ⟨n, -, rfl | rfl⟩ | rfl
  · exact framed_of_keeps (net.layerCode_keeps M n _ _)
  · refine framed_of_keeps ?_
    unfold cstCopy
    keeps
  · refine framed_of_keeps ?_
    unfold Network.outputStep
    split
    · exact Keeps.ret _
    · exact keeps_outputCode ..

/-! ## The theorem -/

section
variable [IsStrictOrderedRing K]

/-- What the compiled program contains before `main` starts: arrays of the sizes written in the header, with the
parameters of the layers in the global arrays.  Nothing is asked of the contents of the contexts. -/
structure Network.Loaded (net : Network K) (plan : Plan) (sz : Buf → Nat) (par : PKind → Nat → Nat → K) : Prop where
  declared : ∃ other, Gen.declared (plan.order.map fun n => (net.op n).info n) plan.maxPath (dictOf plan) other = some sz
  params : ∀ n ∈ plan.order, ∀ k i v, (Buf.par k i, v) ∈ (net.op n).params n →
    v.length ≤ sz (.par k i) ∧ ∀ j (h : j < v.length), par k i j = v[j]
  pred : ∀ n, plan.order.getLast? = some n → (net.op n).size ≤ sz .pred

theorem params_par (n : Nat) (op : Op K) : ∀ p ∈ op.params n, ∃ k i, p.1 = .par k i := by
  intro p hp
  unfold Op.params at hp
  split at hp <;> simp only [List.mem_cons, List.not_mem_nil, or_false] at hp
  · exact ⟨_, _, by rw [hp]⟩
  · rcases hp with rfl | rfl <;> exact ⟨_, _, rfl⟩
  · rcases hp with rfl | rfl <;> exact ⟨_, _, rfl⟩
  · rcases hp with rfl | rfl <;> exact ⟨_, _, rfl⟩
  · exact ⟨_, _, by rw [hp]⟩
  · rcases hp with rfl | rfl | rfl | rfl <;> exact ⟨_, _, rfl⟩

theorem Network.Loaded.memory {net : Network K} {plan : Plan} {sz : Buf → Nat} {par : PKind → Nat → Nat → K}
    (hl : net.Loaded plan sz par) {x : List K} {m : Mem K} (hs : m.size = sz) (hp : ∀ k i, m.val (.par k i) = par k i)
    (hi : Holds m .input x) : net.Memory plan x m := by
  refine ⟨by rw [hs]; exact hl.declared, ?_, hi, by rw [hs]; exact hl.pred⟩
  rintro n hn ⟨b, v⟩ hb
  obtain ⟨k, i, rfl⟩ := params_par n _ _ hb
  obtain ⟨h1, h2⟩ := hl.params n hn k i v hb
  refine ⟨by rw [hs]; exact h1, fun j hj => ?_⟩
  rw [hp]
  exact h2 j hj

/-- **C72 (in part).** A whole run of the test program.  Take any network of `C52_network_partial`, any number `n` of samples
`xs s`, any number `B + 1` of contexts with any contents, a decomposition of the calls of `inference` in steps (of any
granularity: the steps, one after the other, must be the generated function, and no step may change a constant array), and
any schedule of the parallel regions which runs each of their iterations to its end.  Then the driver ends without error,
the reference has a prediction for each sample, row `s` of `predictions` is the reference's prediction for sample `s`,
whatever the other samples are, and the rows past the number of samples are untouched. -/
theorem C72_any_steps_partial (net : Network K) (hwf : net.WF) (plan : Plan) (h : triTopo net.graph = some plan) (M : CMath K)
    (sz : Buf → Nat) (par : PKind → Nat → Nat → K) (hload : net.Loaded plan sz par)
    {L : Type} (l0 : L) (steps : List (Step K L)) (hframe : ∀ f ∈ steps, Framed f)
    (hsteps : ∀ m m', net.inference M plan m = some ((), m') → ∃ l', runSteps steps (l0, m) = some (l', m'))
    (n B : Nat) (sched : Nat → List Nat)
    (hsched : ∀ q, q * (B + 1) < n → Complete (finBloc (B + 1) n (q * (B + 1))) steps.length (sched (q * (B + 1))))
    (xs : Nat → Nd K) (w : World K)
    (hdata : ∀ s, s < n → (xs s).data.length ≤ sz .input ∧ ∀ k (hk : k < (xs s).data.length), w.inp s k = (xs s).data[k])
    (hx : ∀ s, s < n → ∀ l ∈ net.graph, ∀ r t, net.op l.idx = .input r t → (xs s).data.length = t.size)
    (hin : ∀ s, s < n → ∀ first x', plan.order.head? = some first → prepare net.fmt (net.op first) (xs s) = some x' →
      ∀ i ins, net.Receives M plan x' i ins → (net.op i).InputsOK M ins)
    (hlast : net.fmt = .last → ∀ i, plan.order.getLast? = some i → (net.op i).chans = none ∨ (net.op i).Rank3) :
    ∃ w', driver sz par steps l0 B n sched 0 w = some w' ∧
      (∀ s, s < n → ∃ y, net.reference M plan (xs s) = some y ∧
        y.length ≤ sz .pred ∧ ∀ k (hk : k < y.length), w'.pred s k = y[k]) ∧
      (∀ s, n ≤ s → w'.pred s = w.pred s) := by
  have hcalc : ∀ s, ∃ y, s < n → net.reference M plan (xs s) = some y ∧ CalculatesOn sz par steps l0 (w.inp s) y := by
    intro s
    by_cases hs : s < n
    · have key : ∀ m : Mem K, m.size = sz → (∀ k i, m.val (.par k i) = par k i) → m.val .input = w.inp s →
          ∃ y m', net.reference M plan (xs s) = some y ∧ net.inference M plan m = some ((), m') ∧ Holds m' .pred y := by
        intro m h1 h2 h3
        have hi : Holds m .input (xs s).data :=
          ⟨by rw [h1]; exact (hdata s hs).1, fun k hk => by rw [h3]; exact (hdata s hs).2 k hk⟩
        obtain ⟨y, m', e1, e2, e3, -⟩ := C52_network_partial net hwf plan h M (xs s) m (hx s hs) (hload.memory h1 h2 hi) (hin s hs) hlast
        exact ⟨y, m', e1, e2, e3⟩
      obtain ⟨y, -, e1, -⟩ := key (w.view sz par 0 s) rfl (fun _ _ => rfl) rfl
      refine ⟨y, fun _ => ⟨e1, fun m h1 h2 h3 => ?_⟩⟩
      obtain ⟨y', m', f1, f2, f3⟩ := key m h1 h2 h3
      rw [e1, Option.some.injEq] at f1
      subst f1
      obtain ⟨l', hl'⟩ := hsteps m m' f2
      exact ⟨l', m', hl', f3⟩
    · exact ⟨[], fun h => absurd h hs⟩
  choose y hy using hcalc
  obtain ⟨w', h1, h2, h3⟩ := C40_driver_rows sz par steps hframe l0 y B n sched hsched w (fun s hs => (hy s hs).2)
  exact ⟨w', h1, fun s hs => ⟨y s, (hy s hs).1, h2 s hs⟩, fun s hs => (h3 s hs).1⟩

/-- **C72 (in part), a layer at a time.** The same with each layer's code, each copy to a `cst` array and the copy to
`prediction` as the steps. -/
theorem C72_test_run_partial (net : Network K) (hwf : net.WF) (plan : Plan) (h : triTopo net.graph = some plan) (M : CMath K)
    (sz : Buf → Nat) (par : PKind → Nat → Nat → K) (hload : net.Loaded plan sz par) (n B : Nat) (sched : Nat → List Nat)
    (hsched : ∀ q, q * (B + 1) < n →
      Complete (finBloc (B + 1) n (q * (B + 1))) (net.steps M plan).length (sched (q * (B + 1))))
    (xs : Nat → Nd K) (w : World K)
    (hdata : ∀ s, s < n → (xs s).data.length ≤ sz .input ∧ ∀ k (hk : k < (xs s).data.length), w.inp s k = (xs s).data[k])
    (hx : ∀ s, s < n → ∀ l ∈ net.graph, ∀ r t, net.op l.idx = .input r t → (xs s).data.length = t.size)
    (hin : ∀ s, s < n → ∀ first x', plan.order.head? = some first → prepare net.fmt (net.op first) (xs s) = some x' →
      ∀ i ins, net.Receives M plan x' i ins → (net.op i).InputsOK M ins)
    (hlast : net.fmt = .last → ∀ i, plan.order.getLast? = some i → (net.op i).chans = none ∨ (net.op i).Rank3) :
    ∃ w', driver sz par (net.steps M plan) () B n sched 0 w = some w' ∧
      (∀ s, s < n → ∃ y, net.reference M plan (xs s) = some y ∧
        y.length ≤ sz .pred ∧ ∀ k (hk : k < y.length), w'.pred s k = y[k]) ∧
      (∀ s, n ≤ s → w'.pred s = w.pred s) :=
  C72_any_steps_partial net hwf plan h M sz par hload () (net.steps M plan) (steps_framed net M plan)
    (fun m m' hm => ⟨(), by rw [runSteps_inference, hm]⟩) n B sched hsched xs w hdata hx hin hlast

end

end Verif.Net

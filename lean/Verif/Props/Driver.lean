/-
C40: the generated test driver runs every sample exactly once, in its own row, whatever the OpenMP
schedule of each block.
-/
import Verif.Gen.Driver
import Verif.CMem.Spec
import Mathlib.Data.List.Count
import Mathlib.Tactic.Ring

namespace Verif.Gen

variable {α L : Type}

/-! ### The calls -/

theorem calls_from (B n q : Nat) :
    calls B n (q * (B + 1)) =
      (List.range' (q * (B + 1)) (n - q * (B + 1))).map (fun s => (s % (B + 1), s, s)) := by
  rw [calls]
  split
  · rename_i h
    have ih := calls_from B n (q + 1)
    have e : q * (B + 1) + (B + 1) = (q + 1) * (B + 1) := by ring
    rw [e, ih, ← e]
    have hblock : ∀ k, k ≤ B + 1 →
        (List.range k).map (fun i => (i, q * (B + 1) + i, q * (B + 1) + i)) =
        (List.range' (q * (B + 1)) k).map (fun s => (s % (B + 1), s, s)) := by
      intro k hk
      rw [List.range'_eq_map_range, List.map_map]
      apply List.map_congr_left
      intro i hi
      have hi' : i < B + 1 := lt_of_lt_of_le (List.mem_range.mp hi) hk
      have : (q * (B + 1) + i) % (B + 1) = i := by
        rw [Nat.add_comm, Nat.add_mul_mod_self_right]
        exact Nat.mod_eq_of_lt hi'
      simp only [Function.comp, this]
    unfold finBloc
    split
    · rename_i h2
      have hmod : n % (B + 1) = n - q * (B + 1) := by
        have : n = (n - q * (B + 1)) + q * (B + 1) := by omega
        conv_lhs => rw [this]
        rw [Nat.add_mul_mod_self_right]
        exact Nat.mod_eq_of_lt (by omega)
      rw [hmod, hblock _ (by omega)]
      have : n - (q * (B + 1) + (B + 1)) = 0 := by omega
      rw [this]; simp
    · rename_i h2
      rw [hblock _ (le_refl _), ← List.map_append, List.range'_append_1]
      congr 2
      omega
  · rename_i h
    have : n - q * (B + 1) = 0 := by omega
    rw [this]; rfl
termination_by n - q * (B + 1)
decreasing_by
  rename_i h
  have : (q + 1) * (B + 1) = q * (B + 1) + (B + 1) := by ring
  omega

/-- C40.  For every number of samples and every batch size, the driver issues exactly one call per
sample, in order: sample `s` uses prediction row `s`, input row `s` and context `s mod B`. -/
theorem C40_calls (B n : Nat) :
    calls B n 0 = (List.range n).map (fun s => (s % (B + 1), s, s)) := by
  have := calls_from B n 0
  simpa [List.range_eq_range'] using this

/-! ### The parallel regions -/

/-- Steps of a call write neither the constant parameter arrays nor the declared sizes. -/
def Framed (f : Step α L) : Prop :=
  ∀ l m l' m', f (l, m) = some (l', m') →
    m'.size = m.size ∧ ∀ k n, m'.val (.par k n) = m.val (.par k n)

theorem mem_ext {m m' : Mem α} (h1 : m.size = m'.size) (h2 : m.val = m'.val) : m = m' := by
  cases m; cases m'; cases h1; cases h2; rfl

theorem view_write_same (w : World α) (sz : Buf → Nat) (par : PKind → Nat → Nat → α) (i r : Nat)
    (m : Mem α) (h1 : m.size = sz) (h2 : ∀ k n, m.val (.par k n) = par k n) :
    (w.write i r m).view sz par i r = m := by
  apply mem_ext
  · exact h1.symm
  · funext b
    cases b <;> simp [World.view, World.write, h2]

theorem view_write_other (w : World α) (sz : Buf → Nat) (par : PKind → Nat → Nat → α)
    (i r i' r' : Nat) (m : Mem α) (hi : i' ≠ i) (hr : r' ≠ r) :
    (w.write i r m).view sz par i' r' = w.view sz par i' r' := by
  apply mem_ext
  · rfl
  · funext b
    cases b <;> simp [World.view, World.write, hi, hr]

theorem runSteps_append (fs gs : List (Step α L)) (s : L × Mem α) :
    runSteps (fs ++ gs) s = (runSteps fs s).bind (runSteps gs) := by
  induction fs generalizing s with
  | nil => simp [runSteps]
  | cons f fs ih =>
    simp only [List.cons_append, runSteps]
    cases f s with
    | none => simp
    | some s' => simp only [ih]

theorem runSteps_framed (fs : List (Step α L)) (hf : ∀ f ∈ fs, Framed f) (l : L) (m : Mem α)
    (l' : L) (m' : Mem α) (h : runSteps fs (l, m) = some (l', m')) :
    m'.size = m.size ∧ ∀ k n, m'.val (.par k n) = m.val (.par k n) := by
  induction fs generalizing l m with
  | nil =>
    simp only [runSteps, Option.some.injEq, Prod.mk.injEq] at h
    rw [← h.2]; exact ⟨rfl, fun _ _ => rfl⟩
  | cons f fs ih =>
    simp only [runSteps] at h
    rcases hs : f (l, m) with _ | ⟨l1, m1⟩
    · rw [hs] at h; simp at h
    · rw [hs] at h
      have h1 := hf f (List.mem_cons_self ..) l m l1 m1 hs
      have h2 := ih (fun g hg => hf g (List.mem_cons_of_mem _ hg)) l1 m1 h
      exact ⟨h2.1.trans h1.1, fun k n => (h2.2 k n).trans (h1.2 k n)⟩

/-- One invariant for the interleaving: each iteration is where it would be had it run alone for
as many steps. -/
structure Invar (sz : Buf → Nat) (par : PKind → Nat → Nat → α) (steps : List (Step α L)) (l0 : L)
    (j : Nat) (w0 : World α) (st : Region α L) : Prop where
  alone : ∀ i, runSteps (steps.take (st.pc i)) (l0, w0.view sz par i (j + i)) =
    some (st.loc i, st.world.view sz par i (j + i))
  bound : ∀ i, st.pc i ≤ steps.length

theorem take_succ' {β : Type} (l : List β) (k : Nat) (a : β) (h : l[k]? = some a) :
    l.take (k + 1) = l.take k ++ [a] := by
  rw [List.take_add_one, h]; rfl

theorem region_step (sz : Buf → Nat) (par : PKind → Nat → Nat → α) (steps : List (Step α L))
    (hframe : ∀ f ∈ steps, Framed f) (l0 : L) (j : Nat) (w0 : World α) (st : Region α L)
    (hI : Invar sz par steps l0 j w0 st) (i : Nat) (hi : st.pc i < steps.length)
    (hrun : (runSteps steps (l0, w0.view sz par i (j + i))).isSome) :
    ∃ st', st.step sz par j steps i = some st' ∧ Invar sz par steps l0 j w0 st' ∧
      st'.pc = (fun i' => if i' = i then st.pc i + 1 else st.pc i') ∧
      (∀ r, r ≠ j + i → st'.world.pred r = st.world.pred r ∧ st'.world.inp r = st.world.inp r) ∧
      (∀ i', i' ≠ i → st'.world.ctx i' = st.world.ctx i') := by
  obtain ⟨f, hf⟩ : ∃ f, steps[st.pc i]? = some f := ⟨_, List.getElem?_eq_getElem hi⟩
  have hmem : f ∈ steps := List.mem_of_getElem? hf
  have ha := hI.alone i
  rcases hs : f (st.loc i, st.world.view sz par i (j + i)) with _ | ⟨l, m⟩
  · exfalso
    have hsplit : steps = steps.take (st.pc i) ++ f :: steps.drop (st.pc i + 1) := by
      have h1 : steps.drop (st.pc i) = f :: steps.drop (st.pc i + 1) := by
        rw [List.drop_eq_getElem_cons hi]
        rw [List.getElem?_eq_getElem hi] at hf
        simp only [Option.some.injEq] at hf
        rw [hf]
      rw [← h1, List.take_append_drop]
    rw [hsplit, runSteps_append, ha] at hrun
    simp [runSteps, hs] at hrun
  · have hfr := hframe f hmem _ _ _ _ hs
    have hsz : m.size = sz := hfr.1
    have hpar : ∀ k n, m.val (.par k n) = par k n := hfr.2
    refine ⟨_, by simp only [Region.step, hf, hs]; rfl, ⟨?_, ?_⟩, rfl, ?_, ?_⟩
    · intro i'
      by_cases h : i' = i
      · subst h
        simp only [if_true]
        rw [take_succ' _ _ _ hf, runSteps_append, ha]
        simp only [Option.bind_some, runSteps, hs]
        rw [view_write_same _ _ _ _ _ _ hsz hpar]
      · simp only [h, if_false]
        rw [view_write_other _ _ _ _ _ _ _ _ h (by omega)]
        exact hI.alone i'
    · intro i'
      by_cases h : i' = i
      · subst h; simp only [if_true]; omega
      · simp only [h, if_false]; exact hI.bound i'
    · intro r hr
      simp [World.write, hr]
    · intro i' hi'
      funext b
      simp [World.write, hi']

theorem region_run (sz : Buf → Nat) (par : PKind → Nat → Nat → α) (steps : List (Step α L))
    (hframe : ∀ f ∈ steps, Framed f) (l0 : L) (j fin : Nat) (w0 : World α)
    (hrun : ∀ i < fin, (runSteps steps (l0, w0.view sz par i (j + i))).isSome)
    (sched : List Nat) (st : Region α L) (hI : Invar sz par steps l0 j w0 st)
    (hc : ∀ i, st.pc i + sched.count i ≤ steps.length) (hfin : ∀ i ∈ sched, i < fin) :
    ∃ st', Region.run sz par j steps st sched = some st' ∧ Invar sz par steps l0 j w0 st' ∧
      (∀ i, st'.pc i = st.pc i + sched.count i) ∧
      (∀ r, (∀ i < fin, r ≠ j + i) → st'.world.pred r = st.world.pred r ∧
        st'.world.inp r = st.world.inp r) ∧
      (∀ i, fin ≤ i → st'.world.ctx i = st.world.ctx i) := by
  induction sched generalizing st with
  | nil => exact ⟨st, rfl, hI, by simp, fun _ _ => ⟨rfl, rfl⟩, fun _ _ => rfl⟩
  | cons i sched ih =>
    have hifin := hfin i (List.mem_cons_self ..)
    have hi : st.pc i < steps.length := by
      have := hc i
      rw [List.count_cons_self] at this
      omega
    obtain ⟨st1, h1, hI1, hpc1, hrow1, hctx1⟩ :=
      region_step sz par steps hframe l0 j w0 st hI i hi (hrun i hifin)
    have hc1 : ∀ i', st1.pc i' + sched.count i' ≤ steps.length := by
      intro i'
      have := hc i'
      rw [hpc1]
      dsimp only
      by_cases h : i' = i
      · subst h; rw [List.count_cons_self] at this; simp only [if_true]; omega
      · rw [List.count_cons_of_ne (by simpa [eq_comm] using h)] at this
        simp only [h, if_false]; omega
    obtain ⟨st', h2, hI2, hpc2, hrow2, hctx2⟩ :=
      ih st1 hI1 hc1 (fun k hk => hfin k (List.mem_cons_of_mem _ hk))
    refine ⟨st', by simp only [Region.run, h1, h2], hI2, ?_, ?_, ?_⟩
    · intro i'
      rw [hpc2, hpc1]
      dsimp only
      by_cases h : i' = i
      · subst h; rw [List.count_cons_self]; simp only [if_true]; omega
      · rw [List.count_cons_of_ne (by simpa [eq_comm] using h)]
        simp only [h, if_false]
    · intro r hr
      have a := hrow2 r hr
      have b := hrow1 r (hr i hifin)
      exact ⟨a.1.trans b.1, a.2.trans b.2⟩
    · intro i' hi'
      exact (hctx2 i' hi').trans (hctx1 i' (by omega))

/-- C40, one block.  Whatever the interleaving of the calls of a block, each call ends as it would
alone, and no other row or context is touched. -/
theorem C40_block (sz : Buf → Nat) (par : PKind → Nat → Nat → α) (steps : List (Step α L))
    (hframe : ∀ f ∈ steps, Framed f) (l0 : L) (j fin : Nat) (w : World α)
    (lf : Nat → L) (mf : Nat → Mem α)
    (hrun : ∀ i < fin, runSteps steps (l0, w.view sz par i (j + i)) = some (lf i, mf i))
    (sched : List Nat) (hsched : Complete fin steps.length sched) :
    ∃ w', block sz par steps l0 j sched w = some w' ∧
      (∀ i < fin, w'.view sz par i (j + i) = mf i) ∧
      (∀ r, (∀ i < fin, r ≠ j + i) → w'.pred r = w.pred r ∧ w'.inp r = w.inp r) ∧
      (∀ i, fin ≤ i → w'.ctx i = w.ctx i) := by
  have hI : Invar sz par steps l0 j w ⟨w, fun _ => l0, fun _ => 0⟩ :=
    ⟨fun i => by simp [runSteps], fun i => by simp⟩
  obtain ⟨st', h, hI', hpc, hrow, hctx⟩ := region_run sz par steps hframe l0 j fin w
    (fun i hi => by rw [hrun i hi]; rfl) sched _ hI
    (fun i => by
      simp only [Nat.zero_add]
      rw [hsched i]
      split <;> omega)
    (fun i hi => by
      by_contra hc
      have := hsched i
      rw [if_neg hc, List.count_eq_zero] at this
      exact this hi)
  refine ⟨st'.world, by simp only [block, h, Option.map_some], ?_, hrow, hctx⟩
  intro i hi
  have h1 := hI'.alone i
  rw [hpc i, Nat.zero_add, hsched i, if_pos hi, List.take_length, hrun i hi] at h1
  simp only [Option.some.injEq, Prod.mk.injEq] at h1
  exact h1.2.symm

/-- `inference` writes into `prediction` a result `F` of its input row, from every state of its
context. -/
def Calculates (sz : Buf → Nat) (par : PKind → Nat → Nat → α) (steps : List (Step α L)) (l0 : L)
    (F : (Nat → α) → List α) : Prop :=
  ∀ m : Mem α, m.size = sz → (∀ k n, m.val (.par k n) = par k n) →
    ∃ l' m', runSteps steps (l0, m) = some (l', m') ∧ Holds m' .pred (F (m.val .input))

theorem finBloc_eq (B n q : Nat) (h : q * (B + 1) < n) :
    finBloc (B + 1) n (q * (B + 1)) = min (B + 1) (n - q * (B + 1)) := by
  unfold finBloc
  split
  · have hmod : n % (B + 1) = n - q * (B + 1) := by
      have : n = (n - q * (B + 1)) + q * (B + 1) := by omega
      conv_lhs => rw [this]
      rw [Nat.add_mul_mod_self_right]
      exact Nat.mod_eq_of_lt (by omega)
    omega
  · omega

theorem driver_from (sz : Buf → Nat) (par : PKind → Nat → Nat → α) (steps : List (Step α L))
    (hframe : ∀ f ∈ steps, Framed f) (l0 : L) (F : (Nat → α) → List α)
    (hF : Calculates sz par steps l0 F) (B n : Nat) (sched : Nat → List Nat)
    (hsched : ∀ q, q * (B + 1) < n →
      Complete (finBloc (B + 1) n (q * (B + 1))) steps.length (sched (q * (B + 1))))
    (q : Nat) (w : World α) :
    ∃ w', driver sz par steps l0 B n sched (q * (B + 1)) w = some w' ∧
      (∀ r, q * (B + 1) ≤ r → r < n → ∀ k (h : k < (F (w.inp r)).length),
        w'.pred r k = (F (w.inp r))[k] ∧ (F (w.inp r)).length ≤ sz .pred) ∧
      (∀ r, (r < q * (B + 1) ∨ n ≤ r) → w'.pred r = w.pred r ∧ w'.inp r = w.inp r) := by
  rw [driver]
  split
  · rename_i h
    have hfin := finBloc_eq B n q h
    have hrun : ∀ i, ∃ l' m', runSteps steps (l0, w.view sz par i (q * (B + 1) + i)) =
        some (l', m') ∧ Holds m' .pred (F (w.inp (q * (B + 1) + i))) :=
      fun i => hF (w.view sz par i (q * (B + 1) + i)) rfl (fun _ _ => rfl)
    choose lf mf hrun hholds using hrun
    obtain ⟨w1, hb, hview, hrow, -⟩ := C40_block sz par steps hframe l0 (q * (B + 1))
      (finBloc (B + 1) n (q * (B + 1))) w lf mf (fun i _ => hrun i) (sched (q * (B + 1)))
      (hsched q h)
    have e : q * (B + 1) + (B + 1) = (q + 1) * (B + 1) := by ring
    obtain ⟨w', hd, hres, hkeep⟩ :=
      driver_from sz par steps hframe l0 F hF B n sched hsched (q + 1) w1
    refine ⟨w', by rw [hb]; dsimp only; rw [e]; exact hd, ?_, ?_⟩
    · intro r hr1 hr2 k hk
      by_cases hlt : r < (q + 1) * (B + 1)
      · have hk' := (hkeep r (Or.inl hlt)).1
        have hir : ∃ i, r = q * (B + 1) + i ∧ i < finBloc (B + 1) n (q * (B + 1)) :=
          ⟨r - q * (B + 1), by omega, by rw [hfin]; omega⟩
        obtain ⟨i, rfl, hi⟩ := hir
        have hv := hview i hi
        have hh := hholds i
        rw [← hv] at hh
        have h2 := hh.2 k hk
        rw [hk']
        refine ⟨?_, hh.1⟩
        have h3 : (w1.view sz par i (q * (B + 1) + i)).val .pred k = w1.pred (q * (B + 1) + i) k := rfl
        rw [← h3, h2]
      · have hsame := (hrow r (fun i hi => by rw [hfin] at hi; omega)).2
        have := hres r (by omega) hr2 k (by rw [hsame]; exact hk)
        simp only [hsame] at this
        exact this
    · intro r hr
      have a := hkeep r (by omega)
      have b := hrow r (fun i hi => by rw [hfin] at hi; omega)
      exact ⟨a.1.trans b.1, a.2.trans b.2⟩
  · rename_i h
    exact ⟨w, rfl, fun r h1 h2 => absurd h2 (by omega), fun r _ => ⟨rfl, rfl⟩⟩
termination_by n - q * (B + 1)
decreasing_by
  rename_i h _ _ _ _ _ _ _ _
  have : (q + 1) * (B + 1) = q * (B + 1) + (B + 1) := by ring
  omega

/-- C40.  Let `inference`, started on any state of its context, leave in `prediction` the result
`F` of its input row (this is what C06 provides).  Then for every number of samples, every batch
size and every schedule of the parallel regions that runs each iteration to its end, the driver
terminates without error and leaves in row `s` of `predictions` the result for row `s` of the
dataset, for every sample `s`, touching no row beyond. -/
theorem C40_driver (sz : Buf → Nat) (par : PKind → Nat → Nat → α) (steps : List (Step α L))
    (hframe : ∀ f ∈ steps, Framed f) (l0 : L) (F : (Nat → α) → List α)
    (hF : Calculates sz par steps l0 F) (B n : Nat) (sched : Nat → List Nat)
    (hsched : ∀ q, q * (B + 1) < n →
      Complete (finBloc (B + 1) n (q * (B + 1))) steps.length (sched (q * (B + 1))))
    (w : World α) :
    ∃ w', driver sz par steps l0 B n sched 0 w = some w' ∧
      (∀ s < n, ∀ k (h : k < (F (w.inp s)).length), w'.pred s k = (F (w.inp s))[k]) ∧
      (∀ s, n ≤ s → w'.pred s = w.pred s ∧ w'.inp s = w.inp s) := by
  have := driver_from sz par steps hframe l0 F hF B n sched hsched 0 w
  simp only [Nat.zero_mul] at this
  obtain ⟨w', h1, h2, h3⟩ := this
  exact ⟨w', h1, fun s hs k hk => (h2 s (Nat.zero_le _) hs k hk).1, fun s hs => h3 s (Or.inr hs)⟩

/-! ### Non-vacuity -/

/-- A call of two steps: remember the input cell, then write its double. -/
def exSteps : List (Step Int Int) :=
  [fun s => some (s.2.val .input 0, s.2),
   fun s => some (s.1, { s.2 with val := fun b a =>
      if b = .pred ∧ a = 0 then 2 * s.1 else s.2.val b a })]

example : (∀ f ∈ exSteps, Framed f) ∧
    Calculates (fun _ => 1) (fun _ _ _ => 0) exSteps 0 (fun x => [2 * x 0]) ∧
    Complete (finBloc 2 3 0) 2 [1, 0, 1, 0] ∧ Complete (finBloc 2 3 2) 2 [0, 0] := by
  refine ⟨?_, ?_, ?_, ?_⟩
  · intro f hf l m l' m' h
    simp only [exSteps, List.mem_cons, List.not_mem_nil, or_false] at hf
    rcases hf with rfl | rfl
    · simp only [Option.some.injEq, Prod.mk.injEq] at h
      rw [← h.2]; exact ⟨rfl, fun _ _ => rfl⟩
    · simp only [Option.some.injEq, Prod.mk.injEq] at h
      rw [← h.2]; exact ⟨rfl, fun _ _ => by simp⟩
  · intro m hm hp
    refine ⟨_, _, rfl, ?_, ?_⟩
    · simp [hm]
    · intro k hk
      have : k = 0 := by simpa using hk
      subst this
      simp
  · intro i
    rcases i with _ | _ | i <;> simp [finBloc, List.count_cons]
  · intro i
    rcases i with _ | i <;> simp [finBloc, List.count_cons]

end Verif.Gen

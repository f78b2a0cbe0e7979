import Verif.Props.Driver

/-!
# The test driver, sample by sample

`C40_driver` with a result for each sample of the dataset instead of a function of every possible input row.
-/

namespace Verif.Gen

variable {α L : Type}

/-- `inference`, started on any contents of its context and on row `s` of the dataset, leaves `y` in `prediction`. -/
def CalculatesOn (sz : Buf → Nat) (par : PKind → Nat → Nat → α) (steps : List (Step α L)) (l0 : L) (row : Nat → α) (y : List α) : Prop :=
  ∀ m : Mem α, m.size = sz → (∀ k n, m.val (.par k n) = par k n) → m.val .input = row →
    ∃ l' m', runSteps steps (l0, m) = some (l', m') ∧ Holds m' .pred y

theorem driver_rows_from (sz : Buf → Nat) (par : PKind → Nat → Nat → α) (steps : List (Step α L))
    (hframe : ∀ f ∈ steps, Framed f) (l0 : L) (y : Nat → List α) (B n : Nat) (sched : Nat → List Nat)
    (hsched : ∀ q, q * (B + 1) < n →
      Complete (finBloc (B + 1) n (q * (B + 1))) steps.length (sched (q * (B + 1))))
    (q : Nat) (w : World α) (hF : ∀ s, q * (B + 1) ≤ s → s < n → CalculatesOn sz par steps l0 (w.inp s) (y s)) :
    ∃ w', driver sz par steps l0 B n sched (q * (B + 1)) w = some w' ∧
      (∀ r, q * (B + 1) ≤ r → r < n → (y r).length ≤ sz .pred ∧ ∀ k (h : k < (y r).length), w'.pred r k = (y r)[k]) ∧
      (∀ r, (r < q * (B + 1) ∨ n ≤ r) → w'.pred r = w.pred r ∧ w'.inp r = w.inp r) := by
  rw [driver]
  split
  · rename_i h
    have hfin := finBloc_eq B n q h
    have hrun : ∀ i, ∃ l' m', i < finBloc (B + 1) n (q * (B + 1)) → runSteps steps (l0, w.view sz par i (q * (B + 1) + i)) =
        some (l', m') ∧ Holds m' .pred (y (q * (B + 1) + i)) := by
      intro i
      by_cases hi : i < finBloc (B + 1) n (q * (B + 1))
      · obtain ⟨l', m', h1, h2⟩ := hF (q * (B + 1) + i) (by omega) (by rw [hfin] at hi; omega) (w.view sz par i (q * (B + 1) + i)) rfl (fun _ _ => rfl) rfl
        exact ⟨l', m', fun _ => ⟨h1, h2⟩⟩
      · exact ⟨l0, w.view sz par i (q * (B + 1) + i), fun h => absurd h hi⟩
    choose lf mf hrun using hrun
    obtain ⟨w1, hb, hview, hrow, -⟩ := C40_block sz par steps hframe l0 (q * (B + 1))
      (finBloc (B + 1) n (q * (B + 1))) w lf mf (fun i hi => (hrun i hi).1) (sched (q * (B + 1)))
      (hsched q h)
    have e : q * (B + 1) + (B + 1) = (q + 1) * (B + 1) := by ring
    have hinp : ∀ r, (q + 1) * (B + 1) ≤ r → w1.inp r = w.inp r := fun r hr => (hrow r fun i hi => by rw [hfin] at hi; omega).2
    obtain ⟨w', hd, hres, hkeep⟩ :=
      driver_rows_from sz par steps hframe l0 y B n sched hsched (q + 1) w1 (fun s hs hsn => by
        rw [hinp s hs]; exact hF s (by omega) hsn)
    refine ⟨w', by rw [hb]; dsimp only; rw [e]; exact hd, ?_, ?_⟩
    · intro r hr1 hr2
      by_cases hlt : r < (q + 1) * (B + 1)
      · have hk' := (hkeep r (Or.inl hlt)).1
        have hir : ∃ i, r = q * (B + 1) + i ∧ i < finBloc (B + 1) n (q * (B + 1)) :=
          ⟨r - q * (B + 1), by omega, by rw [hfin]; omega⟩
        obtain ⟨i, rfl, hi⟩ := hir
        have hh := (hrun i hi).2
        rw [← hview i hi] at hh
        refine ⟨hh.1, fun k hk => ?_⟩
        rw [hk']
        exact hh.2 k hk
      · exact hres r (by omega) hr2
    · intro r hr
      have a := hkeep r (by omega)
      have b := hrow r (fun i hi => by rw [hfin] at hi; omega)
      exact ⟨a.1.trans b.1, a.2.trans b.2⟩
  · rename_i h
    exact ⟨w, rfl, fun r h1 h2 => absurd h2 (by omega), fun r _ => ⟨rfl, rfl⟩⟩
termination_by n - q * (B + 1)
decreasing_by
  rename_i h _ _ _ _ _ _ _ _
  have : (q + 1) * (B + 1) = q * (B + 1) + (B + 1) := by ring
  omega

/-- **C40, sample by sample.** If `inference` leaves `y s` in `prediction` when started on sample `s`, for each sample and
whatever its context contains, then, for every number of samples, every number of contexts and every schedule of the parallel
regions that runs each iteration to its end, the driver terminates without error with `y s` in row `s` of `predictions`,
and touches no other row. -/
theorem C40_driver_rows (sz : Buf → Nat) (par : PKind → Nat → Nat → α) (steps : List (Step α L))
    (hframe : ∀ f ∈ steps, Framed f) (l0 : L) (y : Nat → List α) (B n : Nat) (sched : Nat → List Nat)
    (hsched : ∀ q, q * (B + 1) < n →
      Complete (finBloc (B + 1) n (q * (B + 1))) steps.length (sched (q * (B + 1))))
    (w : World α) (hF : ∀ s, s < n → CalculatesOn sz par steps l0 (w.inp s) (y s)) :
    ∃ w', driver sz par steps l0 B n sched 0 w = some w' ∧
      (∀ s, s < n → (y s).length ≤ sz .pred ∧ ∀ k (h : k < (y s).length), w'.pred s k = (y s)[k]) ∧
      (∀ s, n ≤ s → w'.pred s = w.pred s ∧ w'.inp s = w.inp s) := by
  have := driver_rows_from sz par steps hframe l0 y B n sched hsched 0 w (fun s _ hs => hF s hs)
  simp only [Nat.zero_mul] at this
  obtain ⟨w', h1, h2, h3⟩ := this
  exact ⟨w', h1, fun s hs => h2 s (Nat.zero_le _) hs, fun s hs => h3 s (Or.inr hs)⟩

end Verif.Gen

/-
C47: what a positive verdict of `acetone_compare` means.
-/
import Verif.Gen.Compare
import Mathlib.Tactic.Linarith
import Mathlib.Algebra.Order.Ring.Abs

namespace Verif.Gen

/-! ### Specification -/

/-- Two results agree: the same infinity, or two numbers that are equal or differ by less than the
tolerance `max(abs_th, eps * min(|a| + |b|, max))`. -/
def Close (t : Tol) : PyFloat → PyFloat → Prop
  | .inf s, .inf s' => s = s'
  | .fin a, .fin b => a = b ∨ |a - b| < max t.absTh (t.eps * min (|a| + |b|) t.maxF)
  | _, _ => False

/-- Line `l2` has at least as many values as line `l1`, and the values of `l1` agree with those at
the same positions of `l2`. -/
def LineAgrees {L : Type} (t : Tol) (read : L → Option (List PyFloat)) (l1 l2 : L) : Prop :=
  ∃ v1 v2, read l1 = some v1 ∧ read l2 = some v2 ∧ v1.length ≤ v2.length ∧
    ∀ (j : Nat) (h1 : j < v1.length) (h2 : j < v2.length), Close t v1[j] v2[j]

/-! ### Comparing numbers -/

theorem PyFloat.lt_fin (a b : ℚ) : (PyFloat.fin a < PyFloat.fin b) ↔ a < b := by
  show PyFloat.lt _ _ = true ↔ _
  simp [PyFloat.lt]

theorem pyMin_fin (a b : ℚ) : pyMin (PyFloat.fin a) (.fin b) = .fin (min a b) := by
  unfold pyMin
  by_cases h : b < a
  · rw [if_pos ((PyFloat.lt_fin _ _).2 h), min_eq_right h.le]
  · rw [if_neg (fun h' => h ((PyFloat.lt_fin _ _).1 h')), min_eq_left (not_lt.mp h)]

theorem pyMax_fin (a b : ℚ) : pyMax (PyFloat.fin a) (.fin b) = .fin (max a b) := by
  unfold pyMax
  by_cases h : a < b
  · rw [if_pos ((PyFloat.lt_fin _ _).2 h), max_eq_right h.le]
  · rw [if_neg (fun h' => h ((PyFloat.lt_fin _ _).1 h')), max_eq_left (not_lt.mp h)]

/-- C47, one value.  `compare_floats` says yes exactly when the two values agree; NaN agrees with
nothing. -/
theorem C47_floats (t : Tol) (a b : PyFloat) : (compareFloats t a b).1 = true ↔ Close t a b := by
  have hinf : ∀ x : PyFloat, x = .inf false ∨ x = .nan →
      ¬ (x < pyMax (PyFloat.fin t.absTh) (PyFloat.fin t.eps * PyFloat.fin t.maxF)) := by
    intro x hx
    have e : (PyFloat.fin t.eps * PyFloat.fin t.maxF) = .fin (t.eps * t.maxF) := rfl
    rw [e, pyMax_fin]
    show ¬ (PyFloat.lt _ _ = true)
    rcases hx with rfl | rfl <;> simp [PyFloat.lt]
  have hnan : ∀ y : PyFloat, ¬ (PyFloat.nan < y) := by
    intro y
    show ¬ (PyFloat.lt _ _ = true)
    cases y <;> simp [PyFloat.lt]
  have hmin : pyMin (PyFloat.inf false) (.fin t.maxF) = .fin t.maxF := by
    have h : PyFloat.fin t.maxF < PyFloat.inf false :=
      (rfl : PyFloat.lt (.fin t.maxF) (.inf false) = true)
    exact if_pos h
  unfold compareFloats
  cases a with
  | nan =>
    simp only [PyFloat.eq, Bool.false_eq_true, if_false]
    have : (PyFloat.nan - b).abs = .nan := rfl
    rw [this, if_neg (hnan _)]
    cases b <;> simp [Close]
  | inf s =>
    cases b with
    | nan =>
      simp only [PyFloat.eq, reduceCtorEq, decide_false, Bool.false_eq_true, if_false]
      have : (PyFloat.inf s - PyFloat.nan).abs = .nan := rfl
      rw [this, if_neg (hnan _)]
      simp [Close]
    | inf s' =>
      by_cases h : s = s'
      · subst h; simp [PyFloat.eq, Close]
      · have hd : (PyFloat.inf s - PyFloat.inf s').abs = .inf false := by
          show PyFloat.abs (PyFloat.add _ (PyFloat.neg _)) = _
          have : s = !s' := by cases s <;> cases s' <;> simp_all
          simp [PyFloat.neg, PyFloat.add, this, PyFloat.abs]
        have he : (PyFloat.inf s).eq (.inf s') = false := by simp [PyFloat.eq, h]
        simp only [he, Bool.false_eq_true, if_false, hd]
        have hn : (PyFloat.inf s).abs + (PyFloat.inf s').abs = .inf false := rfl
        rw [hn, hmin, if_neg (hinf _ (Or.inl rfl))]
        simp [Close, h]
    | fin q =>
      simp only [PyFloat.eq, reduceCtorEq, decide_false, Bool.false_eq_true, if_false]
      have : (PyFloat.inf s - PyFloat.fin q).abs = .inf false := rfl
      have hn : (PyFloat.inf s).abs + (PyFloat.fin q).abs = .inf false := rfl
      rw [this, hn, hmin, if_neg (hinf _ (Or.inl rfl))]
      simp [Close]
  | fin p =>
    cases b with
    | nan =>
      simp only [PyFloat.eq, reduceCtorEq, decide_false, Bool.false_eq_true, if_false]
      have : (PyFloat.fin p - PyFloat.nan).abs = .nan := rfl
      rw [this, if_neg (hnan _)]
      simp [Close]
    | inf s =>
      simp only [PyFloat.eq, reduceCtorEq, decide_false, Bool.false_eq_true, if_false]
      have : (PyFloat.fin p - PyFloat.inf s).abs = .inf false := rfl
      have hn : (PyFloat.fin p).abs + (PyFloat.inf s).abs = .inf false := rfl
      rw [this, hn, hmin, if_neg (hinf _ (Or.inl rfl))]
      simp [Close]
    | fin q =>
      by_cases h : p = q
      · subst h; simp [PyFloat.eq, Close]
      · have he : (PyFloat.fin p).eq (.fin q) = false := by simp [PyFloat.eq, h]
        have hd : (PyFloat.fin p - PyFloat.fin q).abs = .fin |p - q| := by
          show PyFloat.abs (PyFloat.add _ (PyFloat.neg _)) = _
          simp [PyFloat.neg, PyFloat.add, PyFloat.abs, sub_eq_add_neg]
        have hn : (PyFloat.fin p).abs + (PyFloat.fin q).abs = .fin (|p| + |q|) := rfl
        simp only [he, Bool.false_eq_true, if_false, hd, hn, pyMin_fin]
        have hm : (PyFloat.fin t.eps * PyFloat.fin (min (|p| + |q|) t.maxF)) =
          .fin (t.eps * min (|p| + |q|) t.maxF) := rfl
        rw [hm, pyMax_fin]
        simp only [Close, h, false_or]
        by_cases hlt : |p - q| < max t.absTh (t.eps * min (|p| + |q|) t.maxF)
        · rw [if_pos ((PyFloat.lt_fin _ _).2 hlt)]; simp [hlt]
        · rw [if_neg (fun h' => hlt ((PyFloat.lt_fin _ _).1 h'))]; simp [hlt]

/-! ### Comparing lines and files -/

theorem compareValues_iff (t : Tol) (v1 v2 : List PyFloat) (ok : Bool) (md mr : PyFloat) :
    (∃ d r, compareValues t v1 v2 (ok, md, mr) = some (true, d, r)) ↔
      ok = true ∧ v1.length ≤ v2.length ∧
        ∀ (j : Nat) (h1 : j < v1.length) (h2 : j < v2.length), Close t v1[j] v2[j] := by
  induction v1 generalizing v2 ok md mr with
  | nil => simp [compareValues]
  | cons a v1 ih =>
    cases v2 with
    | nil => simp [compareValues]
    | cons b v2 =>
      rw [compareValues]
      dsimp only
      rw [ih]
      rw [Bool.and_eq_true, C47_floats]
      simp only [List.length_cons, Nat.succ_le_succ_iff]
      constructor
      · rintro ⟨⟨h1, h2⟩, h3, h4⟩
        refine ⟨h2, h3, ?_⟩
        intro j hj1 hj2
        cases j with
        | zero => exact h1
        | succ j => exact h4 j (by simpa using hj1) (by simpa using hj2)
      · rintro ⟨h2, h3, h4⟩
        refine ⟨⟨h4 0 (by simp) (by simp), h2⟩, h3, ?_⟩
        intro j hj1 hj2
        exact h4 (j + 1) (by simpa using hj1) (by simpa using hj2)

theorem compareLines_iff {L : Type} (t : Tol) (read : L → Option (List PyFloat)) (l1 l2 : L) :
    (∃ d r, compareLines t read l1 l2 = some (true, d, r)) ↔ LineAgrees t read l1 l2 := by
  unfold compareLines LineAgrees
  cases h1 : read l1 with
  | none => simp
  | some v1 =>
    cases h2 : read l2 with
    | none => simp
    | some v2 =>
      dsimp only
      rw [compareValues_iff]
      simp

/-- A line whose comparison ends: both texts are readable and the second is not shorter. -/
theorem compareLoop_iff {L : Type} (t : Tol) (read : L → Option (List PyFloat)) (k : Nat)
    (f1 f2 : List L) (ok : Bool) (md mr : PyFloat) :
    (∃ d r, compareLoop t read k f1 f2 (ok, md, mr) = some (true, d, r)) ↔
      ok = true ∧ ∀ (i : Nat) (_ : i < k) (h1 : i < f1.length) (h2 : i < f2.length),
        LineAgrees t read f1[i] f2[i] := by
  induction k generalizing f1 f2 ok md mr with
  | zero => simp [compareLoop]
  | succ k ih =>
    cases f1 with
    | nil => simp [compareLoop]
    | cons l1 f1 =>
      cases f2 with
      | nil => simp [compareLoop]
      | cons l2 f2 =>
        have hhead : (ok = true ∧ ∀ (i : Nat) (_ : i < k + 1) (h1 : i < (l1 :: f1).length)
            (h2 : i < (l2 :: f2).length), LineAgrees t read (l1 :: f1)[i] (l2 :: f2)[i]) ↔
            LineAgrees t read l1 l2 ∧ ok = true ∧ ∀ (i : Nat) (_ : i < k) (h1 : i < f1.length)
              (h2 : i < f2.length), LineAgrees t read f1[i] f2[i] := by
          constructor
          · rintro ⟨h0, h⟩
            refine ⟨h 0 (by omega) (by simp) (by simp), h0, ?_⟩
            intro i hi h1 h2
            exact h (i + 1) (by omega) (by simpa using h1) (by simpa using h2)
          · rintro ⟨h0, h1, h⟩
            refine ⟨h1, ?_⟩
            intro i hi g1 g2
            cases i with
            | zero => exact h0
            | succ i => exact h i (by omega) (by simpa using g1) (by simpa using g2)
        rw [hhead, ← compareLines_iff, compareLoop]
        cases hc : compareLines t read l1 l2 with
        | none => simp
        | some r =>
          obtain ⟨c, d, r⟩ := r
          dsimp only
          rw [ih, Bool.and_eq_true]
          simp only [Option.some.injEq, Prod.mk.injEq]
          constructor
          · rintro ⟨⟨hc1, hc2⟩, h⟩
            exact ⟨⟨d, r, hc1, rfl, rfl⟩, hc2, h⟩
          · rintro ⟨⟨_, _, hc1, _, _⟩, hc2, h⟩
            exact ⟨⟨hc1, hc2⟩, h⟩

/-- C47 in full: the verdict is positive only if, for each of the first `nb_tests` lines, both files
have that line, with the same number of values, and corresponding values agree. -/
def C47_statement : Prop :=
  ∀ (t : Tol) (read : List PyFloat → Option (List PyFloat)) (f1 f2 : List (List PyFloat)) (n : Nat)
    (d r : PyFloat), compareFiles t read f1 f2 n = some (true, d, r) →
    ∀ i < n, ∃ l1 l2 v1 v2, f1[i]? = some l1 ∧ f2[i]? = some l2 ∧ read l1 = some v1 ∧
      read l2 = some v2 ∧ v1.length = v2.length ∧
      ∀ (j : Nat) (h1 : j < v1.length) (h2 : j < v2.length), Close t v1[j] v2[j]

/-- C47, exactly what is checked.  The verdict is positive if and only if, for each of the first
`nb_tests + 1` line numbers that *both* files have, the line of the second file has at least as many
values and the values of the first file agree with them.  Missing from the full statement: that the
lines exist, and that they have the same number of values. -/
theorem C47_verdict_partial {L : Type} (t : Tol) (read : L → Option (List PyFloat)) (f1 f2 : List L)
    (n : Nat) :
    (∃ d r, compareFiles t read f1 f2 n = some (true, d, r)) ↔
      ∀ (i : Nat) (_ : i ≤ n) (h1 : i < f1.length) (h2 : i < f2.length),
        LineAgrees t read f1[i] f2[i] := by
  unfold compareFiles
  rw [compareLoop_iff]
  simp [Nat.lt_succ_iff]

/-- C47, for files that have all their lines and values: the verdict is positive exactly when all
values of the compared lines agree. -/
theorem C47_complete_files {L : Type} (t : Tol) (read : L → Option (List PyFloat)) (f1 f2 : List L)
    (n : Nat) (_hlen : f1.length = f2.length)
    (hread : ∀ (i : Nat) (h1 : i < f1.length) (h2 : i < f2.length), ∃ v1 v2, read f1[i] = some v1 ∧
      read f2[i] = some v2 ∧ v1.length = v2.length) :
    (∃ d r, compareFiles t read f1 f2 n = some (true, d, r)) ↔
      ∀ (i : Nat) (_ : i ≤ n) (h1 : i < f1.length) (h2 : i < f2.length) (v1 v2 : List PyFloat),
        read f1[i] = some v1 → read f2[i] = some v2 →
        ∀ (j : Nat) (g1 : j < v1.length) (g2 : j < v2.length), Close t v1[j] v2[j] := by
  rw [C47_verdict_partial]
  constructor
  · intro h i hi h1 h2 v1 v2 e1 e2
    obtain ⟨w1, w2, a1, a2, -, a3⟩ := h i hi h1 h2
    rw [a1, Option.some.injEq] at e1
    rw [a2, Option.some.injEq] at e2
    subst e1; subst e2
    exact a3
  · intro h i hi h1 h2
    obtain ⟨v1, v2, e1, e2, e3⟩ := hread i h1 h2
    exact ⟨v1, v2, e1, e2, e3.le, h i hi h1 h2 v1 v2 e1 e2⟩

/-! ### Where the claim fails -/

/-- the tolerance of the command line: `128 * 2^-52`, `2^-1022` and (about) the largest double -/
def exTol : Tol := ⟨1 / 2 ^ 45, 1 / 2 ^ 1022, 2 ^ 1024⟩

/-- An empty result file agrees with every reference: the comparison stops at the end of the shorter
file. -/
theorem C47_fails_truncated {L : Type} (t : Tol) (read : L → Option (List PyFloat)) (f : List L)
    (n : Nat) : compareFiles t read f [] n = some (true, .fin 0, .fin 0) ∧
      compareFiles t read [] f n = some (true, .fin 0, .fin 0) := by
  constructor
  · cases f <;> rfl
  · rfl

/-- Additional values of the second file are ignored. -/
theorem C47_fails_longer_line (t : Tol) (v extra : List PyFloat) (q : ∀ x ∈ v, ∃ r, x = .fin r) :
    ∃ d r, compareFiles t some [v] [v ++ extra] 1 = some (true, d, r) := by
  rw [C47_verdict_partial]
  intro i _ h1 h2
  have : i = 0 := by simp at h1; omega
  subst this
  refine ⟨v, v ++ extra, rfl, rfl, by simp, ?_⟩
  intro j g1 g2
  rw [List.getElem_append_left g1]
  obtain ⟨r, hr⟩ := q v[j] (List.getElem_mem g1)
  rw [hr]; simp [Close]

theorem C47_fails : ¬ C47_statement := by
  intro H
  obtain ⟨l1, l2, v1, v2, h1, -⟩ := H exTol some [] [] 1 _ _ (C47_fails_truncated exTol some [] 1).1 0
    (by omega)
  simp at h1

/-- One line too many is compared: line number `nb_tests` decides although only `nb_tests` lines
were asked for. -/
theorem C47_fails_extra_line :
    (compareFiles exTol some [[.fin 1], [.fin 1]] [[.fin 1], [.fin 2]] 1).map (·.1) = some false := by
  decide +kernel

/-- The printed maximum forgets a NaN: a result file with a NaN and an otherwise exact copy print a
maximal error of 0. -/
theorem C47_fails_nan_hidden :
    cliCompare exTol some [[.fin 1, .fin 1]] [[.nan, .fin 1]] 1 = some (.fin 0, .fin 0) := by
  decide +kernel

/-! ### The reported maxima -/

/-- The relative difference of two numbers: their distance over half of `min(|a| + |b|, max)`. -/
def relDiff (t : Tol) (p q : ℚ) : ℚ := |p - q| / (min (|p| + |q|) t.maxF / 2)

/-- The pairs of corresponding values on the first `n + 1` lines that both files have. -/
def compared (n : Nat) (f1 f2 : List (List ℚ)) : List (ℚ × ℚ) :=
  (List.zip (f1.take (n + 1)) f2).flatMap fun l => List.zip l.1 l.2

/-- `q` is the largest of `q0` and the elements of `l` -/
def Largest (q0 : ℚ) (l : List ℚ) (q : ℚ) : Prop := q0 ≤ q ∧ (∀ p ∈ l, p ≤ q) ∧ (q = q0 ∨ q ∈ l)

theorem Largest.nil (q0 : ℚ) : Largest q0 [] q0 := ⟨le_rfl, by simp, Or.inl rfl⟩

theorem Largest.append {q0 q1 q2 : ℚ} {l1 l2 : List ℚ} (h1 : Largest q0 l1 q1) (h2 : Largest q1 l2 q2) :
    Largest q0 (l1 ++ l2) q2 := by
  refine ⟨h1.1.trans h2.1, ?_, ?_⟩
  · intro p hp
    rcases List.mem_append.mp hp with hp | hp
    · exact (h1.2.1 p hp).trans h2.1
    · exact h2.2.1 p hp
  · rcases h2.2.2 with e | e
    · rcases h1.2.2 with e' | e'
      · exact Or.inl (e.trans e')
      · exact Or.inr (List.mem_append_left _ (e ▸ e'))
    · exact Or.inr (List.mem_append_right _ e)

theorem Largest.single (q0 p : ℚ) : Largest q0 [p] (max p q0) := by
  refine ⟨le_max_right _ _, by simp, ?_⟩
  rcases le_total p q0 with h | h
  · exact Or.inl (max_eq_right h)
  · exact Or.inr (by simp [max_eq_left h])

theorem Largest.max {q0 q1 : ℚ} {l : List ℚ} (h0 : 0 ≤ q0) (h : Largest 0 l q1) : Largest q0 l (max q1 q0) := by
  refine ⟨le_max_right _ _, fun p hp => (h.2.1 p hp).trans (le_max_left _ _), ?_⟩
  rcases le_total q1 q0 with hl | hl
  · exact Or.inl (max_eq_right hl)
  · rw [max_eq_left hl]
    rcases h.2.2 with e | e
    · exact Or.inl (le_antisymm (e ▸ h0) hl)
    · exact Or.inr e

theorem compareFloats_fin (t : Tol) (p q : ℚ) :
    (compareFloats t (.fin p) (.fin q)).2 = (.fin |p - q|, .fin (relDiff t p q)) := by
  have hd : (PyFloat.fin p - PyFloat.fin q).abs = .fin |p - q| := by
    show PyFloat.abs (PyFloat.add _ (PyFloat.neg _)) = _
    simp [PyFloat.neg, PyFloat.add, PyFloat.abs, sub_eq_add_neg]
  have hn : (PyFloat.fin p).abs + (PyFloat.fin q).abs = .fin (|p| + |q|) := rfl
  by_cases h : p = q
  · subst h
    simp [compareFloats, PyFloat.eq, relDiff, hd]
  · have he : (PyFloat.fin p).eq (.fin q) = false := by simp [PyFloat.eq, h]
    unfold compareFloats
    simp only [he, Bool.false_eq_true, if_false, hd, hn, pyMin_fin]
    have hr : (if (PyFloat.fin (min (|p| + |q|) t.maxF)).eq (.fin 0) then PyFloat.fin 0
        else .fin |p - q| / (PyFloat.fin (min (|p| + |q|) t.maxF) / .fin 2)) = .fin (relDiff t p q) := by
      unfold relDiff
      by_cases h0 : min (|p| + |q|) t.maxF = 0
      · simp [PyFloat.eq, h0]
      · have h2 : (PyFloat.fin (min (|p| + |q|) t.maxF) / .fin 2) = .fin (min (|p| + |q|) t.maxF / 2) := rfl
        rw [h2]
        have h3 : (PyFloat.fin |p - q| / .fin (min (|p| + |q|) t.maxF / 2)) =
          .fin (|p - q| / (min (|p| + |q|) t.maxF / 2)) := rfl
        rw [h3]
        simp [PyFloat.eq, h0]
    rw [hr]
    split <;> rfl

theorem compareValues_max (t : Tol) (v1 v2 : List ℚ) (ok : Bool) (md mr : ℚ) (c : Bool) (d r : PyFloat)
    (h : compareValues t (v1.map .fin) (v2.map .fin) (ok, .fin md, .fin mr) = some (c, d, r)) :
    ∃ D R, d = .fin D ∧ r = .fin R ∧ Largest md ((List.zip v1 v2).map fun p => |p.1 - p.2|) D ∧
      Largest mr ((List.zip v1 v2).map fun p => relDiff t p.1 p.2) R := by
  induction v1 generalizing v2 ok md mr with
  | nil =>
    simp only [compareValues, List.map_nil, Option.some.injEq, Prod.mk.injEq] at h
    exact ⟨md, mr, h.2.1.symm, h.2.2.symm, .nil _, .nil _⟩
  | cons a v1 ih =>
    cases v2 with
    | nil => simp [compareValues] at h
    | cons b v2 =>
      have hf := compareFloats_fin t a b
      simp only [List.map_cons, compareValues, hf, pyMax_fin] at h
      obtain ⟨D, R, h1, h2, h3, h4⟩ := ih v2 _ _ _ h
      exact ⟨D, R, h1, h2, (Largest.single md _).append h3, (Largest.single mr _).append h4⟩

/-- C47, the printed errors.  On files of finite numbers the two numbers printed are the largest absolute
and the largest relative difference of corresponding values on the compared lines (0 if there are none),
in this order. -/
theorem C47_reported_max (t : Tol) (f1 f2 : List (List ℚ)) (n : Nat) (d r : PyFloat)
    (h : cliCompare t (fun l => some (List.map PyFloat.fin l)) f1 f2 n = some (d, r)) :
    ∃ D R, d = .fin D ∧ r = .fin R ∧ Largest 0 ((compared n f1 f2).map fun p => |p.1 - p.2|) D ∧
      Largest 0 ((compared n f1 f2).map fun p => relDiff t p.1 p.2) R := by
  have key : ∀ (k : Nat) (f1 f2 : List (List ℚ)) (ok : Bool) (md mr : ℚ) (c : Bool) (d r : PyFloat), 0 ≤ md → 0 ≤ mr →
      compareLoop t (fun l => some (List.map PyFloat.fin l)) k f1 f2 (ok, .fin md, .fin mr) = some (c, d, r) →
      ∃ D R, d = .fin D ∧ r = .fin R ∧
        Largest md (((List.zip (f1.take k) f2).flatMap fun l => List.zip l.1 l.2).map fun p => |p.1 - p.2|) D ∧
        Largest mr (((List.zip (f1.take k) f2).flatMap fun l => List.zip l.1 l.2).map fun p => relDiff t p.1 p.2) R := by
    intro k
    induction k with
    | zero =>
      intro f1 f2 ok md mr c d r _ _ h
      simp only [compareLoop, Option.some.injEq, Prod.mk.injEq] at h
      exact ⟨md, mr, h.2.1.symm, h.2.2.symm, .nil _, .nil _⟩
    | succ k ih =>
      intro f1 f2 ok md mr c d r hmd hmr h
      cases f1 with
      | nil =>
        simp only [compareLoop, Option.some.injEq, Prod.mk.injEq] at h
        exact ⟨md, mr, h.2.1.symm, h.2.2.symm, .nil _, .nil _⟩
      | cons l1 f1 =>
        cases f2 with
        | nil =>
          simp only [compareLoop, Option.some.injEq, Prod.mk.injEq] at h
          exact ⟨md, mr, h.2.1.symm, h.2.2.symm, by simpa using Largest.nil md, by simpa using Largest.nil mr⟩
        | cons l2 f2 =>
          rw [compareLoop] at h
          rcases hl : compareLines t (fun l => some (List.map PyFloat.fin l)) l1 l2 with _ | ⟨c1, d1, r1⟩
          · rw [hl] at h; simp at h
          · rw [hl] at h
            obtain ⟨D1, R1, rfl, rfl, g3, g4⟩ := compareValues_max t l1 l2 true 0 0 c1 d1 r1 hl
            simp only [pyMax_fin] at h
            obtain ⟨D, R, h1, h2, h3, h4⟩ := ih f1 f2 _ _ _ _ _ _ (hmd.trans (le_max_right _ _))
              (hmr.trans (le_max_right _ _)) h
            refine ⟨D, R, h1, h2, ?_, ?_⟩
            · simpa using (g3.max hmd).append h3
            · simpa using (g4.max hmr).append h4
  unfold cliCompare compareFiles at h
  rcases hc : compareLoop t (fun l => some (List.map PyFloat.fin l)) (n + 1) f1 f2 (true, .fin 0, .fin 0) with
    _ | ⟨c, d', r'⟩
  · rw [hc] at h; simp at h
  · rw [hc] at h
    simp only [Option.map_some, Option.some.injEq, Prod.mk.injEq] at h
    obtain ⟨rfl, rfl⟩ := h
    exact key (n + 1) f1 f2 true 0 0 c _ _ le_rfl le_rfl hc

example : cliCompare exTol (fun l => some (List.map PyFloat.fin l)) [[1, 2], [1]] [[1, 3], [5]] 1 =
    some (.fin 4, .fin (4 / 3)) := by decide +kernel

/-! ### Non-vacuity -/

example : (compareFiles exTol some [[.fin 1, .fin 2]] [[.fin 1, .fin 2]] 1).map (·.1) = some true ∧
    (compareFiles exTol some [[.fin 1, .fin 2]] [[.fin 1, .fin 3]] 1).map (·.1) = some false ∧
    compareFiles exTol some [[.fin 1, .fin 2]] [[.fin 1]] 1 = none := by decide +kernel

end Verif.Gen

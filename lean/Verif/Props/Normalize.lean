/-
C46: the generated pre- and post-processing of NNET networks computes what the Python `Normalizer`
computes.
-/
import Verif.Gen.Normalize
import Verif.Gen.PyFloat
import Verif.CMem.Fresh
import Verif.CMem.Loops
import Mathlib.Algebra.Order.Field.Basic

namespace Verif.Gen

open Prog

variable {α : Type}

/-- A description as the NNET format prescribes: one minimum and maximum per input, one mean and
range per input and one more for the outputs, minima not above maxima. -/
structure Normalizer.WellFormed [LE α] (N : Normalizer α) : Prop where
  pos : 0 < N.inputSize
  mins : N.mins.length = N.inputSize
  maxes : N.maxes.length = N.inputSize
  means : N.means.length = N.inputSize + 1
  ranges : N.ranges.length = N.inputSize + 1
  ordered : ∀ (i : Nat) (h1 : i < N.mins.length) (h2 : i < N.maxes.length), N.mins[i] ≤ N.maxes[i]

/-- The documented normalisation of the `i`-th input value: clamp, centre, scale. -/
def normalised [Field α] [LinearOrder α] (N : Normalizer α) (x : List α) (i : Nat) : α :=
  (max (N.mins.getD i 0) (min (N.maxes.getD i 0) (x.getD i 0)) - N.means.getD i 0) / N.ranges.getD i 0

section
variable [Field α] [LinearOrder α]

omit [Field α] in
theorem pyMax_eq (a b : α) : pyMax a b = max a b := by
  unfold pyMax
  split
  · rename_i h; exact (max_eq_right h.le).symm
  · rename_i h; exact (max_eq_left (not_lt.mp h)).symm

omit [Field α] in
theorem pyMin_eq (a b : α) : pyMin a b = min a b := by
  unfold pyMin
  split
  · rename_i h; exact (min_eq_right h.le).symm
  · rename_i h; exact (min_eq_left (not_lt.mp h)).symm

theorem getD_of_lt {β : Type} (l : List β) (d : β) {i : Nat} (h : i < l.length) :
    l.getD i d = l[i] := by
  simp [List.getD, List.getElem?_eq_getElem h]

/-- The Python loop, for every prefix of the input. -/
theorem preProcessing_spec (N : Normalizer α) (hN : N.WellFormed) (x : List α)
    (hx : x.length = N.inputSize) (k : Nat) (hk : k ≤ N.inputSize) :
    ∃ ys, N.preProcessing k x = some ys ∧ ys.length = N.inputSize ∧
      ∀ i, i < N.inputSize → ys[i]? = some (if i < k then normalised N x i else x.getD i 0) := by
  induction k with
  | zero =>
    refine ⟨x, rfl, hx, fun i hi => ?_⟩
    simp [List.getD, List.getElem?_eq_getElem (hx.symm ▸ hi : i < x.length)]
  | succ k ih =>
    obtain ⟨ys, h1, h2, h3⟩ := ih (by omega)
    have hmins : k < N.mins.length := by rw [hN.mins]; omega
    have hmaxes : k < N.maxes.length := by rw [hN.maxes]; omega
    have hmeans : k < N.means.length := by rw [hN.means]; omega
    have hranges : k < N.ranges.length := by rw [hN.ranges]; omega
    have hk' := h3 k (by omega)
    rw [if_neg (lt_irrefl k)] at hk'
    refine ⟨ys.set k (normalised N x k), ?_, by rw [List.length_set, h2], ?_⟩
    · simp only [Normalizer.preProcessing, h1, hk', List.getElem?_eq_getElem hmins,
        List.getElem?_eq_getElem hmaxes, List.getElem?_eq_getElem hmeans,
        List.getElem?_eq_getElem hranges]
      rw [prePy, pyMin_eq, pyMax_eq, normalised, getD_of_lt N.mins 0 hmins,
        getD_of_lt N.maxes 0 hmaxes, getD_of_lt N.means 0 hmeans, getD_of_lt N.ranges 0 hranges]
    · intro i hi
      rw [List.getElem?_set]
      by_cases h : k = i
      · subst h
        simp [h2, hi]
      · rw [if_neg h, h3 i hi]
        have : i < k + 1 ↔ i < k := by omega
        simp only [this]

theorem consts_eq (N : Normalizer α) (hN : N.WellFormed) :
    ∃ K, N.consts = some K ∧ (∀ i < N.inputSize, K.inputMin i = N.mins.getD i 0 ∧
        K.inputMax i = N.maxes.getD i 0 ∧ K.inputMean i = N.means.getD i 0 ∧
        K.inputRange i = N.ranges.getD i 0) ∧
      some K.outputMean = N.means.getLast? ∧ some K.outputRange = N.ranges.getLast? := by
  have hp := hN.pos
  have hd : ∀ l : List α, l.length = N.inputSize + 1 →
      cArray N.inputSize l.dropLast = some fun i => l.dropLast.getD i 0 := by
    intro l hl
    have h1 : l.dropLast.length = N.inputSize := by rw [List.length_dropLast, hl]; omega
    have h2 : l.dropLast ≠ [] := by
      intro h; rw [h] at h1; simp at h1; omega
    simp [cArray, h1, h2]
  have hf : ∀ l : List α, l.length = N.inputSize →
      cArray N.inputSize l = some fun i => l.getD i 0 := by
    intro l h1
    have h2 : l ≠ [] := by
      intro h; rw [h] at h1; simp at h1; omega
    simp [cArray, h1, h2]
  have hl : ∀ l : List α, l.length = N.inputSize + 1 → ∃ a, l.getLast? = some a := by
    intro l h
    cases hh : l.getLast? with
    | none => rw [List.getLast?_eq_none_iff] at hh; rw [hh] at h; simp at h
    | some a => exact ⟨a, rfl⟩
  have hg : ∀ l : List α, l.length = N.inputSize + 1 → ∀ i < N.inputSize,
      l.dropLast.getD i 0 = l.getD i 0 := by
    intro l h i hi
    have h1 : i < l.dropLast.length := by rw [List.length_dropLast, h]; omega
    rw [getD_of_lt _ _ h1, getD_of_lt _ _ (by omega : i < l.length), List.getElem_dropLast]
  obtain ⟨a, ha⟩ := hl N.means hN.means
  obtain ⟨b, hb⟩ := hl N.ranges hN.ranges
  refine ⟨⟨fun i => N.mins.getD i 0, fun i => N.maxes.getD i 0, fun i => N.means.dropLast.getD i 0,
    fun i => N.ranges.dropLast.getD i 0, a, b⟩, ?_, ?_, ha.symm, hb.symm⟩
  · simp only [Normalizer.consts, hf _ hN.mins, hf _ hN.maxes, hd _ hN.means, hd _ hN.ranges, ha, hb]
  · intro i hi
    exact ⟨rfl, rfl, hg _ hN.means i hi, hg _ hN.ranges i hi⟩

/-- C46, inputs.  For every well-formed description and every input vector: the generated constants
compile, the generated pre-processing runs without error, changes only the input array and leaves in
it the vector the Python `Normalizer.pre_processing` returns, whose `i`-th element is the value
clamped into `[min, max]`, minus the mean, divided by the range. -/
theorem C46_pre (N : Normalizer α) (hN : N.WellFormed) (x : List α) (hx : x.length = N.inputSize)
    (m : Mem α) (hm : Holds m .input x) :
    ∃ K m' ys, N.consts = some K ∧ preCode N.inputSize K m = some ((), m') ∧
      N.preProcessing N.inputSize x = some ys ∧ Holds m' .input ys ∧
      OnlyChanges [.input] m m' ∧ ys.length = N.inputSize ∧
      ∀ (i : Nat) (h0 : i < ys.length) (h1 : i < N.mins.length) (h2 : i < N.maxes.length)
        (h3 : i < N.means.length) (h4 : i < N.ranges.length) (h5 : i < x.length),
        ys[i] = (max N.mins[i] (min N.maxes[i] x[i]) - N.means[i]) / N.ranges[i] := by
  obtain ⟨K, hK, hKi, -, -⟩ := consts_eq N hN
  obtain ⟨ys, hy1, hy2, hy3⟩ := preProcessing_spec N hN x hx N.inputSize (le_refl _)
  have hsize : ∀ i, i < N.inputSize → i < m.size .input := fun i hi => by
    have := hm.1; omega
  have hrun : preCode N.inputSize K m =
      some ((), m.upd .input (firstN N.inputSize (normalised N x))) := by
    unfold preCode
    apply forN_fresh
    intro i u hi hu
    have hv : (m.upd .input u).val .input i = x.getD i 0 := by
      have hix : i < x.length := by omega
      simp [Mem.upd_val_same, hu, hm.2 i hix, List.getD, List.getElem?_eq_getElem hix]
    have hl : load .input (i : Int) (m.upd .input u) = some (x.getD i 0, m.upd .input u) := by
      rw [load_nat (by simpa using hsize i hi), hv]
    obtain ⟨e1, e2, e3, e4⟩ := hKi i hi
    have hord : N.mins.getD i 0 ≤ N.maxes.getD i 0 := by
      have h1 : i < N.mins.length := by rw [hN.mins]; exact hi
      have h2 : i < N.maxes.length := by rw [hN.maxes]; exact hi
      rw [getD_of_lt _ _ h1, getD_of_lt _ _ h2]
      exact hN.ordered i h1 h2
    show andThen (load .input (i : Int)) _ _ = _
    rw [andThen_run hl, e1, e2, e3, e4]
    by_cases h1 : x.getD i 0 < N.mins.getD i 0
    · rw [if_pos h1, store_nat (by simpa using hsize i hi)]
      congr 4
      rw [normalised, max_eq_left (le_trans (min_le_right _ _) h1.le)]
    · rw [if_neg h1]
      show andThen (load .input (i : Int)) _ _ = _
      rw [andThen_run hl]
      by_cases h2 : N.maxes.getD i 0 < x.getD i 0
      · rw [if_pos h2, store_nat (by simpa using hsize i hi)]
        congr 4
        rw [normalised, min_eq_left h2.le, max_eq_right hord]
      · rw [if_neg h2]
        show andThen (load .input (i : Int)) _ _ = _
        rw [andThen_run hl, store_nat (by simpa using hsize i hi)]
        congr 4
        rw [normalised, min_eq_right (not_lt.mp h2), max_eq_right (not_lt.mp h1)]
  refine ⟨K, _, ys, hK, hrun, hy1, ?_, OnlyChanges.upd m (by simp) _, hy2, ?_⟩
  · refine ⟨by rw [hy2, ← hx]; exact hm.1, ?_⟩
    intro a ha
    have hy := hy3 a (by omega)
    rw [if_pos (by omega), List.getElem?_eq_getElem ha, Option.some.injEq] at hy
    rw [hy, Mem.upd_val_same]
    simp [firstN, (by omega : a < N.inputSize)]
  · intro i h0 h1 h2 h3 h4 h5
    have hy := hy3 i (by omega)
    rw [if_pos (by omega), List.getElem?_eq_getElem h0, Option.some.injEq] at hy
    rw [hy, normalised, getD_of_lt _ _ h1, getD_of_lt _ _ h2, getD_of_lt _ _ h3, getD_of_lt _ _ h4,
      getD_of_lt _ _ h5]

/-- C46, outputs.  The generated post-processing leaves in `prediction` the vector the Python
`Normalizer.post_processing` returns: each value times the last range plus the last mean. -/
theorem C46_post (N : Normalizer α) (hN : N.WellFormed) (y : List α) (hy : y.length = N.outputSize)
    (m : Mem α) (hm : Holds m .pred y) (range mean : α) (hrange : N.ranges.getLast? = some range)
    (hmean : N.means.getLast? = some mean) :
    ∃ K m', N.consts = some K ∧ postCode N.outputSize K m = some ((), m') ∧
      N.postProcessing y = some (y.map fun v => v * range + mean) ∧
      Holds m' .pred (y.map fun v => v * range + mean) ∧ OnlyChanges [.pred] m m' := by
  obtain ⟨K, hK, -, h1, h2⟩ := consts_eq N hN
  rw [hmean, Option.some.injEq] at h1
  rw [hrange, Option.some.injEq] at h2
  have hrun : postCode N.outputSize K m =
      some ((), m.upd .pred (firstN N.outputSize fun i => y.getD i 0 * range + mean)) := by
    unfold postCode
    apply forN_fresh
    intro i u hi hu
    have hix : i < y.length := by omega
    have hs : i < m.size .pred := lt_of_lt_of_le hix hm.1
    have hv : (m.upd .pred u).val .pred i = y.getD i 0 := by
      simp [Mem.upd_val_same, hu, hm.2 i hix, List.getD, List.getElem?_eq_getElem hix]
    show andThen (load .pred (i : Int)) _ _ = _
    rw [andThen_run (load_nat (by simpa using hs)), hv, h1, h2, store_nat (by simpa using hs)]
  refine ⟨K, _, hK, hrun, by simp only [Normalizer.postProcessing, hrange, hmean], ?_,
    OnlyChanges.upd m (by simp) _⟩
  refine ⟨by simpa using hm.1, ?_⟩
  intro a ha
  have ha' : a < y.length := by simpa using ha
  rw [Mem.upd_val_same]
  simp [firstN, (by omega : a < N.outputSize), List.getD, List.getElem?_eq_getElem ha']

end

/-! ### Where the claim fails -/

/-- One input and one output, minimum above maximum, input between the two. -/
def exUnordered : Normalizer ℚ := ⟨1, 1, [2], [0], [0, 0], [1, 1]⟩

/-- C46 needs `min ≤ max`: otherwise the code tests the minimum first and the reference the
maximum, so the results differ (for the input 3 the reference gives 2, the code 0). -/
theorem C46_fails_unordered :
    exUnordered.preProcessing 1 [3] = some [2] ∧
      ∃ K m', exUnordered.consts = some K ∧
        preCode 1 K ⟨fun _ => 1, fun _ _ => 3⟩ = some ((), m') ∧ ¬ Holds m' .input [2] := by
  refine ⟨by decide +kernel, ⟨_, _, _, _, _, _⟩, _, rfl, rfl, ?_⟩
  intro h
  have := h.2 0 (by simp)
  revert this
  decide +kernel

/-- C46 fails for a NaN input: the reference turns it into the maximum (Python's `min(max_i, nan)`
is `max_i`), the generated code keeps NaN. -/
theorem C46_fails_nan (lo hi mean range : ℚ) (h : lo ≤ hi) :
    prePy (PyFloat.fin lo) (.fin hi) (.fin mean) (.fin range) .nan = .fin ((hi - mean) / range) ∧
      ∃ m', preCode 1 ⟨fun _ => .fin lo, fun _ => .fin hi, fun _ => .fin mean, fun _ => .fin range,
          .fin 0, .fin 1⟩ ⟨fun _ => 1, fun _ _ => PyFloat.nan⟩ = some ((), m') ∧
        m'.val .input 0 = PyFloat.nan := by
  have h1 : ¬ (PyFloat.nan < PyFloat.fin hi) := by
    show ¬ (PyFloat.lt _ _ = true)
    simp [PyFloat.lt]
  have h2 : (PyFloat.fin lo < PyFloat.fin hi) ↔ lo < hi := by
    show PyFloat.lt _ _ = true ↔ _
    simp [PyFloat.lt]
  constructor
  · unfold prePy pyMax pyMin
    rw [if_neg h1]
    have e : (if PyFloat.fin lo < PyFloat.fin hi then PyFloat.fin hi else PyFloat.fin lo) = .fin hi := by
      split
      · rfl
      · rename_i hh
        rw [h2] at hh
        rw [le_antisymm h (not_lt.mp hh)]
    rw [e]
    show PyFloat.div (PyFloat.add _ (PyFloat.neg _)) _ = _
    simp [PyFloat.neg, PyFloat.add, PyFloat.div, sub_eq_add_neg]
  · refine ⟨_, rfl, ?_⟩
    rfl

/-- The pre-processing overwrites the caller's input array: running the inference twice on the same
array normalises twice.  Here the input 5, mean 1 and range 2. -/
theorem C46_input_overwritten :
    ∃ m', preCode 1 ⟨fun _ => 0, fun _ => 10, fun _ => 1, fun _ => 2, 0, 1⟩
        (⟨fun _ => 1, fun _ _ => 5⟩ : Mem ℚ) = some ((), m') ∧ m'.val .input 0 = 2 := by
  refine ⟨_, rfl, ?_⟩
  decide +kernel

/-! ### Non-vacuity -/

/-- two inputs, one output -/
def exNormalizer : Normalizer ℚ := ⟨2, 1, [0, -1], [1, 1], [0, 1, 7], [1, 2, 3]⟩

example : exNormalizer.WellFormed ∧
    exNormalizer.preProcessing 2 [5, -3] = some [1, -1] ∧
    exNormalizer.postProcessing [2] = some [13] := by
  refine ⟨⟨by decide, rfl, rfl, rfl, rfl, ?_⟩, by decide +kernel, by decide +kernel⟩
  intro i h1 h2
  rcases i with _ | _ | i
  · norm_num [exNormalizer]
  · norm_num [exNormalizer]
  · simp [exNormalizer] at h1

end Verif.Gen

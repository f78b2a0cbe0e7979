import Verif.CText.Unique
import Verif.CText.SourceExamples

/-!
# C62, C63: the hypotheses can be met
-/

namespace Verif.CText
open Prog Layers Net

/-! ## Integers are doubles -/

/-- the double that is an integer of less than 53 bits -/
def intDbl (v : ℚ) : Gen.Dbl :=
  if v = 0 then .zero false
  else .fin (decide (v < 0)) true ((v.num.natAbs - 2 ^ v.num.natAbs.log2) * 2 ^ (52 - v.num.natAbs.log2)) v.num.natAbs.log2

theorem exact_int (z : ℤ) (hz : z.natAbs < 2 ^ 52) : Exact intDbl (z : ℚ) := by
  by_cases h0 : z = 0
  · subst h0
    refine ⟨⟨0, ?_, by simp⟩, fun neg lead mant exp h => ?_⟩
    · simp [intDbl, Gen.Dbl.value]
    · simp [intDbl] at h
  · have hz0 : (z : ℚ) ≠ 0 := by exact_mod_cast h0
    set n := z.natAbs with hn
    have hn0 : n ≠ 0 := by rw [hn]; exact Int.natAbs_ne_zero.2 h0
    have h1 : 2 ^ n.log2 ≤ n := Nat.log2_self_le hn0
    have h2 : n < 2 ^ (n.log2 + 1) := Nat.lt_log2_self
    have hle : n.log2 ≤ 51 := by
      by_contra hc
      have : 2 ^ 52 ≤ 2 ^ n.log2 := Nat.pow_le_pow_right (by norm_num) (by omega)
      omega
    have hd : intDbl (z : ℚ) = .fin (decide (z < 0)) true ((n - 2 ^ n.log2) * 2 ^ (52 - n.log2)) n.log2 := by
      have hlt : decide ((z : ℚ) < 0) = decide (z < 0) := by
        congr 1; simp
      simp only [intDbl, hz0, if_false, Rat.num_intCast, ← hn, hlt]
    rw [Exact, hd]
    refine ⟨⟨z, ?_, by simp⟩, fun neg lead mant exp h => ?_⟩
    · simp only [Gen.Dbl.value, Option.some.injEq, if_true]
      have hp : (2 : ℚ) ^ 52 = 2 ^ n.log2 * 2 ^ (52 - n.log2) := by rw [← pow_add]; congr 1; omega
      have e1 : ((1 : ℚ) + (((n - 2 ^ n.log2) * 2 ^ (52 - n.log2) : ℕ) : ℚ) / 2 ^ 52) * 2 ^ ((n.log2 : ℕ) : ℤ) = n := by
        rw [hp, zpow_natCast]
        push_cast [Nat.cast_sub h1]
        field_simp
        ring
      have hsign : (z : ℚ) = (if decide (z < 0) = true then -1 else 1) * (n : ℚ) := by
        have : (n : ℤ) = |z| := by rw [hn]; exact Int.natCast_natAbs z
        have hq : (n : ℚ) = |(z : ℚ)| := by exact_mod_cast this
        rw [hq]
        by_cases hneg : z < 0
        · simp [hneg, abs_of_neg (show (z : ℚ) < 0 by exact_mod_cast hneg)]
        · have : (0 : ℚ) ≤ z := by exact_mod_cast not_lt.1 hneg
          simp [hneg, abs_of_nonneg this]
      rw [mul_assoc, e1]
      exact hsign.symm
    · cases h
      have h3 : n - 2 ^ n.log2 < 2 ^ n.log2 := by rw [pow_succ] at h2; omega
      calc (n - 2 ^ n.log2) * 2 ^ (52 - n.log2) < 2 ^ n.log2 * 2 ^ (52 - n.log2) := Nat.mul_lt_mul_of_pos_right h3 (by positivity)
        _ = 2 ^ 52 := by rw [← pow_add]; congr 1; omega

/-! ## The residual network -/

theorem res_representable (plan : Graph.Plan) (h : plan.order = [0, 1, 2, 3, 4]) : Network.Representable resNet plan intDbl := by
  intro n hn p hp v hv
  rw [h] at hn
  simp only [List.mem_cons, List.not_mem_nil, or_false] at hn
  suffices hs : ∃ z : ℤ, z.natAbs < 2 ^ 52 ∧ (z : ℚ) = v by
    obtain ⟨z, h1, rfl⟩ := hs; exact exact_int z h1
  rcases hn with rfl | rfl | rfl | rfl | rfl <;> simp only [resNet, parArrays, List.not_mem_nil, List.mem_cons, or_false] at hp
  · rcases hp with rfl | rfl
    · simp only [tensor4, tensor3, List.mem_flatMap, List.mem_map, List.mem_range, resConv] at hv
      obtain ⟨f, hf, p, hp, i, hi, j, hj, rfl⟩ := hv
      refine ⟨(f : ℤ) + 2 * p - i * j, ?_, by push_cast; ring⟩
      have : i * j ≤ 4 := by nlinarith
      omega
    · simp only [tensor, List.mem_map, List.mem_range, resConv] at hv
      obtain ⟨f, hf, rfl⟩ := hv
      exact ⟨f, by omega, by simp⟩
  · rcases hp with rfl | rfl
    · simp only [matrix, List.mem_flatMap, List.mem_map, List.mem_range] at hv
      obtain ⟨i, hi, j, hj, rfl⟩ := hv
      exact ⟨(i : ℤ) - j, by omega, by push_cast; ring⟩
    · simp only [tensor, List.mem_map, List.mem_range] at hv
      obtain ⟨f, hf, rfl⟩ := hv
      exact ⟨f, by omega, by simp⟩

theorem res_noEmpty (plan : Graph.Plan) (h : plan.order = [0, 1, 2, 3, 4]) : Network.NoEmpty resNet plan := by
  intro n hn p hp
  rw [h] at hn
  simp only [List.mem_cons, List.not_mem_nil, or_false] at hn
  rcases hn with rfl | rfl | rfl | rfl | rfl <;> simp only [resNet, parArrays, List.not_mem_nil, List.mem_cons, or_false] at hp
  · rcases hp with rfl | rfl <;> (intro h; have := congrArg List.length h; revert this; decide +kernel)
  · rcases hp with rfl | rfl <;> (intro h; have := congrArg List.length h; revert this; decide +kernel)

/-- The conclusions of C62 and C63 for this network, on every input of eighteen numbers, with any library. -/
theorem C63_example (L : Lib ℚ) (x : List ℚ) (hx : x.length = 18) :
    ∃ plan y tp defs th fields ti nOut ds s, Graph.triTopo resNet.graph = some plan ∧ resNet.reference L.cmath plan ⟨[18], x⟩ = some y ∧
      paramText intDbl 4096 resNet.op plan.order = some tp ∧ IsDefs 4096 tp defs ∧ headerText resNet plan = some th ∧ IsHeader th fields (defs.map ArrDef.decl) ∧
      sourceText (resTexts plan) resNet plan = some ti ∧ IsInference ti nOut 18 ds s ∧ Declared ds s ∧ Within s.arrays (Bound fields (defs.map ArrDef.decl) ds) ∧
      defs.map ArrDef.decl = [⟨parId (chars! "weights_Conv2D") 1, 36⟩, ⟨parId (chars! "biases_Conv2D") 1, 2⟩, ⟨parId (chars! "weights_Dense") 4, 36⟩, ⟨parId (chars! "biases_Dense") 4, 2⟩] ∧
      (∃ m, Starts fields defs nOut x m) ∧ ∀ m, Starts fields defs nOut x m → ∃ m', Runs L ds s m m' ∧ Holds m' .pred y := by
  have hp : ∃ plan, Graph.triTopo resNet.graph = some plan ∧ plan.order = [0, 1, 2, 3, 4] := ⟨_, rfl, by decide⟩
  obtain ⟨plan, h1, h2⟩ := hp
  obtain ⟨y, tp, defs, th, fields, ti, nOut, nIn, ds, s, g1, g2, g3, g4, g5, g6, g7, g8, g9, g10, g11, g12, g13, g14, g15⟩ :=
    C63_program_partial (resTexts plan) L resNet resNet_wf plan h1 (resTexts_of L plan h2)
    (by
      intro n hn
      rw [h2] at hn
      simp only [List.mem_cons, List.not_mem_nil, or_false] at hn
      rcases hn with rfl | rfl | rfl | rfl | rfl <;> try trivial
      refine ⟨fun s hs => ?_, fun c hc => by cases hc⟩
      simp only [List.mem_cons, List.not_mem_nil, or_false, or_self] at hs
      subst hs
      exact ⟨by decide, by decide, by decide⟩)
    intDbl 4096 (res_representable plan h2) (res_noEmpty plan h2) ⟨[18], x⟩
    (by
      intro l hl r s e
      simp only [resNet, resGraph, List.mem_cons, List.not_mem_nil, or_false] at hl
      rcases hl with rfl | rfl | rfl | rfl | rfl <;> simp [resNet] at e
      rw [← e.2]; simp [Shape.size, hx])
    (by
      intro f x' _ _ n ins hr
      obtain ⟨pre, post, st, he, _⟩ := hr
      have hn : n ∈ [0, 1, 2, 3, 4] := by rw [← h2, he]; simp
      simp only [List.mem_cons, List.not_mem_nil, or_false] at hn
      rcases hn with rfl | rfl | rfl | rfl | rfl <;> trivial)
    (by
      intro _ n hn
      rw [h2] at hn
      simp at hn
      subst hn; exact .inl rfl)
  have hn : nIn = 18 := by rw [g12]; exact hx
  subst hn
  refine ⟨plan, y, tp, defs, th, fields, ti, nOut, ds, s, h1, g1, g2, g3, g4, g5, g8, g9, g10, g11, ?_, g14, fun m hm => ?_⟩
  · obtain ⟨tp', h3, h4⟩ := params_text intDbl 4096 resNet.op plan.order (res_representable plan h2)
    rw [g2, Option.some.injEq] at h3
    subst h3
    rw [C62_params_unique g3 h4, h2]
    rfl
  · obtain ⟨m', a, b, _⟩ := g15 m hm
    exact ⟨m', a, b⟩

/-- the fields of the context of this network: two arrays for the paths, one saved copy, the scratch array -/
example : ∃ plan csts, Graph.triTopo resNet.graph = some plan ∧ written (Network.infos resNet plan) (dictOf plan) none [] = some csts ∧
    ctxFields (Network.infos resNet plan) plan.maxPath csts = [⟨outId 0, 162⟩, ⟨outId 1, 162⟩, ⟨cstId 0, 18⟩, ⟨tempId, 162⟩] := ⟨_, _, rfl, rfl, by decide +kernel⟩

end Verif.CText

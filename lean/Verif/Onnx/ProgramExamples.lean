import Verif.Onnx.Program
import Verif.Onnx.GeneratedExamples
import Verif.CText.ProjectExamples

/-!
# C64: the hypotheses can be met
-/

namespace Verif.Onnx
open Net Layers Graph CText
open scoped Classical

/-- the double that is an integer, the argument being a real number -/
noncomputable def realDbl (v : ℝ) : Gen.Dbl := intDbl (⌊v⌋ : ℚ)

theorem exact_real (z : ℤ) (hz : z.natAbs < 2 ^ 52) : Exact realDbl (z : ℝ) := by
  obtain ⟨⟨r, h1, h2⟩, h3⟩ := exact_int z hz
  have : realDbl (z : ℝ) = intDbl (z : ℚ) := by simp [realDbl]
  rw [Exact, this]
  refine ⟨⟨r, h1, ?_⟩, h3⟩
  have : r = z := by simpa using h2
  rw [this]; simp

/-- **C64** For the model `y = relu(x + k) * (x + k)` of C60, whatever the integers of `k` (less than `2 ^ 52`) and the numbers of `x`, if the
numbers of the model are greater than `-INFINITY`: the generator has texts, and the generated files are a program that leaves
`relu(x + k) * (x + k)` in `prediction`. -/
theorem C64_example (p q : ℤ) (hp : p.natAbs < 2 ^ 52) (hq : q.natAbs < 2 ^ 52) (u v inf : ℝ)
    (h0 : 0 < inf) (h1 : -inf < u) (h2 : -inf < v) (h3 : -inf < p) (h4 : -inf < q) (h5 : -inf < u + p) (h6 : -inf < v + q) :
    ∃ net plan t, loadOnnx (exModel p q) = some (net, plan) ∧ t.Of (realLib inf) net plan ∧
      ∃ tp defs th fields ti nOut ds s,
        paramText realDbl 4096 net.op plan.order = some tp ∧ IsDefs 4096 tp defs ∧
        headerText net plan = some th ∧ IsHeader th fields (defs.map ArrDef.decl) ∧
        sourceText t net plan = some ti ∧ IsInference ti nOut 2 ds s ∧
        (∃ mem, Starts fields defs nOut [u, v] mem) ∧
        ∀ mem, Starts fields defs nOut [u, v] mem → ∃ m', Runs (realLib inf) ds s mem m' ∧
          Holds m' .pred [max 0 (u + p) * (u + p), max 0 (v + q) * (v + q)] := by
  have hok : Nd.Ok (⟨[1, 1, 1, 2], [u, v]⟩ : Nd ℝ) := by simp [Nd.Ok, prod]
  obtain ⟨net, plan, hl, _⟩ := C60_example p q u v (M := (realLib inf).cmath) rfl rfl
  have hi : importNet (exModel p q) = some net := by
    unfold loadOnnx at hl
    obtain ⟨n', e1, hl⟩ := Option.bind_eq_some_iff.mp hl
    obtain ⟨p', e2, hl⟩ := Option.bind_eq_some_iff.mp hl
    cases hl; exact e1
  have hgen := C61_generable_example p q hi
  have hnet := ex_layers p q hi
  have hop : ∀ n, net.op n = (([.input true ⟨1, 1, 2⟩, .broadcast .add ⟨1, 1, 2⟩ [⟨1, 1, 2⟩, ⟨1, 1, 2⟩] none id, .activation 2 (Act.compute .relu),
      .broadcast .mul ⟨1, 1, 2⟩ [⟨1, 1, 2⟩, ⟨1, 1, 2⟩] none id, .constant ⟨[1, 1, 1, 2], [(p : ℝ), (q : ℝ)]⟩] : List (Op ℝ))[n]?).getD (.constant ⟨[], []⟩) := by
    intro n; rw [hnet]; rfl
  have hcode : ∀ l ∈ net.graph, CodeOk (net.op l.idx) := by
    intro l _
    rw [hop]
    rcases hn : l.idx with _ | _ | _ | _ | _ | k <;> simp [CodeOk]
  have hlt : ∀ n ∈ plan.order, n < 5 := by
    intro n hn
    obtain ⟨hmem, _⟩ := import_parts (M := (realLib inf).cmath) rfl rfl (ex_valid p q) hok (ex_eval p q u v) (ex_fits p q u v) hl
    obtain ⟨l, hg, rfl⟩ := (hmem n).mp hn
    rw [hnet] at hg
    obtain ⟨k, hk, rfl⟩ := graph_mem.mp hg
    exact hk
  obtain ⟨⟨t, ht⟩, hall⟩ := C64_onnx_program_partial (realLib inf) rfl rfl rfl (ex_valid p q) hok
    (by
      intro d hd
      have : d = [1, 1, 1, 2] := by simpa [exModel] using hd.symm
      subst this; simp [findSize])
    (ex_eval p q u v) (ex_fits p q u v)
    (by
      intro n hn
      simp only [exModel, List.mem_cons, List.not_mem_nil, or_false] at hn
      rcases hn with rfl | rfl | rfl | rfl <;> simp [Bounded])
    (by
      intro s t he a ha
      have hm : ∀ w : ℝ, -inf < max 0 w := fun w => lt_of_lt_of_le (by linarith) (le_max_left _ _)
      have hmm : ∀ w : ℝ, -inf < max 0 w * w := by
        intro w
        rcases le_total w 0 with h | h
        · rw [max_eq_left h]; linarith
        · rw [max_eq_right h]; nlinarith
      show -inf < a
      simp only [exEnv] at he
      split at he
      · cases he; simp at ha; rcases ha with rfl | rfl <;> exact hmm _
      · split at he
        · cases he; simp at ha; rcases ha with rfl | rfl <;> exact hm _
        · split at he
          · cases he; simp at ha; rcases ha with rfl | rfl <;> exact hm _
          · split at he
            · cases he; simp at ha; rcases ha with rfl | rfl <;> assumption
            · simp only [Spec.env0] at he
              split at he
              · cases he; simp at ha; rcases ha with rfl | rfl <;> assumption
              · obtain ⟨i, hi, he⟩ := Option.bind_eq_some_iff.mp he
                have := List.mem_of_find?_eq_some hi
                simp only [exModel, List.mem_cons, List.not_mem_nil, or_false] at this
                subst this
                simp [Init.array, Payload.reals, prod] at he
                rw [← he] at ha
                simp at ha; rcases ha with rfl | rfl <;> assumption)
    (y := ⟨[1, 1, 1, 2], [max 0 (u + p) * (u + p), max 0 (v + q) * (v + q)]⟩) (by simp [exEnv]) hl hgen.simple hcode realDbl 4096
    (by
      intro n hn pr hpr w hw
      have := hlt n hn
      rw [hop] at hpr
      rcases n with _ | _ | _ | _ | _ | k <;> simp [parArrays] at hpr <;> try omega
      subst hpr
      simp at hw
      rcases hw with rfl | rfl
      · exact exact_real p hp
      · exact exact_real q hq)
    (by
      intro n hn pr hpr
      have := hlt n hn
      rw [hop] at hpr
      rcases n with _ | _ | _ | _ | _ | k <;> simp [parArrays] at hpr <;> try omega
      subst hpr
      simp)
  obtain ⟨tp, defs, th, fields, ti, nOut, nIn, ds, s, g1, g2, g3, g4, _, _, g5, g6, _, _, g7, _, g8, g9⟩ := hall t ht
  have : nIn = 2 := g7
  subst this
  exact ⟨net, plan, t, hl, ht, tp, defs, th, fields, ti, nOut, ds, s, g1, g2, g3, g4, g5, g6, g8, g9⟩

end Verif.Onnx

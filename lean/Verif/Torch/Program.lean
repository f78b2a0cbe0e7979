import Verif.Torch.Import

/-!
# C69: from an exported PyTorch program to the C program
-/

namespace Verif.Torch
open Net Graph CText
open Keras (good_plan Delivers graph_mem)
open scoped Classical

variable {p : Program} {x : Nd ℝ} {out : String}

theorem import_simple {M : CMath ℝ} {E : Spec.Env} {st : State} {vals : List (List ℝ)} (hI : Inv M p x p.nodes E st vals) (hpl : p.Plain) : SimpleInputs (net st.net).graph := by
  intro l hl
  obtain ⟨k, _, rfl⟩ := (graph_mem hI.flow.good).mp hl
  exact hI.simple hpl k

/-- **C69** (partial: the operators and restrictions of `Supported` and `Valid`; exact real arithmetic).  Take an exported PyTorch program `p`, an input `x`, values
`E` of its nodes with the declared shapes, all greater than `-INFINITY`, and the value `y` of the returned tensor; let no sum or concatenation read a tensor twice
or read the result of a dropout or flatten.  Then the importer accepts `p`, and the C program generated from the network computes the elements of `y` from those
of `x`. -/
theorem C69_torch_program_partial (L : Lib ℝ) (hexp : L.exp = Real.exp) (hlog : L.log = Real.log) (hsqrt : L.sqrt = Real.sqrt)
    (hv : Valid p out) (hpl : p.Plain) (hx : x.Ok) {E : Spec.Env} (he : Spec.eval p x = some E) (hf : Fits p E)
    (hmin : ∀ s t, E s = some t → ∀ a ∈ t.data, -L.inf < a) {y : Nd ℝ} (hy : Spec.output p x = some y) :
    ∃ net plan, loadTorch p = some (net, plan) ∧ Delivers L net plan x.data y.data := by
  obtain ⟨st, vals, hst, hI, hb⟩ := import_core (M := L.cmath) hv hx he hf
  have hyE : E out = some y := by
    unfold Spec.output at hy
    rw [he, hv.returned] at hy
    exact hy
  obtain ⟨hu, hlast⟩ := import_end hv hI hyE
  obtain ⟨net', plan, hload, href⟩ := C68_import_correct_partial (M := L.cmath) hv hx he hf hy
  have hnet : st.network = net st.net := by
    unfold State.network net
    rw [hI.fmt]
  have hparts : net' = net st.net ∧ triTopo (net st.net).graph = some plan := by
    unfold loadTorch at hload
    rw [hst] at hload
    simp only [Option.bind_eq_bind, Option.bind_some] at hload
    rw [listed_triTopo hI.flow.good hI.covers] at hload
    obtain ⟨q, hq, hload⟩ := Option.bind_eq_some_iff.mp hload
    cases hload
    exact ⟨hnet, hq⟩
  obtain ⟨rfl, htt⟩ := hparts
  refine ⟨_, plan, hload, fun dbl page hr hne => ?_⟩
  obtain ⟨ht, hpos⟩ := flow_texts hexp hlog hsqrt hI.flow hb htt
  refine ⟨ht, fun t ht => ?_⟩
  obtain ⟨y', tp, defs, th, fields, ti, nOut, nIn, ds, s, g1, g2, g3, g4, g5, g6, g7, g8, g9, g10, g11, g12, g13, g14, g15⟩ :=
    C63_program_partial t L (net st.net) (flow_wf hI.flow hb (import_simple hI hpl)) plan htt ht hpos dbl page hr hne x (flow_hx hI.flow hb)
      (flow_inputsOK hI.flow hb htt hu fun d hd a ha => by
        obtain ⟨s, t, h1, rfl⟩ := hI.among d hd
        exact hmin s t h1 a ha)
      (fun h => by cases h)
  rw [href] at g1
  cases g1
  exact ⟨tp, defs, th, fields, ti, nOut, nIn, ds, s, g2, g3, g4, g5, g6, g7, g8, g9, g10, g11, g12, g13, g14,
    fun mem hmem => by obtain ⟨m', a, b, _⟩ := g15 mem hmem; exact ⟨m', a, b⟩⟩

end Verif.Torch

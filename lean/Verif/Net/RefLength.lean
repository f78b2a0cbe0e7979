import Verif.Net.Run

/-!
# The number of elements of a prediction
-/

namespace Verif.Net
open Prog Layers Graph
set_option linter.unusedSectionVars false
variable {K : Type} [Field K] [LinearOrder K] [IsStrictOrderedRing K] [FloorRing K]

/-- the prediction of a channels-first network has as many elements as its last layer's output -/
theorem reference_length (net : Network K) (hwf : net.WF) (hfmt : net.fmt = .first) (plan : Plan) (h : triTopo net.graph = some plan)
    (M : CMath K) (x : Nd K) (hx : ∀ l ∈ net.graph, ∀ r s, net.op l.idx = .input r s → x.data.length = s.size)
    (hin : ∀ first x', plan.order.head? = some first → prepare net.fmt (net.op first) x = some x' →
      ∀ n ins, net.Receives M plan x' n ins → (net.op n).InputsOK M ins) {y : List K} (hy : net.reference M plan x = some y)
    {last : Nat} (hlast : plan.order.getLast? = some last) : y.length = (net.op last).size := by
  have hu := hwf.unique
  have hc := hwf.consistent
  have hsorted := plan_sorted h
  have hperm := plan_perm hu hc h
  have hlk := links hu hc
  have hcl : ∀ n ∈ plan.order, ∀ s ∈ net.graph.nextOf n, s ∈ plan.order := by
    intro n _ s hsn
    exact hperm.mem_iff.2 (next_closed hu hc n (nextOf_idx hsn) s hsn)
  have hlay : ∀ n ∈ plan.order, ∃ l ∈ net.graph, l.idx = n := fun n hn => layer_of_idx (hperm.mem_iff.1 hn)
  obtain ⟨n0, r0, s0, hhead, hop0, hn0⟩ := first_input hwf h
  obtain ⟨l0, hl0, rfl⟩ := hlay n0 hn0
  obtain ⟨x', hprep, hx'len, -⟩ := prepare_input net.fmt r0 s0 x (hx l0 hl0 r0 s0 hop0)
  have hin' := hin l0.idx x' hhead (by rw [hop0]; exact hprep)
  have hinputs : ∀ l ∈ net.graph, ∀ r s, net.op l.idx = .input r s → r = r0 ∧ s = s0 :=
    fun l hl r s e => hwf.inputs l hl l0 hl0 r s r0 s0 e hop0
  set fwd := fun n => (net.op n).forward M net.fmt with hfwd
  have hargs : ∀ (v : Nat → Nd K) l, l ∈ net.graph → (∀ p ∈ l.prev, (v p).data.length = (net.op p).size) →
      l.prev ≠ [] → (argsOf net.graph.prevOf x' v l.idx).map (fun x => x.data.length) = (net.op l.idx).inSizes := by
    intro v l hl hp hne
    rw [argsOf, prevOf_mem hu hl, if_neg hne, ← hwf.sizes l hl, List.map_map]
    exact List.map_congr_left fun p hpm => hp p hpm
  have hstep : ∀ pre n post, plan.order = pre ++ n :: post → ∀ v : Nat → Nd K,
      (∀ i ∈ pre, fwd i (argsOf net.graph.prevOf x' v i) = some (v i) ∧ (v i).data.length = (net.op i).size) →
      ∃ y, fwd n (argsOf net.graph.prevOf x' v n) = some y ∧ y.data.length = (net.op n).size := by
    intro pre n post he v hv
    obtain ⟨l, hl, rfl⟩ := hlay n (by simp [he])
    have hpre := (hsorted pre l.idx post he).2
    rw [prevOf_mem hu hl] at hpre
    by_cases hne : l.prev = []
    · have hs := hwf.sizes l hl
      rw [hne] at hs
      have ea : argsOf net.graph.prevOf x' v l.idx = [x'] := by rw [argsOf, prevOf_mem hu hl, if_pos hne]
      rw [ea]
      rcases noInputs (hwf.ok l hl) hs.symm with ⟨r, s, e⟩ | ⟨w, e⟩
      · refine ⟨x', by simp only [hfwd, e]; rfl, ?_⟩
        rw [e, hx'len, (hinputs l hl r s e).2]; rfl
      · exact ⟨w, by simp only [hfwd, e]; rfl, by rw [e]; rfl⟩
    · have hlen := hargs v l hl (fun p hp => (hv p (hpre p hp)).2) hne
      have hne' : (net.op l.idx).inSizes ≠ [] := by
        rw [← hwf.sizes l hl]; simpa using hne
      have hrec : net.Receives M plan x' l.idx (argsOf net.graph.prevOf x' v l.idx) :=
        ⟨pre, post, _, he, stepE_steps hsorted hlk hcl pre (l.idx :: post) he (fun i hi => (hv i hi).1),
          gather_args hsorted hlk he⟩
      obtain ⟨y, hy, hyl, _⟩ := op_correct M net.fmt (net.op l.idx) l.idx _ hne' (hwf.ok l hl) hlen (hin' _ _ hrec)
      exact ⟨y, hy, hyl⟩
  have : Inhabited (Nd K) := ⟨⟨[], []⟩⟩
  obtain ⟨v, hv⟩ := exists_valuationE (fwd := fwd) (P := fun n y => y.data.length = (net.op n).size) hsorted hstep
  have hloop : loopE net.graph.prevOf net.graph.nextOf fwd plan.order x' = some (v last) := by
    unfold loopE
    rw [stepE_steps hsorted hlk hcl plan.order [] (by simp) (fun i hi => (hv i hi).1)]
    simp [hlast]
  unfold Network.reference at hy
  simp only [hhead, hlast, Option.bind_eq_bind, Option.bind_some, hop0, hprep, ← hfwd, hloop] at hy
  unfold finish at hy
  rw [hfmt] at hy
  have hy' : (v last).data = y := by simpa using hy
  rw [← hy']
  exact (hv last (List.mem_of_getLast? hlast)).2

end Verif.Net

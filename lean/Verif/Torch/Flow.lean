import Verif.Torch.Load
import Verif.Keras.Program

/-!
# The values that flow along the layers built by the importer

As for Keras, but the data format is channels-first and values are compared by their elements in C order.
-/

namespace Verif.Torch
open Net Layers Graph CText
open Onnx (prod indices mk)
open Keras (pick pick_forall pick_append pick_bound graph_prev graph_next graph_unique graph_consistent graph_idxs graph_mem net_op good_push)
open scoped Classical

/-- The layer returns `d` on arrays with the elements `ds`. -/
def Gives (M : CMath ℝ) (op : Op ℝ) (ds : List (List ℝ)) (d : List ℝ) : Prop :=
  ∀ zs : List (Nd ℝ), zs.map Nd.data = ds → ∃ z, op.forward M .first zs = some z ∧ z.data = d

/-- What the theorems on generated code ask of a layer `op` that computes `d` from `ds`. -/
structure Coded (op : Op ℝ) (ds : List (List ℝ)) (d : List ℝ) : Prop where
  ok : op.OK
  size : op.size = d.length
  inSizes : ds.map List.length = op.inSizes
  inner : (∀ r s, op ≠ .input r s) ∧ ∀ v, op ≠ .constant v
  own : ¬ op.NeedsOwn
  positive : op.Positive
  emits : ∀ (L : Lib ℝ), L.exp = Real.exp → L.log = Real.log → L.sqrt = Real.sqrt → ∀ idx road (srcs : List Ref), srcs.length = op.inSizes.length →
    ∃ text hash, Emits L .first idx road op srcs text hash
  inputs : ∀ (M : CMath ℝ) zs, zs.map Nd.data = ds → (∀ e ∈ ds, ∀ a ∈ e, M.ninf < a) → op.InputsOK M zs

variable {M : CMath ℝ} {x : Nd ℝ}

/-- the network of a state -/
noncomputable def net (st : Keras.State) : Network ℝ := ⟨st.graph, st.net.op, .first⟩

/-- The layer at position `k` returns `vals[k]` when its producers hold theirs; the first one is the input. -/
structure Flow (M : CMath ℝ) (x : Nd ℝ) (st : Keras.State) (vals : List (List ℝ)) : Prop where
  good : st.Good
  length : vals.length = st.layers.length
  xok : x.Ok
  first : ∃ op, inputOp x.dims = some op ∧ st.layers[0]? = some (0, op) ∧ vals[0]? = some x.data
  made : ∀ k op, 1 ≤ k → st.layers[k]? = some (k, op) → ∃ xs y, pick vals ((st.links.filter fun e => e.2 = k).map (·.1)) = some xs ∧ xs ≠ [] ∧
    vals[k]? = some y ∧ Gives M op xs y ∧ Coded op xs y

section
variable {st : Keras.State} {vals : List (List ℝ)}

theorem flow_pos (h : Flow M x st vals) : 0 < st.layers.length := by
  obtain ⟨op, _, h1, _⟩ := h.first
  exact (List.getElem?_eq_some_iff.mp h1).1

theorem flow_push (h : Flow M x st vals) {prev : List Nat} {xs : List (List ℝ)} (hp : pick vals prev = some xs) (hne : xs ≠ [])
    {op : Op ℝ} {y : List ℝ} (hr : Gives M op xs y) (hcd : Coded op xs y) (nb : Nat) :
    Flow M x ⟨st.layers ++ [(st.layers.length, op)], st.links ++ prev.map fun p => (p, st.layers.length), nb⟩ (vals ++ [y]) := by
  have hb := pick_bound hp
  rw [h.length] at hb
  have hpos := flow_pos h
  refine ⟨good_push h.good hb op nb, by simp [h.length], h.xok, ?_, ?_⟩
  · obtain ⟨op, h1, h2, h3⟩ := h.first
    refine ⟨op, h1, ?_, ?_⟩
    · rw [List.getElem?_append_left hpos]; exact h2
    · rw [List.getElem?_append_left (by rw [h.length]; exact hpos)]; exact h3
  · intro k op' hk1 hl
    simp only at hl ⊢
    have hfl : ∀ j, j ≤ st.layers.length → ((st.links ++ prev.map fun p => (p, st.layers.length)).filter fun e => e.2 = j).map (·.1) =
        (st.links.filter fun e => e.2 = j).map (·.1) ++ (if j = st.layers.length then prev else []) := by
      intro j hj
      rw [List.filter_append, List.map_append]
      congr 1
      split
      · rename_i he
        rw [List.filter_eq_self.mpr (by intro e he'; obtain ⟨p, _, rfl⟩ := List.mem_map.mp he'; simp [he])]
        simp [Function.comp_def]
      · rename_i he
        rw [List.filter_eq_nil_iff.mpr (by intro e he'; obtain ⟨p, _, rfl⟩ := List.mem_map.mp he'; simp only [decide_eq_true_eq]; omega)]
        rfl
    rcases Nat.lt_or_ge k st.layers.length with hlt | hge
    · rw [List.getElem?_append_left hlt] at hl
      obtain ⟨ys, z, h1, h2, h3, h4⟩ := h.made k op' hk1 hl
      refine ⟨ys, z, ?_, h2, ?_, h4⟩
      · rw [hfl k (by omega), if_neg (by omega), List.append_nil]
        exact pick_append h1 _
      · rw [List.getElem?_append_left (by rw [h.length]; exact hlt)]; exact h3
    · have hkl : k = st.layers.length := by
        have := (List.getElem?_eq_some_iff.mp hl).1
        simp at this; omega
      subst hkl
      rw [List.getElem?_append_right (le_refl _)] at hl
      simp only [Nat.sub_self, List.getElem?_cons_zero, Option.some.injEq, Prod.mk.injEq, true_and] at hl
      subst hl
      refine ⟨xs, y, ?_, hne, ?_, hr, hcd⟩
      · rw [hfl _ (le_refl _), if_pos rfl]
        rw [List.filter_eq_nil_iff.mpr (by
          intro e he
          have := (h.good.links e he).2
          simp only [decide_eq_true_eq]; omega)]
        exact pick_append hp _
      · rw [← h.length, List.getElem?_append_right (le_refl _)]; simp

theorem pick_set {vals : List (List ℝ)} {ps : List Nat} {xs : List (List ℝ)} (h : pick vals ps = some xs) {k : Nat} (hk : ∀ p ∈ ps, p ≠ k) (y : List ℝ) :
    pick (vals.set k y) ps = some xs := by
  rw [pick_forall] at h ⊢
  induction h with
  | nil => exact .nil
  | @cons p x ps xs h1 _ ih =>
    refine .cons ?_ (ih fun q hq => hk q (by simp [hq]))
    rw [List.getElem?_set_ne (by have := hk p (by simp); omega)]
    exact h1

theorem picked {vals : List (List ℝ)} {ps : List Nat} {ds : List (List ℝ)} (h : List.Forall₂ (fun p d => vals[p]? = some d) ps ds) {v : Nat → Nd ℝ}
    (hv : ∀ p ∈ ps, vals[p]? = some (v p).data) : (ps.map v).map Nd.data = ds := by
  induction h with
  | nil => rfl
  | @cons p d ps ds h1 _ ih =>
    rw [List.map_cons, List.map_cons, ih fun q hq => hv q (by simp [hq])]
    have := hv p (by simp)
    rw [h1] at this
    cases this
    rfl

/-- the layer at `k`, which nothing reads yet, is changed so that it returns another value -/
theorem flow_set (h : Flow M x st vals) {k : Nat} (hk1 : 1 ≤ k) (hout : ∀ l ∈ st.links, l.1 ≠ k) {op' : Op ℝ} {y' : List ℝ} {xs : List (List ℝ)}
    (hp : pick vals ((st.links.filter fun e => e.2 = k).map (·.1)) = some xs) (hr : Gives M op' xs y') (hcd : Coded op' xs y') (hne : xs ≠ [])
    {f : Nat × Op ℝ → Nat × Op ℝ} (hf : ∀ op, st.layers[k]? = some (k, op) → f (k, op) = (k, op')) (hkl : k < st.layers.length) :
    Flow M x { st with layers := st.layers.modify k f } (vals.set k y') := by
  have hget : ∀ j, (st.layers.modify k f)[j]? = if k = j then some (k, op') else st.layers[j]? := by
    intro j
    rw [List.getElem?_modify]
    split
    · rename_i e
      subst e
      obtain ⟨op, hop⟩ := h.good.at hkl
      rw [hop, ← hf op hop]
      rfl
    · simp
  refine ⟨⟨?_, fun l hl => ?_⟩, by simp [h.length], h.xok, ?_, ?_⟩
  · apply List.ext_getElem?
    intro j
    have := congrArg (fun l => l[j]?) h.good.idxs
    simp only [List.getElem?_map, List.length_modify] at this ⊢
    rw [← this, hget]
    split
    · rename_i e
      subst e
      obtain ⟨op, hop⟩ := h.good.at hkl
      rw [hop]; rfl
    · rfl
  · have := h.good.links l hl
    simpa using this
  · obtain ⟨op, h1, h2, h3⟩ := h.first
    refine ⟨op, h1, ?_, ?_⟩
    · show (st.layers.modify k f)[0]? = _
      rw [hget, if_neg (by omega)]; exact h2
    · rw [List.getElem?_set_ne (by omega)]; exact h3
  · intro j op hj hl
    change (st.layers.modify k f)[j]? = _ at hl
    rw [hget] at hl
    have hpk : ∀ j, ∀ p ∈ (st.links.filter fun e => e.2 = j).map (·.1), p ≠ k := by
      intro j p hp
      obtain ⟨e, he, rfl⟩ := List.mem_map.mp hp
      exact hout e (List.mem_filter.mp he).1
    by_cases e : k = j
    · subst e
      rw [if_pos rfl] at hl
      cases hl
      exact ⟨xs, y', pick_set hp (hpk k) y', hne, by rw [List.getElem?_set_self (by rw [h.length]; exact hkl)], hr, hcd⟩
    · rw [if_neg e] at hl
      obtain ⟨ys, z, h1, h2, h3, h4⟩ := h.made j op hj hl
      refine ⟨ys, z, pick_set h1 (hpk j) y', h2, ?_, h4⟩
      rw [List.getElem?_set_ne e]; exact h3

theorem flow_prev0 (h : Flow M x st vals) : st.graph.prevOf 0 = [] := by
  rw [graph_prev h.good (flow_pos h), List.map_eq_nil_iff, List.filter_eq_nil_iff]
  intro l hl hc
  simp only [decide_eq_true_eq] at hc
  have := h.good.links l hl
  omega

theorem flow_prev (h : Flow M x st vals) {k : Nat} (h1 : 1 ≤ k) (hk : k < st.layers.length) : st.graph.prevOf k ≠ [] := by
  obtain ⟨op, hop⟩ := h.good.at hk
  obtain ⟨xs, y, hp, hne, _⟩ := h.made k op h1 hop
  rw [graph_prev h.good hk]
  intro h0
  rw [h0] at hp
  exact hne (Option.some.inj hp).symm

theorem inputOp_some {d : List Nat} {op : Op ℝ} (h : inputOp d = some op) (hb : d.head? = some 1) : ∃ r s, op = .input r s ∧ s.size = prod d := by
  unfold inputOp at h
  simp only [Option.ite_none_right_eq_some, Option.some.injEq] at h
  obtain ⟨_, rfl⟩ := h
  split
  · simp at hb
    exact ⟨_, _, rfl, by simp [Shape.size, prod, hb]; ring⟩
  · exact ⟨_, _, rfl, by simp [Shape.size]⟩

theorem flow_input (h : Flow M x st vals) (hb : x.dims.head? = some 1) : ∃ r s, st.layers[0]? = some (0, .input r s) ∧ s.size = x.data.length := by
  obtain ⟨op, h1, h2, h3⟩ := h.first
  obtain ⟨r, s, rfl, hs⟩ := inputOp_some h1 hb
  exact ⟨r, s, h2, by rw [hs, h.xok]⟩

/-- what the interpreter computes for each layer -/
theorem flow_valuation (h : Flow M x st vals) (hb : x.dims.head? = some 1) {plan : Plan} (htt : triTopo (net st).graph = some plan) :
    ∃ v : Nat → Nd ℝ, ∀ n ∈ plan.order, ((net st).op n).forward M (net st).fmt (argsOf (net st).graph.prevOf x v n) = some (v n) ∧ vals[n]? = some (v n).data := by
  have hun : UniqueIdx (net st).graph := graph_unique h.good
  have hc : Consistent (net st).graph := graph_consistent h.good
  have hsorted := plan_sorted htt
  have hperm := plan_perm hun hc htt
  have hmem : ∀ n, n ∈ plan.order ↔ n < st.layers.length := fun n => by
    rw [hperm.mem_iff, show (net st).graph.idxs = List.range st.layers.length from graph_idxs h.good, List.mem_range]
  have hv0 : vals[0]? = some x.data := by obtain ⟨_, _, _, h⟩ := h.first; exact h
  have : Inhabited (Nd ℝ) := ⟨⟨[], []⟩⟩
  exact exists_valuationE (x := x) (fwd := fun n => ((net st).op n).forward M (net st).fmt)
    (P := fun n (z : Nd ℝ) => vals[n]? = some z.data) hsorted (by
      intro pre n post ho v hpre
      have hn : n < st.layers.length := (hmem n).mp (by rw [ho]; simp)
      obtain ⟨op, hop⟩ := h.good.at hn
      rw [show (net st).op n = op from net_op h.good hop]
      rcases Nat.eq_zero_or_pos n with rfl | hn1
      · have hargs : argsOf (net st).graph.prevOf x v 0 = [x] := by
          unfold argsOf
          rw [show (net st).graph.prevOf 0 = [] from flow_prev0 h]; simp
        rw [hargs]
        obtain ⟨r, s, h1, _⟩ := flow_input h hb
        rw [h1] at hop
        cases hop
        exact ⟨x, rfl, hv0⟩
      · obtain ⟨xs, z, hp, hne, hvn, hret, _⟩ := h.made n op hn1 hop
        have hargs : argsOf (net st).graph.prevOf x v n = (st.graph.prevOf n).map v := by
          unfold argsOf
          exact if_neg (flow_prev h hn1 hn)
        rw [hargs]
        rw [← graph_prev h.good hn, pick_forall] at hp
        have hins : ((st.graph.prevOf n).map v).map Nd.data = xs := by
          exact picked hp fun p hp => (hpre _ ((hsorted pre n post ho).2 _ hp)).2
        obtain ⟨r, hr, hrr⟩ := hret _ hins
        exact ⟨r, hr, by rw [hvn, hrr]⟩)

/-- the layers in the order of execution are those of the state -/
theorem flow_order (h : Flow M x st vals) {plan : Plan} (htt : triTopo (net st).graph = some plan) : ∀ n, n ∈ plan.order ↔ n < st.layers.length := fun n => by
  rw [(plan_perm (show UniqueIdx (net st).graph from graph_unique h.good) (show Consistent (net st).graph from graph_consistent h.good) htt).mem_iff,
    show (net st).graph.idxs = List.range st.layers.length from graph_idxs h.good, List.mem_range]

/-- the first layer is the input, the last one is the only one without consumer -/
theorem flow_ends (h : Flow M x st vals) (hu : st.Used) {plan : Plan} (htt : triTopo (net st).graph = some plan) :
    plan.order.head? = some 0 ∧ plan.order.getLast? = some (st.layers.length - 1) := by
  have hun : UniqueIdx (net st).graph := graph_unique h.good
  have hc : Consistent (net st).graph := graph_consistent h.good
  have hsorted := plan_sorted htt
  have hperm := plan_perm hun hc htt
  have hlk := links hun hc
  have hmem := flow_order h htt
  have hcl : ∀ n ∈ plan.order, ∀ s ∈ (net st).graph.nextOf n, s ∈ plan.order := by
    intro n _ s hsn
    exact hperm.mem_iff.2 (next_closed hun hc n (nextOf_idx hsn) s hsn)
  have hpos := flow_pos h
  have hne : plan.order ≠ [] := by
    intro h0
    have := (hmem 0).mpr hpos
    rw [h0] at this; simp at this
  obtain ⟨last, hlast⟩ : ∃ n, plan.order.getLast? = some n := ⟨_, List.getLast?_eq_some_getLast hne⟩
  obtain ⟨first, hfirst⟩ : ∃ n, plan.order.head? = some n := ⟨_, List.head?_eq_some_head hne⟩
  have hlm : last ∈ plan.order := List.mem_of_getLast? hlast
  have hnext : st.graph.nextOf last = [] := by
    by_contra hcon
    obtain ⟨s, hs⟩ := List.exists_mem_of_ne_nil _ hcon
    have hso := hcl last hlm s hs
    obtain ⟨a, b, hab⟩ := List.append_of_mem hso
    have hpa := (hsorted a s b hab).2 last ((hlk last s).2 hs)
    have hnd := hsorted.nodup
    rw [hab] at hnd
    have hin : last ∈ s :: b := by
      rw [hab, List.getLast?_append] at hlast
      cases hb : (s :: b).getLast? with
      | none => simp at hb
      | some z => rw [hb] at hlast; simp at hlast; rw [← hlast]; exact List.mem_of_getLast? hb
    exact (List.nodup_append.mp hnd).2.2 last hpa last hin rfl
  have hll : last = st.layers.length - 1 := by
    have hlt := (hmem last).mp hlm
    by_contra hcon
    obtain ⟨l, hl, e⟩ := hu last (by omega)
    rw [graph_next h.good hlt, List.map_eq_nil_iff, List.filter_eq_nil_iff] at hnext
    exact hnext l hl (by simpa using e)
  have hf0 : first = 0 := by
    have hfm : first ∈ plan.order := List.mem_of_head? hfirst
    by_contra hcon
    have hp := flow_prev h (by omega) ((hmem first).mp hfm)
    obtain ⟨p, hp'⟩ := List.exists_mem_of_ne_nil _ hp
    obtain ⟨rest, hrest⟩ : ∃ rest, plan.order = first :: rest := by
      cases ho : plan.order with
      | nil => exact absurd ho hne
      | cons a t => rw [ho] at hfirst; simp at hfirst; subst hfirst; exact ⟨t, rfl⟩
    have := (hsorted [] first rest hrest).2 p hp'
    simp at this
  rw [hfirst, hlast, hf0, hll]
  exact ⟨rfl, rfl⟩

/-- **Reference.**  A state whose layers compute `vals`, in which every layer but the last has a consumer, computes the last value. -/
theorem flow_reference (h : Flow M x st vals) (hb : x.dims.head? = some 1) (hu : st.Used) {plan : Plan} (htt : triTopo (net st).graph = some plan) {y : List ℝ}
    (hy : vals.getLast? = some y) : (net st).reference M plan x = some y := by
  have hun : UniqueIdx (net st).graph := graph_unique h.good
  have hc : Consistent (net st).graph := graph_consistent h.good
  have hsorted := plan_sorted htt
  have hperm := plan_perm hun hc htt
  have hlk := links hun hc
  have hcl : ∀ n ∈ plan.order, ∀ s ∈ (net st).graph.nextOf n, s ∈ plan.order := by
    intro n _ s hsn
    exact hperm.mem_iff.2 (next_closed hun hc n (nextOf_idx hsn) s hsn)
  obtain ⟨v, hval⟩ := flow_valuation h hb htt
  obtain ⟨hfirst, hlast⟩ := flow_ends h hu htt
  generalize hll : st.layers.length - 1 = last at hlast
  have hlm : last ∈ plan.order := List.mem_of_getLast? hlast
  have hloop : loopE (net st).graph.prevOf (net st).graph.nextOf (fun n => ((net st).op n).forward M (net st).fmt) plan.order x = some (v last) := by
    unfold loopE
    rw [stepE_steps hsorted hlk hcl plan.order [] (by simp) (fun n hn => (hval n hn).1)]
    simp [hlast]
  have hlv : vals[last]? = some y := by
    rw [← hll, ← h.length, ← List.getLast?_eq_getElem?]; exact hy
  have hvl := (hval last hlm).2
  rw [hlv] at hvl
  cases hvl
  unfold Network.reference
  rw [hfirst, hlast]
  simp only [Option.bind_eq_bind, Option.bind_some]
  rw [show prepare (net st).fmt ((net st).op 0) x = some x by unfold prepare; rfl, Option.bind_some, hloop, Option.bind_some]
  unfold finish
  rfl

/-! ## Generated code -/

/-- the size of a layer is that of its value -/
theorem flow_size (h : Flow M x st vals) (hb : x.dims.head? = some 1) {k : Nat} {t : List ℝ} (ht : vals[k]? = some t) : ((net st).op k).size = t.length := by
  have hk : k < st.layers.length := by rw [← h.length]; exact (List.getElem?_eq_some_iff.mp ht).1
  rcases Nat.eq_zero_or_pos k with rfl | hpos
  · obtain ⟨r, s, h1, h2⟩ := flow_input h hb
    obtain ⟨_, _, _, h3⟩ := h.first
    rw [h3] at ht; cases ht
    rw [show (net st).op 0 = _ from net_op h.good h1]; exact h2
  · obtain ⟨op, hop⟩ := h.good.at hk
    obtain ⟨xs, y, _, _, h3, _, hcd⟩ := h.made k op hpos hop
    rw [h3] at ht; cases ht
    rw [show (net st).op k = _ from net_op h.good hop]; exact hcd.size

theorem flow_pick_sizes (h : Flow M x st vals) (hb : x.dims.head? = some 1) {ps : List Nat} {xs : List (List ℝ)} (hp : pick vals ps = some xs) :
    ps.map (fun p => ((net st).op p).size) = xs.map List.length := by
  rw [pick_forall] at hp
  induction hp with
  | nil => rfl
  | cons h1 _ ih => rw [List.map_cons, List.map_cons, ih, flow_size h hb h1]

/-- a layer is the input, or it is made for calls of the program -/
theorem flow_layer (h : Flow M x st vals) (hb : x.dims.head? = some 1) {k : Nat} (hk : k < st.layers.length) :
    (k = 0 ∧ (∃ r s, (net st).op k = .input r s ∧ s.size = x.data.length) ∧ st.graph.prevOf k = []) ∨
    (1 ≤ k ∧ ∃ xs y, pick vals (st.graph.prevOf k) = some xs ∧ vals[k]? = some y ∧ Gives M ((net st).op k) xs y ∧ Coded ((net st).op k) xs y) := by
  rcases Nat.eq_zero_or_pos k with rfl | hpos
  · obtain ⟨r, s, h1, h2⟩ := flow_input h hb
    exact .inl ⟨rfl, ⟨r, s, net_op h.good h1, h2⟩, flow_prev0 h⟩
  · obtain ⟨op, hop⟩ := h.good.at hk
    obtain ⟨xs, y, h1, _, h3, h4, hcd⟩ := h.made k op hpos hop
    refine .inr ⟨hpos, xs, y, by rw [graph_prev h.good hk]; exact h1, h3, ?_, ?_⟩ <;> rw [show (net st).op k = op from net_op h.good hop]
    · exact h4
    · exact hcd

/-- the imported network satisfies the conditions of the theorems on generated code -/
theorem flow_wf (h : Flow M x st vals) (hb : x.dims.head? = some 1) (hsimple : SimpleInputs (net st).graph) : (net st).WF := by
  have hu : UniqueIdx (net st).graph := graph_unique h.good
  have hc : Consistent (net st).graph := graph_consistent h.good
  have idx : ∀ l ∈ (net st).graph, l.idx < st.layers.length ∧ l.isConst = false ∧ st.graph.prevOf l.idx = l.prev ∧ st.graph.nextOf l.idx = l.next := by
    intro l hl
    refine ⟨?_, ?_, prevOf_mem hu hl, nextOf_mem hu hl⟩ <;>
    · obtain ⟨k, hk, rfl⟩ := (graph_mem h.good).mp hl
      first | exact hk | rfl
  refine ⟨hu, hc, hsimple, ?_, ?_, ?_, ?_, ?_⟩
  · intro l hl
    rcases flow_layer h hb (idx l hl).1 with ⟨_, ⟨r, s, h1, _⟩, _⟩ | ⟨_, xs, y, _, _, _, hcd⟩
    · rw [h1]; trivial
    · exact hcd.ok
  · intro l hl
    obtain ⟨hk, _, hp, _⟩ := idx l hl
    rw [← hp]
    rcases flow_layer h hb hk with ⟨_, ⟨r, s, h1, _⟩, h2⟩ | ⟨_, xs, y, h1, _, _, hcd⟩
    · rw [h1, h2]; rfl
    · rw [flow_pick_sizes h hb h1]; exact hcd.inSizes
  · intro l hl
    obtain ⟨hk, hcst, _, _⟩ := idx l hl
    rw [hcst]
    simp only [Bool.false_eq_true, false_iff, not_exists]
    rcases flow_layer h hb hk with ⟨_, ⟨r, s, h1, _⟩, _⟩ | ⟨_, xs, y, _, _, _, hcd⟩
    · intro v; rw [h1]; simp
    · exact hcd.inner.2
  · intro l hl hn
    obtain ⟨hk, _, hp, _⟩ := idx l hl
    rcases flow_layer h hb hk with ⟨_, ⟨r, s, h1, _⟩, h2⟩ | ⟨_, xs, y, h1, _, _, hcd⟩
    · rw [h1] at hn; exact absurd hn id
    · exact absurd hn hcd.own
  · intro l hl l' hl' r s r' s' h1 h2
    have zero : ∀ l ∈ (net st).graph, ∀ r s, (net st).op l.idx = .input r s → l.idx = 0 := by
      intro l hl r s h1
      rcases flow_layer h hb (idx l hl).1 with ⟨h0, _⟩ | ⟨_, xs, y, _, _, _, hcd⟩
      · exact h0
      · exact absurd h1 (hcd.inner.1 r s)
    rw [zero l hl r s h1] at h1
    rw [zero l' hl' r' s' h2] at h2
    rw [h1] at h2
    cases h2
    exact ⟨rfl, rfl⟩

theorem flow_hx (h : Flow M x st vals) (hb : x.dims.head? = some 1) : ∀ l ∈ (net st).graph, ∀ r s, (net st).op l.idx = .input r s → x.data.length = s.size := by
  intro l hl r s h1
  have hk : l.idx < st.layers.length := by
    obtain ⟨k, hk, rfl⟩ := (graph_mem h.good).mp hl
    exact hk
  rcases flow_layer h hb hk with ⟨_, ⟨r', s', h2, h3⟩, _⟩ | ⟨_, xs, y, _, _, _, hcd⟩
  · rw [h1] at h2; cases h2; exact h3.symm
  · exact absurd h1 (hcd.inner.1 r s)

/-- the texts of the layers -/
theorem flow_texts {L : Lib ℝ} (hexp : L.exp = Real.exp) (hlog : L.log = Real.log) (hsqrt : L.sqrt = Real.sqrt) (h : Flow M x st vals)
    (hb : x.dims.head? = some 1) {plan : Plan}
    (htt : triTopo (net st).graph = some plan) : (∃ t : Texts ℝ, t.Of L (net st) plan) ∧ ∀ k ∈ plan.order, ((net st).op k).Positive := by
  have each : ∀ k ∈ plan.order, (∃ text hash, Emits L (net st).fmt k (plan.path k) ((net st).op k) (((net st).graph.prevOf k).map (srcRef plan)) text hash) ∧ ((net st).op k).Positive := by
    intro k hk
    rcases flow_layer h hb ((flow_order h htt k).mp hk) with ⟨_, ⟨r, s, h1, _⟩, h2⟩ | ⟨_, xs, y, h1, _, _, hcd⟩
    · rw [h1, show (net st).graph.prevOf k = [] from h2]
      exact ⟨⟨_, _, Emits.input r s⟩, trivial⟩
    · refine ⟨hcd.emits L hexp hlog hsqrt k (plan.path k) _ ?_, hcd.positive⟩
      rw [← hcd.inSizes, List.length_map, List.length_map, show (net st).graph.prevOf k = st.graph.prevOf k from rfl]
      rw [pick_forall] at h1
      exact h1.length_eq
  have : Inhabited (List Char) := ⟨[]⟩
  have : Inhabited (Hash ℝ) := ⟨[]⟩
  choose! t hh ht using fun k hk => (each k hk).1
  exact ⟨⟨⟨t, hh⟩, ht⟩, fun k hk => (each k hk).2⟩

/-- maximum pooling starts from `-INFINITY`, which is less than the numbers of the images -/
theorem flow_inputsOK (h : Flow M x st vals) (hb : x.dims.head? = some 1) {plan : Plan} (htt : triTopo (net st).graph = some plan) (hu : st.Used)
    (hmin : ∀ t ∈ vals, ∀ a ∈ t, M.ninf < a) :
    ∀ first x', plan.order.head? = some first → prepare (net st).fmt ((net st).op first) x = some x' →
      ∀ n ins, (net st).Receives M plan x' n ins → ((net st).op n).InputsOK M ins := by
  have hun : UniqueIdx (net st).graph := graph_unique h.good
  have hc : Consistent (net st).graph := graph_consistent h.good
  have hsorted := plan_sorted htt
  have hperm := plan_perm hun hc htt
  have hlk := links hun hc
  have hmem := flow_order h htt
  have hcl : ∀ n ∈ plan.order, ∀ s ∈ (net st).graph.nextOf n, s ∈ plan.order := by
    intro n _ s hsn
    exact hperm.mem_iff.2 (next_closed hun hc n (nextOf_idx hsn) s hsn)
  intro first x' hfirst hprep
  rw [show prepare (net st).fmt ((net st).op first) x = some x by unfold prepare; rfl] at hprep
  cases hprep
  obtain ⟨v, hval⟩ := flow_valuation h hb htt
  rintro n ins ⟨pre, post, st', hord, hfold, hg⟩
  have hn : n ∈ plan.order := by rw [hord]; simp
  have hs := stepE_steps (x := x) (v := v) hsorted hlk hcl pre (n :: post) hord (fun i hi => (hval i (by rw [hord]; simp [hi])).1)
  rw [hfold] at hs
  cases hs
  rw [gather_args hsorted hlk hord] at hg
  cases hg
  rcases flow_layer h hb ((hmem n).mp hn) with ⟨_, ⟨r, s, h1, _⟩, h2⟩ | ⟨hn1, xs, y, h1, _, _, hcd⟩
  · rw [h1]; trivial
  · have hargs : argsOf (net st).graph.prevOf x v n = (st.graph.prevOf n).map v := by
      unfold argsOf
      exact if_neg (flow_prev h hn1 ((hmem n).mp hn))
    rw [hargs]
    rw [pick_forall] at h1
    have hsub : ∀ p ∈ st.graph.prevOf n, vals[p]? = some (v p).data := fun p hp => by
      have : p ∈ pre := (hsorted pre n post hord).2 _ hp
      exact (hval p (by rw [hord]; simp [this])).2
    refine hcd.inputs M _ ?_ ?_
    · exact picked h1 hsub
    · intro t ht
      obtain ⟨i, hi, rfl⟩ := List.mem_iff_getElem.mp ht
      have := (List.forall₂_iff_get.mp h1).2 i (by rw [h1.length_eq]; exact hi) hi
      exact hmin _ (List.mem_of_getElem? this)

end

end Verif.Torch

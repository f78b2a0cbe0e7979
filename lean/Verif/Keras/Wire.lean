import Verif.Keras.Coded

/-!
# The layers and links built by the importer, and the values that flow along them
-/

namespace Verif.Keras
open Net Layers Graph
open Onnx (prod indices mk)
open scoped Classical

/-! ## The graph -/

/-- indices are positions, links go forward -/
structure State.Good (st : State) : Prop where
  idxs : st.layers.map Prod.fst = List.range st.layers.length
  links : ∀ l ∈ st.links, l.1 < l.2 ∧ l.2 < st.layers.length

theorem State.Good.get {st : State} (h : st.Good) {k : Nat} {e : Nat × Op ℝ} (he : st.layers[k]? = some e) : e.1 = k := by
  have := congrArg (fun l => l[k]?) h.idxs
  simp only [List.getElem?_map, he, Option.map_some] at this
  rw [List.getElem?_range (List.getElem?_eq_some_iff.mp he).1] at this
  exact Option.some.inj this

theorem State.Good.at {st : State} (h : st.Good) {k : Nat} (hk : k < st.layers.length) : ∃ op, st.layers[k]? = some (k, op) := by
  have := h.get (List.getElem?_eq_getElem hk)
  refine ⟨st.layers[k].2, ?_⟩
  rw [List.getElem?_eq_getElem hk]
  exact congrArg some (Prod.ext this rfl)

theorem State.Good.mem {st : State} (h : st.Good) {e : Nat × Op ℝ} (he : e ∈ st.layers) : st.layers[e.1]? = some e := by
  obtain ⟨k, hk, rfl⟩ := List.mem_iff_getElem.mp he
  have := h.get (List.getElem?_eq_getElem hk)
  rw [this, List.getElem?_eq_getElem hk]

theorem graph_idxs {st : State} (h : st.Good) : st.graph.idxs = List.range st.layers.length := by
  rw [← h.idxs]
  simp [Graph.Dnn.idxs, State.graph, Function.comp_def]

theorem graph_unique {st : State} (h : st.Good) : UniqueIdx st.graph := by
  unfold UniqueIdx; rw [graph_idxs h]; exact List.nodup_range

theorem graph_mem {st : State} (h : st.Good) {l : Graph.Layer} : l ∈ st.graph ↔ ∃ k < st.layers.length,
    l = ⟨k, (st.links.filter fun e => e.2 = k).map (·.1), (st.links.filter fun e => e.1 = k).map (·.2), false⟩ := by
  simp only [State.graph, List.mem_map]
  constructor
  · rintro ⟨e, he, rfl⟩
    exact ⟨e.1, (List.getElem?_eq_some_iff.mp (h.mem he)).1, rfl⟩
  · rintro ⟨k, hk, rfl⟩
    obtain ⟨op, hop⟩ := h.at hk
    exact ⟨(k, op), List.mem_of_getElem? hop, rfl⟩

theorem graph_prev {st : State} (h : st.Good) {k : Nat} (hk : k < st.layers.length) : st.graph.prevOf k = (st.links.filter fun e => e.2 = k).map (·.1) :=
  Graph.prevOf_mem (graph_unique h) ((graph_mem h).mpr ⟨k, hk, rfl⟩)

theorem graph_next {st : State} (h : st.Good) {k : Nat} (hk : k < st.layers.length) : st.graph.nextOf k = (st.links.filter fun e => e.1 = k).map (·.2) :=
  Graph.nextOf_mem (graph_unique h) ((graph_mem h).mpr ⟨k, hk, rfl⟩)

theorem graph_consistent {st : State} (h : st.Good) : Consistent st.graph := by
  intro l hl
  obtain ⟨k, hk, rfl⟩ := (graph_mem h).mp hl
  constructor
  · intro p hp
    simp only [List.mem_map, List.mem_filter, decide_eq_true_eq] at hp
    obtain ⟨e, ⟨he, he2⟩, rfl⟩ := hp
    refine ⟨_, (graph_mem h).mpr ⟨e.1, by have := h.links e he; omega, rfl⟩, rfl, ?_⟩
    simp only [List.mem_map, List.mem_filter, decide_eq_true_eq]
    exact ⟨e, ⟨he, rfl⟩, he2⟩
  · intro p hp
    simp only [List.mem_map, List.mem_filter, decide_eq_true_eq] at hp
    obtain ⟨e, ⟨he, he1⟩, rfl⟩ := hp
    refine ⟨_, (graph_mem h).mpr ⟨e.2, (h.links e he).2, rfl⟩, rfl, ?_⟩
    simp only [List.mem_map, List.mem_filter, decide_eq_true_eq]
    exact ⟨e, ⟨he, rfl⟩, he1⟩

theorem graph_acyclic {st : State} (h : st.Good) : Acyclic st.graph := by
  refine ⟨fun k => k, ?_⟩
  intro l hl s hs
  obtain ⟨k, hk, rfl⟩ := (graph_mem h).mp hl
  simp only [List.mem_map, List.mem_filter, decide_eq_true_eq] at hs
  obtain ⟨e, ⟨he, rfl⟩, rfl⟩ := hs
  exact (h.links e he).1

theorem net_op {st : State} (h : st.Good) {k : Nat} {op : Op ℝ} (hk : st.layers[k]? = some (k, op)) : st.net.op k = op := by
  have : st.layers.find? (fun e => decide (e.1 = k)) = some (k, op) := by
    obtain ⟨hlt, hget⟩ := List.getElem?_eq_some_iff.mp hk
    rw [List.find?_eq_some_iff_getElem]
    refine ⟨by simp, k, hlt, hget, fun j hj => ?_⟩
    have := h.get (List.getElem?_eq_getElem (show j < st.layers.length by omega))
    simp only [Bool.not_eq_eq_eq_not, Bool.not_true, decide_eq_false_iff_not]
    omega
  simp [State.net, this]

/-- `tri_topo` orders the layers -/
theorem good_plan {st : State} (h : st.Good) (hne : st.layers ≠ []) : ∃ plan, triTopo st.net.graph = some plan := by
  have : (triTopo st.graph).isSome := by
    apply C02_acyclic_ordered_partial (graph_unique h) (graph_consistent h) (graph_acyclic h)
    · exact ⟨_, (graph_mem h).mpr ⟨0, List.length_pos_iff.mpr hne, rfl⟩, rfl⟩
    · intro l hl hlc
      obtain ⟨k, hk, rfl⟩ := (graph_mem h).mp hl
      simp at hlc
    · intro l hl hlc hp
      obtain ⟨k, hk, rfl⟩ := (graph_mem h).mp hl
      obtain ⟨p, hp'⟩ := List.exists_mem_of_ne_nil _ hp
      refine ⟨⟨p, (st.links.filter fun e => e.2 = p).map (·.1), (st.links.filter fun e => e.1 = p).map (·.2), false⟩, (graph_mem h).mpr ⟨p, ?_, rfl⟩, hp', rfl⟩
      simp only [List.mem_map, List.mem_filter, decide_eq_true_eq] at hp'
      obtain ⟨e, ⟨he, rfl⟩, rfl⟩ := hp'
      have := h.links e he
      omega
  exact Option.isSome_iff_exists.mp this

/-- a layer appended with links from earlier ones -/
theorem good_push {st : State} (h : st.Good) {prev : List Nat} (hp : ∀ p ∈ prev, p < st.layers.length) (op : Op ℝ) (nb : Nat) :
    State.Good ⟨st.layers ++ [(st.layers.length, op)], st.links ++ prev.map fun p => (p, st.layers.length), nb⟩ := by
  constructor
  · simp [h.idxs, List.range_succ]
  · intro l hl
    simp only [List.mem_append, List.mem_map] at hl
    simp only [List.length_append, List.length_cons, List.length_nil]
    rcases hl with hl | ⟨p, hp', rfl⟩
    · have := h.links l hl; omega
    · have := hp p hp'; simp only; omega

/-! ## Values -/

/-- the elements at some positions -/
def pick {α : Type} (vals : List α) (ps : List Nat) : Option (List α) := ps.mapM fun p => vals[p]?

theorem pick_forall {α : Type} {vals : List α} {ps : List Nat} {xs : List α} : pick vals ps = some xs ↔ List.Forall₂ (fun p x => vals[p]? = some x) ps xs := by
  unfold pick
  induction ps generalizing xs with
  | nil =>
    simp only [List.mapM_nil, List.forall₂_nil_left_iff]
    exact ⟨fun h => (Option.some.inj h).symm, fun h => by rw [h]; rfl⟩
  | cons p ps ih =>
    rw [List.mapM_cons]
    simp only [Option.bind_eq_bind, Option.bind_eq_some_iff]
    constructor
    · rintro ⟨a, ha, l, hl, h⟩
      cases h
      exact .cons ha (ih.mp hl)
    · intro h
      cases h with
      | cons h1 h2 => exact ⟨_, h1, _, ih.mpr h2, rfl⟩

theorem pick_append {α : Type} {vals : List α} {ps : List Nat} {xs : List α} (h : pick vals ps = some xs) (vs : List α) : pick (vals ++ vs) ps = some xs := by
  rw [pick_forall] at h ⊢
  exact h.imp fun p x hp => by rw [List.getElem?_append_left (List.getElem?_eq_some_iff.mp hp).1]; exact hp

theorem pick_bound {α : Type} {vals : List α} {ps : List Nat} {xs : List α} (h : pick vals ps = some xs) : ∀ p ∈ ps, p < vals.length := by
  rw [pick_forall] at h
  intro p hp
  obtain ⟨i, hi, rfl⟩ := List.mem_iff_getElem.mp hp
  have := (List.forall₂_iff_get.mp h)
  have h2 := this.2 i hi (by omega)
  exact (List.getElem?_eq_some_iff.mp h2).1

variable {M : CMath ℝ} {x : Nd ℝ}

/-- The layer at position `k` returns `vals[k]` when its producers hold theirs; the first one is the input. -/
structure Core (M : CMath ℝ) (x : Nd ℝ) (st : State) (vals : List (Nd ℝ)) : Prop where
  good : st.Good
  length : vals.length = st.layers.length
  first : ∃ op, inputOp x.dims = some op ∧ st.layers[0]? = some (0, op) ∧ vals[0]? = some x
  made : ∀ k op, 1 ≤ k → st.layers[k]? = some (k, op) → ∃ xs y, pick vals ((st.links.filter fun e => e.2 = k).map (·.1)) = some xs ∧ xs ≠ [] ∧
    vals[k]? = some y ∧ Returns M op xs y ∧ Ranked op y ∧ Coded op xs y
  reps : ∀ t ∈ vals, ∃ z, Rep t z

theorem core_push {st : State} {vals : List (Nd ℝ)} (h : Core M x st vals) {prev : List Nat} {xs : List (Nd ℝ)} (hp : pick vals prev = some xs) (hne : xs ≠ [])
    {op : Op ℝ} {y : Nd ℝ} (hr : Returns M op xs y) (hk : Ranked op y) (hcd : Coded op xs y) (nb : Nat) :
    Core M x ⟨st.layers ++ [(st.layers.length, op)], st.links ++ prev.map fun p => (p, st.layers.length), nb⟩ (vals ++ [y]) := by
  have hb := pick_bound hp
  rw [h.length] at hb
  have hpos : 0 < st.layers.length := by
    obtain ⟨op, _, h1, _⟩ := h.first
    exact (List.getElem?_eq_some_iff.mp h1).1
  have hrep : ∀ t ∈ vals ++ [y], ∃ z, Rep t z := by
    have hxs : ∀ t ∈ xs, ∃ z, Rep t z := by
      rw [pick_forall] at hp
      intro t ht
      obtain ⟨i, hi, rfl⟩ := List.mem_iff_getElem.mp ht
      have := (List.forall₂_iff_get.mp hp).2 i (by rw [hp.length_eq]; exact hi) hi
      exact h.reps _ (List.mem_of_getElem? this)
    obtain ⟨zs, hzs⟩ : ∃ zs, List.Forall₂ Rep xs zs := by
      clear * - hxs
      induction xs with
      | nil => exact ⟨[], .nil⟩
      | cons t xs ih =>
        obtain ⟨z, hz⟩ := hxs t (by simp)
        obtain ⟨zs, hzs⟩ := ih fun t ht => hxs t (by simp [ht])
        exact ⟨z :: zs, .cons hz hzs⟩
    obtain ⟨z, _, hz⟩ := hr zs hzs
    intro t ht
    rcases List.mem_append.mp ht with ht | ht
    · exact h.reps t ht
    · simp only [List.mem_singleton] at ht
      exact ⟨z, by rw [ht]; exact hz⟩
  refine ⟨good_push h.good hb op nb, by simp [h.length], ?_, ?_, hrep⟩
  · obtain ⟨op, h1, h2, h3⟩ := h.first
    refine ⟨op, h1, ?_, ?_⟩
    · rw [List.getElem?_append_left hpos]; exact h2
    · rw [List.getElem?_append_left (by rw [h.length]; exact hpos)]; exact h3
  · intro k op' hk1 hl
    simp only at hl ⊢
    have hfl : ∀ j, j ≤ st.layers.length → ((st.links ++ prev.map fun p => (p, st.layers.length)).filter fun e => e.2 = j).map (·.1) =
        (st.links.filter fun e => e.2 = j).map (·.1) ++ (if j = st.layers.length then prev else []) := by
      intro j hj
      rw [List.filter_append, List.map_append]
      congr 1
      split
      · rename_i he
        rw [List.filter_eq_self.mpr (by intro e he'; obtain ⟨p, _, rfl⟩ := List.mem_map.mp he'; simp [he])]
        simp [Function.comp_def]
      · rename_i he
        rw [List.filter_eq_nil_iff.mpr (by intro e he'; obtain ⟨p, _, rfl⟩ := List.mem_map.mp he'; simp only [decide_eq_true_eq]; omega)]
        rfl
    rcases Nat.lt_or_ge k st.layers.length with hlt | hge
    · rw [List.getElem?_append_left hlt] at hl
      obtain ⟨ys, z, h1, h2, h3, h4⟩ := h.made k op' hk1 hl
      refine ⟨ys, z, ?_, h2, ?_, h4⟩
      · rw [hfl k (by omega), if_neg (by omega), List.append_nil]
        exact pick_append h1 _
      · rw [List.getElem?_append_left (by rw [h.length]; exact hlt)]; exact h3
    · have hkl : k = st.layers.length := by
        have := (List.getElem?_eq_some_iff.mp hl).1
        simp at this; omega
      subst hkl
      rw [List.getElem?_append_right (le_refl _)] at hl
      simp only [Nat.sub_self, List.getElem?_cons_zero, Option.some.injEq, Prod.mk.injEq, true_and] at hl
      subst hl
      refine ⟨xs, y, ?_, hne, ?_, hr, hk, hcd⟩
      · rw [hfl _ (le_refl _), if_pos rfl]
        rw [List.filter_eq_nil_iff.mpr (by
          intro e he
          have := (h.good.links e he).2
          simp only [decide_eq_true_eq]; omega)]
        exact pick_append hp _
      · rw [← h.length, List.getElem?_append_right (le_refl _)]; simp

/-- Every layer but the last one has a consumer. -/
def State.Used (st : State) : Prop := ∀ k, k + 1 < st.layers.length → ∃ l ∈ st.links, l.1 = k

section
variable {st : State} {vals : List (Nd ℝ)}

theorem core_pos (h : Core M x st vals) : 0 < st.layers.length := by
  obtain ⟨op, _, h1, _⟩ := h.first
  exact (List.getElem?_eq_some_iff.mp h1).1

theorem core_prev0 (h : Core M x st vals) : st.graph.prevOf 0 = [] := by
  rw [graph_prev h.good (core_pos h), List.map_eq_nil_iff, List.filter_eq_nil_iff]
  intro l hl hc
  simp only [decide_eq_true_eq] at hc
  have := h.good.links l hl
  omega

theorem core_prev (h : Core M x st vals) {k : Nat} (h1 : 1 ≤ k) (hk : k < st.layers.length) : st.graph.prevOf k ≠ [] := by
  obtain ⟨op, hop⟩ := h.good.at hk
  obtain ⟨xs, y, hp, hne, _⟩ := h.made k op h1 hop
  rw [graph_prev h.good hk]
  intro h0
  rw [h0] at hp
  exact hne (Option.some.inj hp).symm

/-- the input layer after `prepare` -/
theorem prepare_rep {x : Nd ℝ} (hx : x.Ok) (hr : (∃ n, x.dims = [n]) ∨ ∃ H W C, x.dims = [H, W, C]) {op : Op ℝ} (h : inputOp x.dims = some op) :
    ∃ x', prepare .last op x = some x' ∧ Rep x x' ∧ op.forward M .last [x'] = some x' := by
  unfold inputOp at h
  simp only [Option.ite_none_right_eq_some, Option.some.injEq] at h
  obtain ⟨_, rfl⟩ := h
  rcases hr with ⟨n, hn⟩ | ⟨H, W, C, hd⟩
  · rw [hn]
    exact ⟨x, rfl, rep_vec hn hx rfl, rfl⟩
  · rw [hd]
    have hlen : x.data.length = (⟨C, H, W⟩ : Shape).size := by
      rw [hx, hd]; simp [prod, Shape.size]; ring
    refine ⟨_, if_pos hlen, rep_of_chw hd hx ?_, rfl⟩
    conv_rhs => unfold chw
    rw [hd]
    have e : x = mk [H, W, C] x.get := by
      have := eq_mk hx
      rw [hd] at this; exact this
    show (⟨[C, H, W], _⟩ : Nd ℝ) = mk [C, H, W] _
    have := mk3_data C H W fun ix => x.get [ix.getD 1 0, ix.getD 2 0, ix.getD 0 0]
    refine congrArg (Nd.mk [C, H, W]) (Eq.trans ?_ this.symm)
    apply tensor3_congr
    intro f i j hf hi hj
    have g := Onnx.get_cut x (s := ⟨H, W, C⟩) (by rw [hd]; rfl) hi hj hf
    rw [hd] at g
    exact g.symm

/-- what the interpreter computes for each layer -/
theorem core_valuation (h : Core M x st vals) {plan : Plan} (htt : triTopo st.net.graph = some plan) {op0 : Op ℝ} (hl0 : st.layers[0]? = some (0, op0))
    {x' : Nd ℝ} (hrep : Rep x x') (hfwd : op0.forward M .last [x'] = some x') :
    ∃ v : Nat → Nd ℝ, ∀ n ∈ plan.order, (st.net.op n).forward M st.net.fmt (argsOf st.net.graph.prevOf x' v n) = some (v n) ∧
      ∃ t, vals[n]? = some t ∧ Rep t (v n) := by
  have hun : UniqueIdx st.net.graph := graph_unique h.good
  have hc : Consistent st.net.graph := graph_consistent h.good
  have hsorted := plan_sorted htt
  have hperm := plan_perm hun hc htt
  have hmem : ∀ n, n ∈ plan.order ↔ n < st.layers.length := fun n => by
    rw [hperm.mem_iff, show st.net.graph.idxs = List.range st.layers.length from graph_idxs h.good, List.mem_range]
  have hv0 : vals[0]? = some x := by obtain ⟨_, _, _, h⟩ := h.first; exact h
  have : Inhabited (Nd ℝ) := ⟨⟨[], []⟩⟩
  exact exists_valuationE (x := x') (fwd := fun n => (st.net.op n).forward M st.net.fmt)
    (P := fun n (z : Nd ℝ) => ∃ t, vals[n]? = some t ∧ Rep t z) hsorted (by
      intro pre n post ho v hpre
      have hn : n < st.layers.length := (hmem n).mp (by rw [ho]; simp)
      obtain ⟨op, hop⟩ := h.good.at hn
      rw [net_op h.good hop]
      rcases Nat.eq_zero_or_pos n with rfl | hn1
      · have hargs : argsOf st.net.graph.prevOf x' v 0 = [x'] := by
          unfold argsOf
          rw [show st.net.graph.prevOf 0 = [] from core_prev0 h]; simp
        rw [hargs]
        rw [hl0] at hop
        cases hop
        exact ⟨x', hfwd, x, hv0, hrep⟩
      · obtain ⟨xs, z, hp, hne, hvn, hret, _⟩ := h.made n op hn1 hop
        have hargs : argsOf st.net.graph.prevOf x' v n = (st.graph.prevOf n).map v := by
          unfold argsOf
          exact if_neg (core_prev h hn1 hn)
        rw [hargs]
        rw [← graph_prev h.good hn, pick_forall] at hp
        have hins : List.Forall₂ Rep xs ((st.graph.prevOf n).map v) := by
          rw [List.forall₂_map_right_iff]
          have hp' := hp.flip
          rw [List.forall₂_iff_get] at hp' ⊢
          refine ⟨hp'.1, fun i hi hi' => ?_⟩
          have hmp : (st.graph.prevOf n).get ⟨i, hi'⟩ ∈ st.graph.prevOf n := List.get_mem _ _
          obtain ⟨t, ht, hrt⟩ := (hpre _ ((hsorted pre n post ho).2 _ hmp)).2
          have := hp'.2 i hi hi'
          change vals[_]? = some _ at this
          rw [this] at ht
          cases ht
          exact hrt
        obtain ⟨r, hr, hrr⟩ := hret _ hins
        exact ⟨r, hr, z, hvn, hrr⟩)

/-- the layers in the order of execution are those of the state -/
theorem core_order (h : Core M x st vals) {plan : Plan} (htt : triTopo st.net.graph = some plan) : ∀ n, n ∈ plan.order ↔ n < st.layers.length := fun n => by
  rw [(plan_perm (graph_unique h.good) (graph_consistent h.good) htt).mem_iff, show st.graph.idxs = List.range st.layers.length from graph_idxs h.good, List.mem_range]

/-- the first layer is the input, the last one is the last of the model -/
theorem core_ends (h : Core M x st vals) (hu : st.Used) {plan : Plan} (htt : triTopo st.net.graph = some plan) :
    plan.order.head? = some 0 ∧ plan.order.getLast? = some (st.layers.length - 1) := by
  have hun : UniqueIdx st.net.graph := graph_unique h.good
  have hc : Consistent st.net.graph := graph_consistent h.good
  have hsorted := plan_sorted htt
  have hperm := plan_perm hun hc htt
  have hlk := links hun hc
  have hmem := core_order h htt
  have hcl : ∀ n ∈ plan.order, ∀ s ∈ st.net.graph.nextOf n, s ∈ plan.order := by
    intro n _ s hsn
    exact hperm.mem_iff.2 (next_closed hun hc n (nextOf_idx hsn) s hsn)
  have hpos := core_pos h
  have hne : plan.order ≠ [] := by
    intro h0
    have := (hmem 0).mpr hpos
    rw [h0] at this; simp at this
  obtain ⟨last, hlast⟩ : ∃ n, plan.order.getLast? = some n := ⟨_, List.getLast?_eq_some_getLast hne⟩
  obtain ⟨first, hfirst⟩ : ∃ n, plan.order.head? = some n := ⟨_, List.head?_eq_some_head hne⟩
  have hlm : last ∈ plan.order := List.mem_of_getLast? hlast
  have hnext : st.graph.nextOf last = [] := by
    by_contra hcon
    obtain ⟨s, hs⟩ := List.exists_mem_of_ne_nil _ hcon
    have hso := hcl last hlm s hs
    obtain ⟨a, b, hab⟩ := List.append_of_mem hso
    have hpa := (hsorted a s b hab).2 last ((hlk last s).2 hs)
    have hnd := hsorted.nodup
    rw [hab] at hnd
    have hin : last ∈ s :: b := by
      rw [hab, List.getLast?_append] at hlast
      cases hb : (s :: b).getLast? with
      | none => simp at hb
      | some z => rw [hb] at hlast; simp at hlast; rw [← hlast]; exact List.mem_of_getLast? hb
    exact (List.nodup_append.mp hnd).2.2 last hpa last hin rfl
  have hll : last = st.layers.length - 1 := by
    have hlt := (hmem last).mp hlm
    by_contra hcon
    obtain ⟨l, hl, e⟩ := hu last (by omega)
    rw [graph_next h.good hlt, List.map_eq_nil_iff, List.filter_eq_nil_iff] at hnext
    exact hnext l hl (by simpa using e)
  have hf0 : first = 0 := by
    have hfm : first ∈ plan.order := List.mem_of_head? hfirst
    by_contra hcon
    have hp := core_prev h (by omega) ((hmem first).mp hfm)
    obtain ⟨p, hp'⟩ := List.exists_mem_of_ne_nil _ hp
    obtain ⟨rest, hrest⟩ : ∃ rest, plan.order = first :: rest := by
      cases ho : plan.order with
      | nil => exact absurd ho hne
      | cons a t => rw [ho] at hfirst; simp at hfirst; subst hfirst; exact ⟨t, rfl⟩
    have := (hsorted [] first rest hrest).2 p hp'
    simp at this
  rw [hfirst, hlast, hf0, hll]
  exact ⟨rfl, rfl⟩

/-- **Reference.**  A state whose layers compute `vals`, in which every layer but the last has a consumer, computes the last value. -/
theorem core_reference (h : Core M x st vals) (hu : st.Used)
    (hlen2 : 2 ≤ st.layers.length) {plan : Plan} (htt : triTopo st.net.graph = some plan) {y : Nd ℝ} (hy : vals.getLast? = some y) :
    st.net.reference M plan x = some y.data := by
  have hun : UniqueIdx st.net.graph := graph_unique h.good
  have hc : Consistent st.net.graph := graph_consistent h.good
  have hsorted := plan_sorted htt
  have hperm := plan_perm hun hc htt
  have hlk := links hun hc
  have hmem : ∀ n, n ∈ plan.order ↔ n < st.layers.length := fun n => by
    rw [hperm.mem_iff, show st.net.graph.idxs = List.range st.layers.length from graph_idxs h.good, List.mem_range]
  have hcl : ∀ n ∈ plan.order, ∀ s ∈ st.net.graph.nextOf n, s ∈ plan.order := by
    intro n _ s hsn
    exact hperm.mem_iff.2 (next_closed hun hc n (nextOf_idx hsn) s hsn)
  have hpos := core_pos h
  obtain ⟨op0, hop0, hl0, hv0⟩ := h.first
  obtain ⟨z0, hz0⟩ := h.reps x (List.mem_of_getElem? hv0)
  have hx := hz0.1
  have hrk := rep_rank hz0
  obtain ⟨x', hprep, hrep, hfwd⟩ := prepare_rep (M := M) hx hrk hop0
  obtain ⟨v, hval⟩ := core_valuation h htt hl0 hrep hfwd
  obtain ⟨hfirst, hlast⟩ := core_ends h hu htt
  generalize hll : st.layers.length - 1 = last at hlast
  have hlm : last ∈ plan.order := List.mem_of_getLast? hlast
  have hloop : loopE st.net.graph.prevOf st.net.graph.nextOf (fun n => (st.net.op n).forward M st.net.fmt) plan.order x' = some (v last) := by
    unfold loopE
    rw [stepE_steps hsorted hlk hcl plan.order [] (by simp) (fun n hn => (hval n hn).1)]
    simp [hlast]
  obtain ⟨t, ht, hrt⟩ := (hval last hlm).2
  have hlv : vals[last]? = some y := by
    rw [← hll, ← h.length, ← List.getLast?_eq_getElem?]; exact hy
  rw [hlv] at ht
  cases ht
  obtain ⟨opl, hopl⟩ := h.good.at ((hmem last).mp hlm)
  obtain ⟨_, y', _, _, hv', _, hrank, _⟩ := h.made last opl (by omega) hopl
  rw [hlv] at hv'
  cases hv'
  unfold Network.reference
  rw [hfirst, hlast]
  simp only [Option.bind_eq_bind, Option.bind_some]
  rw [net_op h.good hl0, show st.net.fmt = .last from rfl, hprep, Option.bind_some]
  rw [show st.net.fmt = .last from rfl] at hloop
  rw [hloop, Option.bind_some, net_op h.good hopl]
  unfold finish
  rcases hrank with ⟨hcn, n, hn⟩ | ⟨hcs, H, W, C, hd⟩
  · rw [hcn]
    exact congrArg some (rep1 hrt hn).1
  · obtain ⟨s, hs⟩ := Option.isSome_iff_exists.mp hcs
    have hz := rep3 hrt hd
    have hdz : (v last).dims = [C, H, W] := by rw [hz]; exact chw_dims hd
    rw [hs]
    simp only
    rw [hdz]
    simp only
    rw [hz]
    exact congrArg some (chw_back hd hrt.1)

end

end Verif.Keras

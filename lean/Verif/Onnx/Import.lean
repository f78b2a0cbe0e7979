import Verif.Onnx.Link

/-!
# C56, C60: an imported model computes what the ONNX model computes
-/

namespace Verif.Onnx
open Net Layers Graph
open scoped Classical

variable {M : CMath ℝ} {m : Model} {input out : String} {x : Nd ℝ} {E : Spec.Env}

/-- the two loops of `load_onnx`, with what they maintain -/
theorem import_inv (hexp : M.exp = Real.exp) (hsqrt : M.sqrt = Real.sqrt) (hv : Valid m input out) (hx : x.Ok)
    (he : Spec.eval m input x = some E) (hf : Fits m E) {net : Network ℝ} (h : importNet m = some net) :
    ∃ st ls vals cs, net = ls.net ∧ Inv M m input x E m.nodes E st vals ∧ LInv m st vals E (pairs st.dictIn) ls cs := by
  unfold importNet at h
  obtain ⟨st, h1, h⟩ := Option.bind_eq_some_iff.mp h
  obtain ⟨ls, h2, h⟩ := Option.bind_eq_some_iff.mp h
  have hnet : ls.net = net := by
    split at h
    · simp at h
    · simpa using h
  have hok : ∀ s t, E s = some t → t.Ok := eval_ok (env0_ok hx) he
  obtain ⟨vals, hI⟩ := inv_all hexp hsqrt hv hf hok (pre := []) rfl (inv_start hv hf he) he h1
  rw [linkAll_pairs] at h2
  obtain ⟨cs, hL⟩ := link_all hv he hI.length (link_start hI) h2
  exact ⟨st, ls, vals, cs, hnet.symm, hI, by simpa using hL⟩

section
variable {st : State} {ls : LinkState} {vals : List (List ℝ)} {cs : List (Nd ℝ)}

theorem all_length (hI : Inv M m input x E m.nodes E st vals) (hL : LInv m st vals E (pairs st.dictIn) ls cs) :
    (vals ++ cs.map Nd.data).length = ls.layers.length := by rw [hL.layers]; simp [hI.length]

theorem key_iff (hI : Inv M m input x E m.nodes E st vals) (k : Nat) : (∃ e ∈ st.dictIn, e.1 = k) ↔ 1 ≤ k ∧ k < st.layers.length := by
  have hpos : 1 ≤ st.layers.length := by
    obtain ⟨d, _, h, _⟩ := hI.first
    exact (List.getElem?_eq_some_iff.mp h).1
  have : k ∈ st.dictIn.map Prod.fst ↔ 1 ≤ k ∧ k < st.layers.length := by
    rw [hI.keys, List.mem_range'_1]; omega
  rw [← this, List.mem_map]

/-- where a link comes from -/
theorem link_of (hL : LInv m st vals E (pairs st.dictIn) ls cs) {l : Nat × Nat} (hl : l ∈ ls.links) :
    ∃ e ∈ st.dictIn, ∃ s ∈ e.2, l.2 = e.1 ∧ ls.dictOut s = some l.1 := by
  obtain ⟨i, hi, rfl⟩ := List.mem_iff_getElem.mp hl
  have hlen := hL.links.length_eq
  have := List.forall₂_iff_get.mp hL.links
  have hp := this.2 i (by omega) hi
  simp only [List.get_eq_getElem] at hp
  obtain ⟨e, he, h1, h2⟩ := pairs_mem.mp (List.getElem_mem (show i < (pairs st.dictIn).length by omega))
  exact ⟨e, he, _, h2, by rw [hp.1, h1], hp.2⟩

/-- a recorded input name gives a link -/
theorem link_to (hL : LInv m st vals E (pairs st.dictIn) ls cs) {e : Nat × List String} (he : e ∈ st.dictIn) {s : String} (hs : s ∈ e.2) :
    ∃ l ∈ ls.links, l.2 = e.1 ∧ ls.dictOut s = some l.1 := by
  have hm : (e.1, s) ∈ pairs st.dictIn := pairs_mem.mpr ⟨e, he, rfl, hs⟩
  obtain ⟨i, hi, hg⟩ := List.mem_iff_getElem.mp hm
  have := List.forall₂_iff_get.mp hL.links
  have hp := this.2 i hi (by omega)
  simp only [List.get_eq_getElem, hg] at hp
  exact ⟨_, List.getElem_mem _, hp⟩

theorem link_bounds (hI : Inv M m input x E m.nodes E st vals) (hL : LInv m st vals E (pairs st.dictIn) ls cs) {l : Nat × Nat} (hl : l ∈ ls.links) :
    l.1 < ls.layers.length ∧ 1 ≤ l.2 ∧ l.2 < st.layers.length ∧ l.2 < ls.layers.length := by
  obtain ⟨e, he, s, hs, h2, h1⟩ := link_of hL hl
  obtain ⟨t, _, ht⟩ := hL.val s l.1 h1
  have hb := (List.getElem?_eq_some_iff.mp ht).1
  rw [all_length hI hL] at hb
  have hk := (key_iff hI l.2).mp ⟨e, he, h2.symm⟩
  have hll : st.layers.length ≤ ls.layers.length := by rw [hL.layers]; simp
  exact ⟨hb, hk.1, hk.2, by omega⟩

theorem net_unique (ls : LinkState) : UniqueIdx ls.net.graph := graph_unique ls
theorem net_consistent (hI : Inv M m input x E m.nodes E st vals) (hL : LInv m st vals E (pairs st.dictIn) ls cs) : Consistent ls.net.graph :=
  graph_consistent fun _ hl => ⟨(link_bounds hI hL hl).1, (link_bounds hI hL hl).2.2.2⟩

/-- the producers of a layer hold the values of the names recorded for it, in order -/
theorem prev_rel (hI : Inv M m input x E m.nodes E st vals) (hL : LInv m st vals E (pairs st.dictIn) ls cs) {e : Nat × List String} (he : e ∈ st.dictIn) :
    List.Forall₂ (fun s p => ls.dictOut s = some p ∧ ∃ t, E s = some t ∧ (vals ++ cs.map Nd.data)[p]? = some t.data) e.2 (ls.graph.prevOf e.1) := by
  have hk := (key_iff hI e.1).mp ⟨e, he, rfl⟩
  have hll : st.layers.length ≤ ls.layers.length := by rw [hL.layers]; simp
  rw [graph_prev ls (by omega)]
  have hnd : (st.dictIn.map Prod.fst).Nodup := by rw [hI.keys]; exact List.nodup_range'
  have := filter_rel hL.links (p := fun p => decide (p.1 = e.1)) (q := fun l => decide (l.2 = e.1)) (fun a b hab => by rw [hab.1])
  rw [pairs_filter hnd he, List.forall₂_map_left_iff] at this
  rw [List.forall₂_map_right_iff]
  exact this.imp fun s l hsl => ⟨hsl.2, hL.val s l.1 hsl.2⟩

theorem prev_nil (hI : Inv M m input x E m.nodes E st vals) (hL : LInv m st vals E (pairs st.dictIn) ls cs) {k : Nat} (hk : k < ls.layers.length)
    (h : k = 0 ∨ st.layers.length ≤ k) : ls.graph.prevOf k = [] := by
  rw [graph_prev ls hk, List.map_eq_nil_iff, List.filter_eq_nil_iff]
  intro l hl hc
  simp only [decide_eq_true_eq] at hc
  have := link_bounds hI hL hl
  omega

/-- a layer without consumer holds the output of the model -/
theorem sink_out (hv : Valid m input out) (hI : Inv M m input x E m.nodes E st vals) (hL : LInv m st vals E (pairs st.dictIn) ls cs) {k : Nat} (hk : k < ls.layers.length)
    (h : ls.graph.nextOf k = []) : ∃ t, E out = some t ∧ (vals ++ cs.map Nd.data)[k]? = some t.data := by
  rw [graph_next ls hk, List.map_eq_nil_iff, List.filter_eq_nil_iff] at h
  have hno : ∀ l ∈ ls.links, l.1 ≠ k := fun l hl hc => h l hl (by simpa using hc)
  rcases Nat.lt_or_ge k st.layers.length with hk' | hk'
  · obtain ⟨s, hs⟩ := hI.named k hk'
    obtain ⟨hd, t, ht, hvk⟩ := hI.out s k hs
    by_cases hso : s = out
    · subst hso
      refine ⟨t, ht, ?_⟩
      rw [List.getElem?_append_left (List.getElem?_eq_some_iff.mp hvk).1]; exact hvk
    · obtain ⟨n, hn, hsn⟩ := hv.used s hd hso
      rcases (hI.read n hn s hsn hd).2 with h0 | ⟨e, he, hse⟩
      · rw [hs] at h0; simp at h0
      · obtain ⟨l, hl, _, h2⟩ := link_to hL he hse
        rw [hL.keep s k hs] at h2
        cases h2
        exact absurd rfl (hno l hl)
  · obtain ⟨l, hl, e⟩ := hL.used k hk' hk
    exact absurd e (hno l hl)

/-- each layer returns its value when its producers have returned theirs -/
theorem layer_value (hI : Inv M m input x E m.nodes E st vals) (hL : LInv m st vals E (pairs st.dictIn) ls cs) {k : Nat} (hk : k < ls.layers.length)
    {v : Nat → Nd ℝ} (hvp : ∀ p ∈ ls.graph.prevOf k, (vals ++ cs.map Nd.data)[p]? = some (v p).data) :
    ∃ y, (ls.net.op k).forward M ls.net.fmt (argsOf ls.net.graph.prevOf x v k) = some y ∧ (vals ++ cs.map Nd.data)[k]? = some y.data := by
  have hop : ∀ {o}, ls.layers[k]? = some o → ls.net.op k = o := fun h => by simp [LinkState.net, h]
  rcases Nat.lt_or_ge k st.layers.length with hk' | hk'
  · rcases Nat.eq_zero_or_pos k with rfl | hpos
    · have hp := prev_nil hI hL hk (.inl rfl)
      obtain ⟨d, _, h1, h2⟩ := hI.first
      have hl : ls.layers[0]? = some (inputOp d) := by
        rw [hL.layers, List.getElem?_append_left hk']; exact h1
      have hargs : argsOf ls.net.graph.prevOf x v 0 = [x] := by
        unfold argsOf
        rw [show ls.net.graph.prevOf 0 = [] from hp]; simp
      rw [hop hl, hargs]
      refine ⟨x, ?_, ?_⟩
      · unfold inputOp
        split
        · split <;> rfl
        · rfl
      · rw [List.getElem?_append_left (List.getElem?_eq_some_iff.mp h2).1]; exact h2
    · obtain ⟨e, he, rfl⟩ := (key_iff hI k).mpr ⟨hpos, hk'⟩
      obtain ⟨op, y, h1, h2, hc, _⟩ := hI.made e he
      have hl : ls.layers[e.1]? = some op := by
        rw [hL.layers, List.getElem?_append_left hk']; exact h1
      have hrel := prev_rel hI hL he
      have hne : ls.net.graph.prevOf e.1 ≠ [] := by
        intro h0
        rw [show ls.graph.prevOf e.1 = [] from h0] at hrel
        exact hc.1 (List.forall₂_nil_right_iff.mp hrel)
      have hargs : argsOf ls.net.graph.prevOf x v e.1 = (ls.graph.prevOf e.1).map v := by
        unfold argsOf
        rw [if_neg hne]; rfl
      have hins : List.Forall₂ (fun s (i : Nd ℝ) => ∃ t, E s = some t ∧ i.data = t.data) e.2 ((ls.graph.prevOf e.1).map v) := by
        rw [List.forall₂_map_right_iff]
        rw [List.forall₂_iff_get] at hrel ⊢
        refine ⟨hrel.1, fun i h h' => ?_⟩
        obtain ⟨_, t, h3, h4⟩ := hrel.2 i h h'
        have := hvp _ (List.get_mem (ls.graph.prevOf e.1) ⟨i, h'⟩)
        rw [h4] at this
        exact ⟨t, h3, by simpa using this.symm⟩
      obtain ⟨z, hz, hzd⟩ := hc.2 _ hins
      rw [hop hl, hargs]
      refine ⟨z, hz, ?_⟩
      rw [hzd, List.getElem?_append_left (List.getElem?_eq_some_iff.mp h2).1]; exact h2
  · have hp := prev_nil hI hL hk (.inr hk')
    have hk2 : k - st.layers.length < cs.length := by rw [hL.layers] at hk; simp at hk; omega
    have hl : ls.layers[k]? = some (.constant cs[k - st.layers.length]) := by
      rw [hL.layers, List.getElem?_append_right hk', List.getElem?_map, List.getElem?_eq_getElem hk2]; rfl
    have hargs : argsOf ls.net.graph.prevOf x v k = [x] := by
      unfold argsOf
      rw [show ls.net.graph.prevOf k = [] from hp]; simp
    rw [hop hl, hargs]
    refine ⟨_, rfl, ?_⟩
    rw [List.getElem?_append_right (by rw [hI.length]; exact hk'), hI.length, List.getElem?_map, List.getElem?_eq_getElem hk2]; rfl

end

/-- **C60** (partial: the operators and restrictions of `Supported`, exact real arithmetic).  The network imported from an
ONNX model, run by `compute_inference`, returns the elements of the output of the model. -/
theorem C60_import_correct_partial (hexp : M.exp = Real.exp) (hsqrt : M.sqrt = Real.sqrt) (hv : Valid m input out) (hx : x.Ok)
    (he : Spec.eval m input x = some E) (hf : Fits m E) {net : Network ℝ} {plan : Plan} (h : loadOnnx m = some (net, plan))
    {y : Nd ℝ} (hy : E out = some y) : net.reference M plan x = some y.data := by
  unfold loadOnnx at h
  obtain ⟨net', h1, h⟩ := Option.bind_eq_some_iff.mp h
  obtain ⟨plan', htt, h⟩ := Option.bind_eq_some_iff.mp h
  cases h
  obtain ⟨st, ls, vals, cs, rfl, hI, hL⟩ := import_inv hexp hsqrt hv hx he hf h1
  have hu := net_unique ls
  have hc := net_consistent hI hL
  have hsorted := plan_sorted htt
  have hperm := plan_perm hu hc htt
  have hlk := links hu hc
  have hmem : ∀ n, n ∈ plan.order ↔ n < ls.layers.length := fun n => by
    rw [hperm.mem_iff, show ls.net.graph.idxs = List.range ls.layers.length from graph_idxs ls, List.mem_range]
  have hcl : ∀ n ∈ plan.order, ∀ s ∈ ls.net.graph.nextOf n, s ∈ plan.order := by
    intro n _ s hsn
    exact hperm.mem_iff.2 (next_closed hu hc n (nextOf_idx hsn) s hsn)
  have : Inhabited (Nd ℝ) := ⟨⟨[], []⟩⟩
  obtain ⟨v, hval⟩ := exists_valuationE (x := x) (fwd := fun n => (ls.net.op n).forward M ls.net.fmt)
    (P := fun n (z : Nd ℝ) => (vals ++ cs.map Nd.data)[n]? = some z.data) hsorted (by
      intro pre n post ho v hpre
      have hn : n < ls.layers.length := (hmem n).mp (by rw [ho]; simp)
      refine layer_value hI hL hn fun p hp => ?_
      exact (hpre p ((hsorted pre n post ho).2 p hp)).2)
  have hne : plan.order ≠ [] := by
    intro h0
    have : (0 : Nat) ∈ plan.order := (hmem 0).mpr (by
      obtain ⟨d, _, hd, _⟩ := hI.first
      have := (List.getElem?_eq_some_iff.mp hd).1
      rw [hL.layers]; simp; omega)
    rw [h0] at this; simp at this
  obtain ⟨last, hlast⟩ : ∃ n, plan.order.getLast? = some n := ⟨_, List.getLast?_eq_some_getLast hne⟩
  obtain ⟨first, hfirst⟩ : ∃ n, plan.order.head? = some n := ⟨_, List.head?_eq_some_head hne⟩
  have hlm : last ∈ plan.order := List.mem_of_getLast? hlast
  have hnext : ls.graph.nextOf last = [] := by
    by_contra hcon
    obtain ⟨s, hs⟩ := List.exists_mem_of_ne_nil _ hcon
    have hso := hcl last hlm s hs
    obtain ⟨a, b, hab⟩ := List.append_of_mem hso
    have hpa := (hsorted a s b hab).2 last ((hlk last s).2 hs)
    have hnd := hsorted.nodup
    rw [hab] at hnd
    have hin : last ∈ s :: b := by
      rw [hab, List.getLast?_append] at hlast
      cases hb : (s :: b).getLast? with
      | none => simp at hb
      | some z => rw [hb] at hlast; simp at hlast; rw [← hlast]; exact List.mem_of_getLast? hb
    exact (List.nodup_append.mp hnd).2.2 last hpa last hin rfl
  obtain ⟨t, ht, hvt⟩ := sink_out hv hI hL ((hmem last).mp hlm) hnext
  rw [hy] at ht
  cases ht
  have hloop : loopE ls.net.graph.prevOf ls.net.graph.nextOf (fun n => (ls.net.op n).forward M ls.net.fmt) plan.order x = some (v last) := by
    unfold loopE
    rw [stepE_steps hsorted hlk hcl plan.order [] (by simp) (fun n hn => (hval n hn).1)]
    simp [hlast]
  have hfin : (v last).data = y.data := by
    have := (hval last hlm).2
    rw [hvt] at this
    simpa using this.symm
  unfold Network.reference
  rw [hfirst, hlast]
  simp only [Option.bind_eq_bind, Option.bind_some]
  have hp : prepare ls.net.fmt (ls.net.op first) x = some x := by
    show prepare .first _ x = some x
    rfl
  rw [hp, Option.bind_some, hloop, Option.bind_some]
  show finish .first _ _ = _
  rw [← hfin]
  rfl

/-- The layers of an imported model are linked consistently, and `tri_topo` orders them if every node has an operand that is
computed. -/
theorem C56_ordered (hexp : M.exp = Real.exp) (hsqrt : M.sqrt = Real.sqrt) (hv : Valid m input out) (hx : x.Ok)
    (he : Spec.eval m input x = some E) (hf : Fits m E) {net : Network ℝ} (h : importNet m = some net) :
    UniqueIdx net.graph ∧ Consistent net.graph ∧ Acyclic net.graph ∧
      ((∀ n ∈ m.nodes, n.op ≠ .Constant → ∃ s ∈ n.operands, m.Dynamic s) → ∃ plan, loadOnnx m = some (net, plan)) := by
  have himp := h
  obtain ⟨st, ls, vals, cs, rfl, hI, hL⟩ := import_inv hexp hsqrt hv hx he hf h
  have hu := net_unique ls
  have hc := net_consistent hI hL
  have hll : st.layers.length ≤ ls.layers.length := by rw [hL.layers]; simp
  have hpos : 0 < st.layers.length := by
    obtain ⟨d, _, h, _⟩ := hI.first
    exact (List.getElem?_eq_some_iff.mp h).1
  have hcst : ∀ k, k < st.layers.length → ((ls.layers[k]?).map isConstant).getD false = false := by
    intro k hk
    rw [hL.layers, List.getElem?_append_left hk, List.getElem?_eq_getElem hk]
    exact hI.plain _ (List.getElem_mem hk)
  have hac : Acyclic ls.net.graph := by
    refine ⟨fun k => if k < st.layers.length then k + 1 else 0, ?_⟩
    intro l hl s hs
    obtain ⟨k, hk, rfl⟩ := graph_mem.mp hl
    simp only [List.mem_map, List.mem_filter, decide_eq_true_eq] at hs
    obtain ⟨l, ⟨hll2, rfl⟩, rfl⟩ := hs
    clear hl
    have hl := hll2
    have hb := link_bounds hI hL hl
    simp only [hb.2.2.1, if_true]
    obtain ⟨e, hee, s, hse, h2, h1⟩ := link_of hL hl
    cases hd : st.dictOut s with
    | some k =>
      rw [hL.keep s k hd] at h1
      cases h1
      have := (hI.before e hee s hse).2 _ hd
      rw [← h2] at this
      split <;> omega
    | none =>
      have := (hL.new s l.1 h1 hd).1
      rw [if_neg (by omega)]; omega
  refine ⟨hu, hc, hac, fun hdyn => ?_⟩
  have hfed := hI.fed hdyn
  have : (triTopo ls.net.graph).isSome := by
    apply C02_acyclic_ordered_partial hu hc hac
    · exact ⟨_, graph_mem.mpr ⟨0, by omega, rfl⟩, hcst 0 hpos⟩
    · intro l hl hlc
      obtain ⟨k, hk, rfl⟩ := graph_mem.mp hl
      simp only at hlc ⊢
      rw [← graph_prev ls hk]
      refine prev_nil hI hL hk (.inr ?_)
      by_contra hcon
      rw [hcst k (by omega)] at hlc
      simp at hlc
    · intro l hl hlc hp
      obtain ⟨k, hk, rfl⟩ := graph_mem.mp hl
      simp only at hp ⊢
      rw [← graph_prev ls hk] at hp ⊢
      have hk' : 1 ≤ k ∧ k < st.layers.length := by
        by_contra hcon
        exact hp (prev_nil hI hL hk (by omega))
      obtain ⟨e, hee, rfl⟩ := (key_iff hI k).mpr hk'
      obtain ⟨s, hse, hds⟩ := hfed e hee
      obtain ⟨l, hl', h2, h1⟩ := link_to hL hee hse
      have hlt : l.1 < st.layers.length := by
        cases hd : st.dictOut s with
        | some k =>
          rw [hL.keep s k hd] at h1
          cases h1
          have := (hI.before e hee s hse).2 _ hd
          omega
        | none =>
          obtain ⟨_, i, hi, rfl⟩ := hL.new s l.1 h1 hd
          exact absurd hds (not_dynamic_init hv hi)
      refine ⟨_, graph_mem.mpr ⟨l.1, by omega, rfl⟩, ?_, hcst _ hlt⟩
      simp only
      rw [graph_prev ls hk]
      exact List.mem_map.mpr ⟨l, List.mem_filter.mpr ⟨hl', by simpa using h2⟩, rfl⟩
  obtain ⟨plan, hplan⟩ := Option.isSome_iff_exists.mp this
  refine ⟨plan, ?_⟩
  unfold loadOnnx
  rw [himp]
  simp only [Option.bind_eq_bind, Option.bind_some]
  rw [hplan]
  rfl

end Verif.Onnx

import Verif.Export.Eval

/-!
# The exported model computes the network
-/

namespace Verif.Export
open Net Layers Graph
open Onnx (prod mk shapeOf Init OpType Attr)
open Torch (Gives)
open scoped Classical

variable {M : CMath ℝ} {opset : Nat} {net : XNet} {plan : Plan} {i0 : Nat} {D : Nat → List Nat} {x : Nd ℝ}

/-- what the interpreter computes for each layer -/
theorem valuation (hexp : M.exp = Real.exp) (hsqrt : M.sqrt = Real.sqrt) (htt : triTopo net.graph = some plan) (hs : Supported net plan.order i0 D) (hx : x.dims = D i0)
    (hok : x.Ok) : ∃ v : Nat → Nd ℝ, ∀ n ∈ plan.order,
      (net.layer n).full.forward M .first (argsOf net.graph.prevOf x v n) = some (v n) ∧ (v n).data.length = prod (D n) := by
  have hsorted := plan_sorted htt
  have : Inhabited (Nd ℝ) := ⟨⟨[], []⟩⟩
  refine exists_valuationE (x := x) (fwd := fun n => (net.layer n).full.forward M .first) (P := fun n z => z.data.length = prod (D n)) hsorted ?_
  intro pre n post ho v hpre
  have hn : n ∈ plan.order := by rw [ho]; simp
  by_cases h0 : n = i0
  · subst h0
    obtain ⟨r, s, hl, hD⟩ := hs.input
    refine ⟨x, ?_, by rw [← hx]; exact hok⟩
    unfold argsOf
    rw [hs.source, hl]
    rfl
  · obtain ⟨hne, hex⟩ := hs.other n hn h0
    obtain ⟨pcs, y, -, -, -, hg, hlen, -⟩ := layer_run hexp hsqrt (opset := 13) (le_refl _) hex n (net.ins n) (by simp [XNet.ins])
      (ts := (net.graph.prevOf n).map fun p => ⟨D p, (v p).data⟩) (by simp [Function.comp_def])
      (by
        intro t ht
        obtain ⟨p, hp, rfl⟩ := List.mem_map.mp ht
        exact (hpre p ((hsorted pre n post ho).2 p hp)).2)
    have hargs : argsOf net.graph.prevOf x v n = (net.graph.prevOf n).map v := by
      unfold argsOf
      exact if_neg hne
    simp only [hargs]
    obtain ⟨z, hz, hzd⟩ := hg ((net.graph.prevOf n).map v) (by simp [Function.comp_def])
    exact ⟨z, hz, by rw [hzd, hlen]⟩

/-- what is exported for each layer, given the values of the interpreter -/
theorem exported (hexp : M.exp = Real.exp) (hsqrt : M.sqrt = Real.sqrt) (hv : 13 ≤ opset) (htt : triTopo net.graph = some plan) (hs : Supported net plan.order i0 D)
    {v : Nat → Nd ℝ} (hval : ∀ n ∈ plan.order, (net.layer n).full.forward M .first (argsOf net.graph.prevOf x v n) = some (v n) ∧ (v n).data.length = prod (D n)) {n : Nat}
    (hn : n ∈ plan.order) : ∃ pcs, exportLayer (net.layer n) n (net.ins n) = some pcs ∧ Named (net.layer n) n pcs ∧ (∀ a ∈ pcs.flatMap Prod.snd, ∃ v, a.array = some v) ∧
      (n = i0 → pcs = []) ∧ (n ≠ i0 → ∀ E, Ready E (net.ins n) ((net.graph.prevOf n).map fun p => ⟨D p, (v p).data⟩) (pcs.flatMap Prod.snd) →
        ∃ E', (pcs.map Prod.fst).foldlM (Onnx.Spec.step opset) E = some E' ∧ E' ((net.layer n).tensor n) = some ⟨D n, (v n).data⟩ ∧
          ∀ s, s ≠ (net.layer n).tensor n → s ≠ (net.layer n).tensor n "_pre_activation" → E' s = E s) := by
  have hsorted := plan_sorted htt
  by_cases h0 : n = i0
  · subst h0
    obtain ⟨r, s, hl, hD⟩ := hs.input
    refine ⟨[], by rw [hl]; rfl, ⟨[], rfl, by simp, by simp⟩, by simp, fun _ => rfl, fun h => absurd rfl h⟩
  · obtain ⟨hne, hex⟩ := hs.other n hn h0
    obtain ⟨a, b, hab⟩ := List.append_of_mem hn
    obtain ⟨pcs, y, h1, h2, h3, hg, hlen, hrun⟩ := layer_run hexp hsqrt hv hex n (net.ins n) (by simp [XNet.ins])
      (ts := (net.graph.prevOf n).map fun p => ⟨D p, (v p).data⟩) (by simp [Function.comp_def])
      (by
        intro t ht
        obtain ⟨p, hp, rfl⟩ := List.mem_map.mp ht
        exact (hval p (by rw [hab]; have := (hsorted a n b hab).2 p hp; simp [this])).2)
    have hargs : argsOf net.graph.prevOf x v n = (net.graph.prevOf n).map v := by
      unfold argsOf
      exact if_neg hne
    obtain ⟨z, hz, hzd⟩ := hg ((net.graph.prevOf n).map v) (by simp [Function.comp_def])
    have := (hval n hn).1
    rw [hargs, hz] at this
    cases this
    rw [← hzd] at hrun
    exact ⟨pcs, h1, h2, h3, fun h => absurd h h0, fun _ => hrun⟩

theorem find_unique {A : Type} {f : A → String} {l : List A} (h : (l.map f).Nodup) {a : A} (ha : a ∈ l) : l.find? (fun b => f b = f a) = some a := by
  induction l with
  | nil => simp at ha
  | cons b l ih =>
    simp only [List.map_cons, List.nodup_cons] at h
    rcases List.mem_cons.mp ha with rfl | ha
    · simp
    · rw [List.find?_cons_of_neg]
      · exact ih h.2 ha
      · simp only [decide_eq_true_eq]
        intro hc
        exact h.1 (List.mem_map.mpr ⟨a, ha, hc.symm⟩)

/-- the last layer in the order of execution has no consumer -/
theorem last_next {prevOf nextOf : Nat → List Nat} {order : List Nat} (hsorted : Sorted prevOf order) (hlk : ∀ a b, a ∈ prevOf b ↔ b ∈ nextOf a)
    (hcl : ∀ n ∈ order, ∀ s ∈ nextOf n, s ∈ order) {last : Nat} (hlast : order.getLast? = some last) : nextOf last = [] := by
  by_contra hcon
  obtain ⟨s, hs⟩ := List.exists_mem_of_ne_nil _ hcon
  have hlm : last ∈ order := List.mem_of_getLast? hlast
  have hso := hcl last hlm s hs
  obtain ⟨a, b, hab⟩ := List.append_of_mem hso
  have hpa := (hsorted a s b hab).2 last ((hlk last s).2 hs)
  have hnd := hsorted.nodup
  rw [hab] at hnd
  have hin : last ∈ s :: b := by
    rw [hab, List.getLast?_append] at hlast
    cases hb : (s :: b).getLast? with
    | none => simp at hb
    | some z => rw [hb] at hlast; simp at hlast; rw [← hlast]; exact List.mem_of_getLast? hb
  exact (List.nodup_append.mp hnd).2.2 last hpa last hin rfl

theorem filter_eq {l : List Nat} (hnd : l.Nodup) {i : Nat} (hm : i ∈ l) : (l.filter fun j => j = i) = [i] := by
  induction l with
  | nil => simp at hm
  | cons a l ih =>
    simp only [List.nodup_cons] at hnd
    rcases List.mem_cons.mp hm with rfl | hm
    · simp only [decide_true, List.filter_cons_of_pos, List.cons.injEq, true_and, List.filter_eq_nil_iff, decide_eq_true_eq]
      intro b hb hc
      exact hnd.1 (hc ▸ hb)
    · have : a ≠ i := by rintro rfl; exact hnd.1 hm
      simp only [this, decide_false, Bool.false_eq_true, not_false_eq_true, List.filter_cons_of_neg]
      exact ih hnd.2 hm

theorem prepare_first (op : Op ℝ) (x : Nd ℝ) : prepare .first op x = some x := by cases op <;> rfl

theorem finish_first (op : Op ℝ) (y : Nd ℝ) : finish .first op y = some y.data := by unfold finish; rfl

/-- the only layer without producer -/
theorem sources (htt : triTopo net.graph = some plan) (hs : Supported net plan.order i0 D) : (plan.order.filter fun i => net.graph.prevOf i = []) = [i0] := by
  have hnd : plan.order.Nodup := (plan_sorted htt).nodup
  have hf : ∀ n ∈ plan.order, (decide (net.graph.prevOf n = []) = true ↔ n = i0) := by
    intro n hn
    simp only [decide_eq_true_eq]
    constructor
    · intro h
      by_contra h0
      exact (hs.other n hn h0).1 h
    · rintro rfl; exact hs.source
  have h1 : (plan.order.filter fun i => net.graph.prevOf i = []) = plan.order.filter fun i => i = i0 := by
    apply List.filter_congr
    intro n hn
    have := hf n hn
    by_cases h : n = i0 <;> simp [h, hs.source] at this ⊢
    exact this
  rw [h1]
  exact filter_eq hnd hs.mem

/-- **Every tensor.**  The export succeeds and the exported model gives each layer's tensor the value the interpreter computes for the layer. -/
theorem export_tensors (hexp : M.exp = Real.exp) (hsqrt : M.sqrt = Real.sqrt) (hv : 13 ≤ opset) (htt : triTopo net.graph = some plan) (hs : Supported net plan.order i0 D)
    (hx : x.dims = D i0) {v : Nat → Nd ℝ}
    (hval : ∀ n ∈ plan.order, (net.layer n).full.forward M .first (argsOf net.graph.prevOf x v n) = some (v n) ∧ (v n).data.length = prod (D n)) :
    ∃ m E, net.export opset plan.order = some m ∧ m.inputs = [((net.layer i0).tensor i0, D i0)] ∧
      m.outputs = (plan.order.filter fun i => net.graph.nextOf i = []).map (fun i => exportOutput (net.layer i) i) ∧ m.opset = opset ∧
      Onnx.Spec.eval m ((net.layer i0).tensor i0) x = some E ∧ ∀ n ∈ plan.order, E ((net.layer n).tensor n) = some ⟨D n, (v n).data⟩ := by
  have hsorted := plan_sorted htt
  have hnd := hsorted.nodup
  have hall := fun n (hn : n ∈ plan.order) => exported hexp hsqrt hv htt hs hval hn
  choose! P hP1 hP2 hP3 hP4 hP5 using hall
  obtain ⟨r, s0, hl0, hD0⟩ := hs.input
  have hin : exportInput (net.layer i0) i0 = some ((net.layer i0).tensor i0, D i0) := by
    rw [hD0, hl0]; cases r <;> rfl
  have hpieces : plan.order.mapM (fun i => exportLayer (net.layer i) i (net.ins i)) = some (plan.order.map P) := mapM_some _ P _ hP1
  let inits : List Init := (plan.order.flatMap P).flatMap Prod.snd
  have hnames : (inits.map Init.name).Nodup := by
    have e : inits.map Init.name = plan.order.flatMap fun n => ((P n).flatMap Prod.snd).map Init.name := by
      simp only [inits, List.flatMap_assoc, List.map_flatMap]
    rw [e, List.nodup_flatMap]
    constructor
    · intro n hn
      obtain ⟨ss, e1, e2, e3⟩ := hP2 n hn
      rw [e1]
      exact e2.map fun a b hab => tensor_suffix hab
    · refine List.Pairwise.imp_of_mem ?_ hnd
      intro a b ha hb hab
      obtain ⟨ss, e1, e2, e3⟩ := hP2 a ha
      obtain ⟨ss', e1', e2', e3'⟩ := hP2 b hb
      simp only [Function.onFun, e1, e1']
      intro q hq hq'
      obtain ⟨u, hu, rfl⟩ := List.mem_map.mp hq
      obtain ⟨u', hu', he⟩ := List.mem_map.mp hq'
      exact hab (tensor_index (init_suffix (e3 u hu)).1 (init_suffix (e3' u' hu')).1 he.symm)
  -- the name of an initializer
  have hname : ∀ n ∈ plan.order, ∀ a ∈ (P n).flatMap Prod.snd, ∃ s ∈ initSuffixes, a.name = (net.layer n).tensor n s := by
    intro n hn a ha
    obtain ⟨ss, e1, e2, e3⟩ := hP2 n hn
    have : a.name ∈ ((P n).flatMap Prod.snd).map Init.name := List.mem_map.mpr ⟨a, ha, rfl⟩
    rw [e1] at this
    obtain ⟨s, hs, he⟩ := List.mem_map.mp this
    exact ⟨s, e3 s hs, he.symm⟩
  -- a tensor of a layer is not an initializer
  have hdiff : ∀ n ∈ plan.order, ∀ a ∈ (P n).flatMap Prod.snd, ∀ k, a.name ≠ (net.layer k).tensor k ∧ a.name ≠ (net.layer k).tensor k "_pre_activation" := by
    intro n hn a ha k
    obtain ⟨s, hs, he⟩ := hname n hn a ha
    obtain ⟨q1, q2, q3⟩ := init_suffix hs
    rw [he]
    constructor
    · intro hc
      obtain rfl := tensor_index q1 suffix_empty hc
      exact q2 (tensor_suffix hc)
    · intro hc
      obtain rfl := tensor_index q1 suffix_pre hc
      exact q3 (tensor_suffix hc)
  let m : Onnx.Model :=
    { inputs := [((net.layer i0).tensor i0, D i0)]
      outputs := (plan.order.filter fun i => net.graph.nextOf i = []).map fun i => exportOutput (net.layer i) i
      valueInfo := []
      inits := inits
      nodes := (plan.order.flatMap P).map Prod.fst
      opset := opset }
  have hm : net.export opset plan.order = some m := by
    unfold XNet.export
    rw [sources htt hs, hpieces]
    simp only [List.mapM_cons, List.mapM_nil, hin, Option.bind_eq_bind, Option.bind_some, Option.pure_def]
    rfl
  let E0 := Onnx.Spec.env0 m ((net.layer i0).tensor i0) x
  have hbase : ∀ n ∈ plan.order, ∀ a ∈ (P n).flatMap Prod.snd, a.name ≠ "" ∧ ∃ w, a.array = some w ∧ E0 a.name = some w := by
    intro n hn a ha
    obtain ⟨s, hs, he⟩ := hname n hn a ha
    obtain ⟨w, hw⟩ := hP3 n hn a ha
    refine ⟨by rw [he]; exact tensor_ne_empty _ _ _, w, hw, ?_⟩
    have hmem : a ∈ inits := by
      simp only [inits, List.flatMap_assoc]
      exact List.mem_flatMap.mpr ⟨n, hn, ha⟩
    simp only [E0, Onnx.Spec.env0, if_neg (hdiff n hn a ha i0).1]
    show (inits.find? _).bind _ = _
    rw [find_unique hnames hmem]
    exact hw
  have hv0 : v i0 = x := by
    have := (hval i0 hs.mem).1
    unfold argsOf at this
    rw [hs.source, hl0] at this
    exact (Option.some.inj this).symm
  have hrun : ∀ pre post, plan.order = pre ++ post → ∃ E, ((pre.flatMap P).map Prod.fst).foldlM (Onnx.Spec.step opset) E0 = some E ∧
      (∀ n, n ∈ pre ∨ n = i0 → E ((net.layer n).tensor n) = some ⟨D n, (v n).data⟩) ∧
      ∀ n ∈ plan.order, ∀ a ∈ (P n).flatMap Prod.snd, E a.name = E0 a.name := by
    intro pre
    induction pre using List.reverseRecOn with
    | nil =>
      intro post _
      refine ⟨E0, rfl, ?_, fun _ _ _ _ => rfl⟩
      rintro n (h | rfl)
      · simp at h
      · rw [hv0, ← hx]
        simp [E0, Onnx.Spec.env0]
    | append_singleton pre n ih =>
      intro post ho
      obtain ⟨E, hE, h1, h2⟩ := ih (n :: post) (by simp [ho])
      have hn : n ∈ plan.order := by rw [ho]; simp
      obtain ⟨hnp, hprev⟩ := hsorted pre n post (by simp [ho])
      simp only [List.flatMap_append, List.flatMap_cons, List.flatMap_nil, List.append_nil, List.map_append, List.foldlM_append, hE, Option.bind_eq_bind, Option.bind_some]
      by_cases h0 : n = i0
      · rw [hP4 n hn h0]
        refine ⟨E, rfl, ?_, h2⟩
        rintro k (hk | hk)
        · rcases List.mem_append.mp hk with hk | hk
          · exact h1 k (.inl hk)
          · simp at hk; exact h1 k (.inr (hk.trans h0))
        · exact h1 k (.inr hk)
      · have hready : Ready E (net.ins n) ((net.graph.prevOf n).map fun p => ⟨D p, (v p).data⟩) ((P n).flatMap Prod.snd) := by
          constructor
          · unfold XNet.ins
            rw [List.forall₂_map_left_iff, List.forall₂_map_right_iff, List.forall₂_same]
            intro p hp
            exact ⟨tensor_ne_empty _ _ _, h1 p (.inl (hprev p hp))⟩
          · intro a ha
            obtain ⟨q1, w, q2, q3⟩ := hbase n hn a ha
            exact ⟨q1, w, q2, by rw [h2 n hn a ha, q3]⟩
        obtain ⟨E', hE', g1, g2⟩ := hP5 n hn h0 E hready
        refine ⟨E', hE', ?_, ?_⟩
        · have hother : ∀ k, k ≠ n → E' ((net.layer k).tensor k) = E ((net.layer k).tensor k) := by
            intro k hk
            apply g2
            · intro hc; exact hk (tensor_index suffix_empty suffix_empty hc)
            · intro hc; exact hk (tensor_index suffix_empty suffix_pre hc)
          rintro k (hk | hk)
          · rcases List.mem_append.mp hk with hk | hk
            · rw [hother k (fun hc => hnp (hc ▸ hk))]; exact h1 k (.inl hk)
            · simp at hk; subst hk; exact g1
          · rw [hother k (fun hc => h0 (hc ▸ hk))]; exact h1 k (.inr hk)
        · intro k hk a ha
          rw [g2 _ (hdiff k hk a ha n).1 (hdiff k hk a ha n).2, h2 k hk a ha]
  obtain ⟨E, hE, h1, -⟩ := hrun plan.order [] (by simp)
  exact ⟨m, E, hm, rfl, rfl, rfl, hE, fun n hn => h1 n (.inl hn)⟩

/-- **C70 (part).**  A covered network is exported to a model with one input of the declared dimensions; on every input of these dimensions that model computes, in the tensor of
the last layer, exactly what the interpreter computes, and that tensor is one of its outputs. -/
theorem C70_export_correct_partial (hexp : M.exp = Real.exp) (hsqrt : M.sqrt = Real.sqrt) (hv : 13 ≤ opset) (hu : UniqueIdx net.graph) (hc : Consistent net.graph)
    (htt : triTopo net.graph = some plan) (hs : Supported net plan.order i0 D) :
    ∃ m last, exporter "onnx" net opset plan.order = some m ∧ m.inputs = [((net.layer i0).tensor i0, D i0)] ∧ plan.order.getLast? = some last ∧
      (net.layer last).tensor last ∈ m.outputs.map Prod.fst ∧
      ∀ x : Nd ℝ, x.dims = D i0 → x.Ok → ∃ E y, Onnx.Spec.eval m ((net.layer i0).tensor i0) x = some E ∧ net.network.reference M plan x = some y ∧
        E ((net.layer last).tensor last) = some ⟨D last, y⟩ := by
  have hsorted := plan_sorted htt
  have hperm := plan_perm hu hc htt
  have hlk := links hu hc
  have hcl : ∀ n ∈ plan.order, ∀ s ∈ net.graph.nextOf n, s ∈ plan.order := by
    intro n _ s hsn
    exact hperm.mem_iff.2 (next_closed hu hc n (nextOf_idx hsn) s hsn)
  have hne : plan.order ≠ [] := List.ne_nil_of_mem hs.mem
  obtain ⟨last, hlast⟩ : ∃ n, plan.order.getLast? = some n := ⟨_, List.getLast?_eq_some_getLast hne⟩
  obtain ⟨first, hfirst⟩ : ∃ n, plan.order.head? = some n := ⟨_, List.head?_eq_some_head hne⟩
  have hlm : last ∈ plan.order := List.mem_of_getLast? hlast
  have hnext := last_next hsorted hlk hcl hlast
  -- the model does not depend on the input
  obtain ⟨v0, hv0⟩ := valuation (x := mk (D i0) fun _ => 0) hexp hsqrt htt hs rfl (Onnx.mk_ok _ _)
  obtain ⟨m, E0, hm, hi, hout, ho, -, -⟩ := export_tensors hexp hsqrt hv htt hs (x := mk (D i0) fun _ => 0) rfl hv0
  refine ⟨m, last, by simp only [exporter, if_true, hm], hi, hlast, ?_, ?_⟩
  · rw [hout, List.map_map]
    exact List.mem_map.mpr ⟨last, List.mem_filter.mpr ⟨hlm, by simp [hnext]⟩, rfl⟩
  · intro x hx hok
    obtain ⟨v, hval⟩ := valuation hexp hsqrt htt hs hx hok
    obtain ⟨m', E, hm', -, -, -, hE, hall⟩ := export_tensors hexp hsqrt hv htt hs hx hval
    rw [hm] at hm'; cases hm'
    refine ⟨E, (v last).data, hE, ?_, hall last hlm⟩
    have hloop : loopE net.network.graph.prevOf net.network.graph.nextOf (fun n => (net.network.op n).forward M net.network.fmt) plan.order x = some (v last) := by
      unfold loopE
      have hf : ∀ n ∈ plan.order, (fun n => (net.network.op n).forward M net.network.fmt) n (argsOf net.graph.prevOf x v n) = some (v n) := by
        intro n hn
        show (net.layer n).full.forward M net.fmt _ = _
        rw [hs.fmt]; exact (hval n hn).1
      show (plan.order.foldlM (stepE net.graph.prevOf net.graph.nextOf _) _ >>= fun st => st.2) = _
      rw [stepE_steps hsorted hlk hcl plan.order [] (by simp) hf]
      simp [hlast]
    unfold Network.reference
    rw [hfirst, hlast]
    simp only [Option.bind_eq_bind, Option.bind_some]
    rw [show net.network.fmt = .first from hs.fmt] at hloop ⊢
    rw [prepare_first, Option.bind_some, hloop, Option.bind_some, finish_first]

end Verif.Export

import Verif.Onnx.Inv

/-!
# The whole of `load_onnx`

The start, the loop on the nodes, the linking loop, and the graph that results.
-/

namespace Verif.Onnx
open Net Layers
open scoped Classical

variable {M : CMath ℝ} {m : Model} {input out : String} {x : Nd ℝ} {E Ec : Spec.Env} {pre post : List Node} {st : State} {vals : List (List ℝ)}

theorem init_find (hnd : (m.inits.map Init.name).Nodup) {i : Init} (hi : i ∈ m.inits) : m.inits.find? (fun j => j.name = i.name) = some i := by
  generalize m.inits = l at *
  induction l with
  | nil => simp at hi
  | cons a l ih =>
    rw [List.map_cons, List.nodup_cons] at hnd
    rcases List.mem_cons.mp hi with rfl | hi'
    · simp
    · have : a.name ≠ i.name := fun h => hnd.1 (h ▸ List.mem_map.mpr ⟨i, hi', rfl⟩)
      simp [this, ih hnd.2 hi']

/-- an initializer has the value of its array -/
theorem init_value (hv : Valid m input out) (he : Spec.eval m input x = some E) {i : Init} (hi : i ∈ m.inits) :
    E i.name = i.array ∧ Spec.env0 m input x i.name = i.array := by
  have hn := hv.names
  rw [List.nodup_cons, List.nodup_append] at hn
  obtain ⟨h1, h2, h3, h4⟩ := hn
  have hmem : i.name ∈ m.inits.map Init.name := List.mem_map.mpr ⟨i, hi, rfl⟩
  have h0 : Spec.env0 m input x i.name = i.array := by
    unfold Spec.env0
    rw [if_neg (fun h => h1 (by rw [← h]; exact List.mem_append_left _ hmem)), init_find h2 hi]
    rfl
  refine ⟨?_, h0⟩
  rw [eval_keep he (fun hc => h4 _ hmem _ hc rfl), h0]

theorem not_dynamic_init (hv : Valid m input out) {i : Init} (hi : i ∈ m.inits) : ¬ m.Dynamic i.name := by
  have hn := hv.names
  rw [List.nodup_cons, List.nodup_append] at hn
  obtain ⟨h1, h2, h3, h4⟩ := hn
  have hmem : i.name ∈ m.inits.map Init.name := List.mem_map.mpr ⟨i, hi, rfl⟩
  rintro (⟨e, he, h⟩ | ⟨n, hn, _, h⟩)
  · obtain ⟨d, hd⟩ := hv.inputs
    rw [hd] at he
    simp only [List.mem_singleton] at he
    subst he
    simp only at h
    exact h1 (h ▸ List.mem_append_left _ hmem)
  · exact h4 _ hmem _ (List.mem_filterMap.mpr ⟨n, hn, h⟩) rfl

theorem init?_some {s : String} {i : Init} (h : m.init? s = some i) : i ∈ m.inits ∧ i.name = s := by
  unfold Model.init? at h
  split at h
  · simp at h
  · exact ⟨List.mem_of_find?_eq_some h, by simpa using List.find?_some h⟩

theorem inv_start (hv : Valid m input out) (hf : Fits m E) (he : Spec.eval m input x = some E) :
    Inv M m input x E [] (Spec.env0 m input x) (start m) [x.data] := by
  obtain ⟨d, hd⟩ := hv.inputs
  have hn := hv.names
  rw [List.nodup_cons, List.nodup_append] at hn
  obtain ⟨h1, h2, h3, h4⟩ := hn
  have hdin : m.Dynamic input := .inl ⟨(input, d), by rw [hd]; simp, rfl⟩
  have hstart : start m = ⟨m, [inputOp d], [], setOut (fun _ => none) input (some 0)⟩ := by
    unfold start; simp [hd]
  have henv : ∀ s t, Spec.env0 m input x s = some t → s = input ∧ t = x ∨ ∃ i ∈ m.inits, i.name = s ∧ i.array = some t := by
    intro s t h
    unfold Spec.env0 at h
    split at h
    · rename_i e; cases h; exact .inl ⟨e, rfl⟩
    · obtain ⟨i, hi, ha⟩ := Option.bind_eq_some_iff.mp h
      exact .inr ⟨i, List.mem_of_find?_eq_some hi, by simpa using List.find?_some hi, ha⟩
  rw [hstart]
  refine ⟨?_, ?_, ⟨[], by simp⟩, ?_, rfl, ⟨d, hd, rfl, rfl⟩, ?_, by simp, rfl, ?_, by simp, ?_, by simp, by simp⟩
  · intro s t h
    have hs : s ∉ m.nodes.filterMap Node.output? := by
      rcases henv s t h with ⟨rfl, _⟩ | ⟨i, hi, rfl, _⟩
      · exact fun hc => h1 (List.mem_append_right _ hc)
      · exact fun hc => h4 _ (List.mem_map.mpr ⟨i, hi, rfl⟩) _ hc rfl
    rw [eval_keep he hs]; exact h
  · intro s t h
    rcases henv s t h with ⟨rfl, _⟩ | ⟨i, hi, rfl, _⟩
    · exact ⟨by simp [Model.namesOf], .inl hdin⟩
    · have hmem : i.name ∈ m.inits.map Init.name := List.mem_map.mpr ⟨i, hi, rfl⟩
      refine ⟨List.mem_cons_of_mem _ (List.mem_append_left _ hmem), .inr ?_⟩
      have hne : i.name ≠ "" := fun hc => hv.nonempty (by rw [← hc]; exact List.mem_cons_of_mem _ (List.mem_append_left _ hmem))
      simp only [Model.init?, hne, if_false, init_find h2 hi]
      rfl
  · intro s i h
    obtain ⟨hi, rfl⟩ := init?_some h
    obtain ⟨t, ht⟩ := Option.isSome_iff_exists.mp (hv.arrays i hi)
    exact ⟨not_dynamic_init hv hi, hf.init i hi, t, ht, by rw [(init_value hv he hi).2, ht]⟩
  · intro s k h
    by_cases hs : s = input
    · subst hs
      simp only [setOut_same, Option.some.injEq] at h
      subst h
      exact ⟨hdin, x, by simp [Spec.env0], rfl⟩
    · simp [setOut_ne _ _ hs] at h
  · intro k hk
    simp only [List.length_cons, List.length_nil] at hk
    exact ⟨input, by simp only [setOut_same]; congr 1; omega⟩
  · intro op h
    simp only [List.mem_singleton] at h
    subst h
    unfold inputOp
    split
    · split <;> rfl
    · rfl

theorem inv_all (hexp : M.exp = Real.exp) (hsqrt : M.sqrt = Real.sqrt) (hv : Valid m input out) (hf : Fits m E)
    (hok : ∀ s t, E s = some t → t.Ok) (hm : m.nodes = pre ++ post) (hI : Inv M m input x E pre Ec st vals)
    (hs : post.foldlM (Spec.step m.opset) Ec = some E) {st' : State} (hst : post.foldlM Onnx.step st = some st') :
    ∃ vals', Inv M m input x E m.nodes E st' vals' := by
  induction post generalizing pre Ec st vals with
  | nil => cases hs; cases hst; rw [hm]; simpa using ⟨vals, hI⟩
  | cons n post ih =>
    rw [List.foldlM_cons] at hs hst
    obtain ⟨Ec1, h1, hs⟩ := Option.bind_eq_some_iff.mp hs
    obtain ⟨st1, h2, hst⟩ := Option.bind_eq_some_iff.mp hst
    obtain ⟨vals1, hI1⟩ := hI.step hexp hsqrt hv hf hok hm h1 h2 hs
    exact ih (by simp [hm]) hI1 hs hst

/-! ## Links -/

/-- the pairs layer, input name, in the order of the linking loop -/
def pairs (d : List (Nat × List String)) : List (Nat × String) := d.flatMap fun e => e.2.map fun s => (e.1, s)

theorem linkAll_pairs {d : List (Nat × List String)} {ls : LinkState} :
    linkAll m d ls = (pairs d).foldlM (fun ls p => linkName m p.1 ls p.2) ls := by
  unfold linkAll pairs
  induction d generalizing ls with
  | nil => rfl
  | cons e d ih =>
    rw [List.foldlM_cons, List.flatMap_cons, List.foldlM_append, List.foldlM_map]
    congr 1
    funext l
    exact ih

/-- the linking loop after the pairs `done`; `cs` are the constants created -/
structure LInv (m : Model) (st : State) (vals : List (List ℝ)) (E : Spec.Env) (done : List (Nat × String)) (ls : LinkState) (cs : List (Nd ℝ)) : Prop where
  layers : ls.layers = st.layers ++ cs.map Op.constant
  keep : ∀ s k, st.dictOut s = some k → ls.dictOut s = some k
  val : ∀ s k, ls.dictOut s = some k → ∃ t, E s = some t ∧ (vals ++ cs.map Nd.data)[k]? = some t.data
  new : ∀ s k, ls.dictOut s = some k → st.dictOut s = none → st.layers.length ≤ k ∧ ∃ i ∈ m.inits, i.name = s
  links : List.Forall₂ (fun p l => l.2 = p.1 ∧ ls.dictOut p.2 = some l.1) done ls.links
  used : ∀ k, st.layers.length ≤ k → k < ls.layers.length → ∃ l ∈ ls.links, l.1 = k

theorem initDict_some {s : String} {i : Init} (h : initDict m s = some i) : i ∈ m.inits ∧ i.name = s := by
  unfold initDict at h
  exact ⟨by simpa using List.mem_of_find?_eq_some h, by simpa using List.find?_some h⟩

theorem link_step (hv : Valid m input out) (he : Spec.eval m input x = some E) (hlen : vals.length = st.layers.length)
    {done : List (Nat × String)} {ls ls' : LinkState} {cs : List (Nd ℝ)} (hI : LInv m st vals E done ls cs) {p : Nat × String}
    (h : linkName m p.1 ls p.2 = some ls') : ∃ cs', LInv m st vals E (done ++ [p]) ls' cs' := by
  unfold linkName at h
  split at h
  · rename_i q hq
    cases h
    refine ⟨cs, hI.layers, hI.keep, hI.val, hI.new, ?_, ?_⟩
    · exact List.rel_append hI.links (List.Forall₂.cons ⟨rfl, hq⟩ List.Forall₂.nil)
    · intro k h1 h2
      obtain ⟨l, hl, e⟩ := hI.used k h1 h2
      exact ⟨l, List.mem_append_left _ hl, e⟩
  · rename_i hq
    obtain ⟨i, hi, h⟩ := Option.bind_eq_some_iff.mp h
    obtain ⟨t, ht, h⟩ := Option.bind_eq_some_iff.mp h
    cases h
    obtain ⟨him, hin⟩ := initDict_some hi
    have hE : E p.2 = some t := by rw [← hin, (init_value hv he him).1, ht]
    have hll : ls.layers.length = (vals ++ cs.map Nd.data).length := by rw [hI.layers]; simp [hlen]
    have hmono : ∀ s k, ls.dictOut s = some k → setOut ls.dictOut p.2 (some ls.layers.length) s = some k := by
      intro s k h
      have : s ≠ p.2 := by rintro rfl; rw [hq] at h; simp at h
      rw [setOut_ne _ _ this]; exact h
    refine ⟨cs ++ [t], by simp [hI.layers], fun s k h => hmono s k (hI.keep s k h), ?_, ?_, ?_, ?_⟩
    · intro s k h
      by_cases hs : s = p.2
      · subst hs
        simp only [setOut_same, Option.some.injEq] at h
        subst h
        refine ⟨t, hE, ?_⟩
        rw [hll, List.map_append, ← List.append_assoc]
        simp
      · simp only [setOut_ne _ _ hs] at h
        obtain ⟨t', h1, h2⟩ := hI.val s k h
        refine ⟨t', h1, ?_⟩
        rw [List.map_append, ← List.append_assoc, List.getElem?_append_left (List.getElem?_eq_some_iff.mp h2).1]
        exact h2
    · intro s k h hn
      by_cases hs : s = p.2
      · subst hs
        simp only [setOut_same, Option.some.injEq] at h
        subst h
        exact ⟨by rw [hI.layers]; simp, i, him, hin⟩
      · simp only [setOut_ne _ _ hs] at h
        exact hI.new s k h hn
    · refine List.rel_append (hI.links.imp fun a b hab => ⟨hab.1, hmono _ _ hab.2⟩) (List.Forall₂.cons ⟨rfl, ?_⟩ List.Forall₂.nil)
      simp only [setOut_same]
    · intro k h1 h2
      simp only [List.length_append, List.length_cons, List.length_nil] at h2
      rcases Nat.lt_or_ge k ls.layers.length with h | h
      · obtain ⟨l, hl, e⟩ := hI.used k h1 h
        exact ⟨l, List.mem_append_left _ hl, e⟩
      · exact ⟨(ls.layers.length, p.1), by simp, by simp only; omega⟩

theorem link_all (hv : Valid m input out) (he : Spec.eval m input x = some E) (hlen : vals.length = st.layers.length)
    {done todo : List (Nat × String)} {ls ls' : LinkState} {cs : List (Nd ℝ)} (hI : LInv m st vals E done ls cs)
    (h : todo.foldlM (fun ls p => linkName m p.1 ls p.2) ls = some ls') : ∃ cs', LInv m st vals E (done ++ todo) ls' cs' := by
  induction todo generalizing done ls cs with
  | nil => cases h; simpa using ⟨cs, hI⟩
  | cons p todo ih =>
    rw [List.foldlM_cons] at h
    obtain ⟨l1, h1, h⟩ := Option.bind_eq_some_iff.mp h
    obtain ⟨cs1, hI1⟩ := link_step hv he hlen hI h1
    simpa using ih hI1 h

theorem link_start (hI : Inv M m input x E m.nodes E st vals) : LInv m st vals E [] ⟨st.layers, st.dictOut, []⟩ [] := by
  refine ⟨by simp, fun s k h => h, fun s k h => ?_, fun s k h hn => ?_, List.Forall₂.nil, fun k h1 h2 => by simp only at h2; omega⟩
  · obtain ⟨_, t, h1, h2⟩ := hI.out s k h
    exact ⟨t, h1, by simpa using h2⟩
  · simp only at h; rw [hn] at h; simp at h

/-! ## The graph -/

theorem graph_idxs (ls : LinkState) : ls.graph.idxs = List.range ls.layers.length := by
  simp [Graph.Dnn.idxs, LinkState.graph, Function.comp_def]

theorem graph_unique (ls : LinkState) : Graph.UniqueIdx ls.graph := by
  unfold Graph.UniqueIdx; rw [graph_idxs]; exact List.nodup_range

theorem graph_mem {ls : LinkState} {l : Graph.Layer} : l ∈ ls.graph ↔ ∃ k < ls.layers.length,
    l = ⟨k, (ls.links.filter fun e => e.2 = k).map (·.1), (ls.links.filter fun e => e.1 = k).map (·.2), ((ls.layers[k]?).map isConstant).getD false⟩ := by
  simp only [LinkState.graph, List.mem_map, List.mem_range]
  constructor <;> rintro ⟨k, hk, h⟩ <;> exact ⟨k, hk, h.symm⟩

theorem graph_prev (ls : LinkState) {k : Nat} (hk : k < ls.layers.length) : ls.graph.prevOf k = (ls.links.filter fun e => e.2 = k).map (·.1) :=
  Graph.prevOf_mem (graph_unique ls) (graph_mem.mpr ⟨k, hk, rfl⟩)

theorem graph_next (ls : LinkState) {k : Nat} (hk : k < ls.layers.length) : ls.graph.nextOf k = (ls.links.filter fun e => e.1 = k).map (·.2) :=
  Graph.nextOf_mem (graph_unique ls) (graph_mem.mpr ⟨k, hk, rfl⟩)

theorem graph_consistent {ls : LinkState} (h : ∀ l ∈ ls.links, l.1 < ls.layers.length ∧ l.2 < ls.layers.length) : Graph.Consistent ls.graph := by
  intro l hl
  obtain ⟨k, hk, rfl⟩ := graph_mem.mp hl
  constructor
  · intro p hp
    simp only [List.mem_map, List.mem_filter, decide_eq_true_eq] at hp
    obtain ⟨e, ⟨he, he2⟩, rfl⟩ := hp
    refine ⟨_, graph_mem.mpr ⟨e.1, (h e he).1, rfl⟩, rfl, ?_⟩
    simp only [List.mem_map, List.mem_filter, decide_eq_true_eq]
    exact ⟨e, ⟨he, rfl⟩, he2⟩
  · intro p hp
    simp only [List.mem_map, List.mem_filter, decide_eq_true_eq] at hp
    obtain ⟨e, ⟨he, he1⟩, rfl⟩ := hp
    refine ⟨_, graph_mem.mpr ⟨e.2, (h e he).2, rfl⟩, rfl, ?_⟩
    simp only [List.mem_map, List.mem_filter, decide_eq_true_eq]
    exact ⟨e, ⟨he, rfl⟩, he1⟩

theorem filter_rel {α β : Type} {R : α → β → Prop} {l : List α} {l' : List β} (h : List.Forall₂ R l l') {p : α → Bool} {q : β → Bool}
    (hpq : ∀ a b, R a b → p a = q b) : List.Forall₂ R (l.filter p) (l'.filter q) := by
  induction h with
  | nil => exact List.Forall₂.nil
  | cons hab hl ih =>
    rename_i a b l l'
    rw [List.filter_cons, List.filter_cons, hpq a b hab]
    split
    · exact List.Forall₂.cons hab ih
    · exact ih

theorem pairs_filter {d : List (Nat × List String)} (hnd : (d.map Prod.fst).Nodup) {e : Nat × List String} (he : e ∈ d) :
    (pairs d).filter (fun p => p.1 = e.1) = e.2.map fun s => (e.1, s) := by
  unfold pairs
  induction d with
  | nil => simp at he
  | cons a d ih =>
    rw [List.map_cons, List.nodup_cons] at hnd
    rw [List.flatMap_cons, List.filter_append]
    have hself : ∀ b : Nat × List String, b.1 = e.1 → (b.2.map fun s => (b.1, s)).filter (fun p => p.1 = e.1) = b.2.map fun s => (b.1, s) := by
      intro b hb
      rw [List.filter_eq_self]
      intro p hp
      obtain ⟨s, _, rfl⟩ := List.mem_map.mp hp
      simpa using hb
    have hother : ∀ b : Nat × List String, b.1 ≠ e.1 → (b.2.map fun s => (b.1, s)).filter (fun p => p.1 = e.1) = [] := by
      intro b hb
      rw [List.filter_eq_nil_iff]
      intro p hp
      obtain ⟨s, _, rfl⟩ := List.mem_map.mp hp
      simpa using hb
    rcases List.mem_cons.mp he with rfl | he'
    · rw [hself e rfl]
      have : (d.flatMap fun e => e.2.map fun s => (e.1, s)).filter (fun p => p.1 = e.1) = [] := by
        rw [List.filter_eq_nil_iff]
        intro p hp
        obtain ⟨b, hb, hp⟩ := List.mem_flatMap.mp hp
        obtain ⟨s, _, rfl⟩ := List.mem_map.mp hp
        intro hc
        simp only [decide_eq_true_eq] at hc
        exact hnd.1 (hc ▸ List.mem_map.mpr ⟨b, hb, rfl⟩)
      rw [this, List.append_nil]
    · have hne : a.1 ≠ e.1 := fun hc => hnd.1 (hc ▸ List.mem_map.mpr ⟨e, he', rfl⟩)
      rw [hother a hne, ih hnd.2 he', List.nil_append]

theorem pairs_mem {d : List (Nat × List String)} {p : Nat × String} : p ∈ pairs d ↔ ∃ e ∈ d, e.1 = p.1 ∧ p.2 ∈ e.2 := by
  unfold pairs
  simp only [List.mem_flatMap, List.mem_map]
  constructor
  · rintro ⟨e, he, s, hs, rfl⟩; exact ⟨e, he, rfl, hs⟩
  · rintro ⟨e, he, h1, h2⟩; exact ⟨e, he, p.2, h2, by rw [h1]⟩

end Verif.Onnx

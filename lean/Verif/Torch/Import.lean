import Verif.Torch.Step

/-!
# C68: the network built by the PyTorch importer computes what the exported program computes
-/

namespace Verif.Torch
open Net Graph CText
open Keras (pick pick_forall good_plan)
open scoped Classical

variable {M : CMath ℝ} {p : Program} {x : Nd ℝ} {done : List Node} {n : Node} {E : Spec.Env} {st : State} {vals : List (List ℝ)}

/-- a node that is neither the input nor a call -/
theorem inv_skip (hI : Inv M p x done E st vals) (hn : Next p done n) (hv : ¬ n.isValue) (hr : n.callReads = []) {E' : Spec.Env}
    (hE : ∀ s, s ≠ n.name → E' s = E s) (henv : ∀ t, E' n.name = some t → ∀ v, n.kind = .getAttr v → t = v) : Inv M p x (done ++ [n]) E' st vals := by
  have keep : ∀ m ∈ done, E' m.name = E m.name := fun m hm => hE _ (hn.ne hm)
  have unr : ∀ s, Unread (done ++ [n]) s ↔ Unread done s := by
    intro s
    refine ⟨unread_of, fun h c hc => ?_⟩
    rcases List.mem_append.mp hc with hc | hc
    · exact h c hc
    · simp only [List.mem_singleton] at hc
      rw [hc, hr]; simp
  have stl : ∀ s, Stale (done ++ [n]) s ↔ Stale done s := by
    intro s
    refine ⟨?_, fun h => stale_mono h n⟩
    rintro ⟨m, hm, h⟩
    rcases List.mem_append.mp hm with hm | hm
    · exact ⟨m, hm, h⟩
    · simp only [List.mem_singleton] at hm
      have := absorbs_reads h
      rw [hm, hr] at this
      cases this
  have old : ∀ m ∈ done ++ [n], m.isValue → m ∈ done := by
    intro m hm hmv
    rcases List.mem_append.mp hm with hm | hm
    · exact hm
    · simp only [List.mem_singleton] at hm
      rw [hm] at hmv
      exact absurd hmv hv
  refine ⟨hI.flow, hI.fmt, hI.covers, ?_, ?_, ?_, ?_, ?_, ?_, ?_, hI.simple⟩
  · intro e he
    obtain ⟨m, hm, h⟩ := hI.known e he
    exact ⟨m, by simp [hm], h⟩
  · intro s t h
    by_cases hs : s = n.name
    · subst hs
      exact ⟨n, by simp, rfl, henv t h⟩
    · rw [hE s hs] at h
      obtain ⟨m, hm, h⟩ := hI.env s t h
      exact ⟨m, by simp [hm], h⟩
  · exact inv_closed hI (by rw [hr]; simp)
  · intro m hm hmv
    obtain ⟨k, t, hh⟩ := hI.held m (old m hm hmv) hmv
    refine ⟨k, t, hh.look, hh.lt, by rw [keep m (old m hm hmv)]; exact hh.env, hh.ok, hh.dims, by rw [stl]; exact hh.val, ?_⟩
    intro hf hu
    rw [unr] at hu
    obtain ⟨o1, o2, o3, o4⟩ := hh.opened hf hu
    refine ⟨o1, o2, fun m' hm' hv' sh h => ?_, o4⟩
    rw [stl]
    exact o3 m' (old m' hm' hv') hv' sh h
  · intro k hk
    rcases hI.used k hk with h | ⟨m, hm, h1, h2, h3⟩
    · exact .inl h
    · exact .inr ⟨m, by simp [hm], h1, h2, (unr _).mpr h3⟩
  · intro d hd
    obtain ⟨s, t, h1, h2⟩ := hI.among d hd
    obtain ⟨m, hm, e, _⟩ := hI.env s t h1
    exact ⟨s, t, by rw [← e, keep m hm, e]; exact h1, h2⟩
  · intro m hm m' hm' hv hv' ha ha' hs hs'
    rw [stl] at hs hs'
    exact hI.distinct m (old m hm hv) m' (old m' hm' hv') hv hv' ha ha' hs hs'

theorem step_keep {E E' : Spec.Env} (h : Spec.step x E n = some E') {s : String} (hs : s ≠ n.name) : E' s = E s := by
  unfold Spec.step at h
  split at h
  · cases h; exact if_neg hs
  · cases h; exact if_neg hs
  · obtain ⟨_, _, h⟩ := Option.bind_eq_some_iff.mp h
    obtain ⟨_, _, h⟩ := Option.bind_eq_some_iff.mp h
    obtain ⟨_, _, h⟩ := Option.bind_eq_some_iff.mp h
    cases h
    exact if_neg hs
  · cases h; rfl
  · cases h

theorem eval_keep {l : List Node} {E E' : Spec.Env} (h : l.foldlM (Spec.step x) E = some E') {s : String} (hs : ∀ m ∈ l, s ≠ m.name) : E' s = E s := by
  induction l generalizing E with
  | nil => cases h; rfl
  | cons n l ih =>
    rw [List.foldlM_cons] at h
    obtain ⟨E1, h1, h⟩ := Option.bind_eq_some_iff.mp h
    rw [ih h (fun m hm => hs m (by simp [hm])), step_keep h1 (hs n (by simp))]

theorem notValue {n : Node} (h1 : ∀ l, n.kind ≠ .placeholder l) (h2 : ∀ t a k, n.kind ≠ .call t a k) : ¬ n.isValue ∧ n.callReads = [] := by
  unfold Node.isValue Node.callReads
  cases hk : n.kind with
  | placeholder l => exact absurd hk (h1 l)
  | call t a k => exact absurd hk (h2 t a k)
  | getAttr v => simp
  | output s => simp
  | other => simp

/-- the visit of the nodes after the input -/
theorem visit_rest (hnames : (p.nodes.map Node.name).Nodup) (hsup : ∀ n ∈ p.nodes, ∀ t args kw, n.kind = .call t args kw → Supported p n)
    (hshapes : ∀ n ∈ p.nodes, n.isValue → n.shape.length ≤ 4 ∧ ∀ d ∈ n.shape, 0 < d) {E' : Spec.Env} (hf : Fits p E') (rest : List Node) :
    ∀ {done : List Node} {E : Spec.Env} {st : State} {vals : List (List ℝ)}, p.nodes = done ++ rest → (∀ m ∈ rest, ∀ l, m.kind ≠ .placeholder l) →
    Inv M p x done E st vals → rest.foldlM (Spec.step x) E = some E' → ∃ st' vals', rest.foldlM p.step st = some st' ∧ Inv M p x p.nodes E' st' vals' := by
  induction rest with
  | nil =>
    intro done E st vals hp _ hI he
    cases he
    rw [List.append_nil] at hp
    exact ⟨st, vals, rfl, by rw [hp]; exact hI⟩
  | cons n rest ih =>
    intro done E st vals hp hph hI he
    have hn : Next p done n := ⟨hnames, hsup, rest, hp⟩
    rw [List.foldlM_cons] at he
    obtain ⟨E1, h1, he⟩ := Option.bind_eq_some_iff.mp he
    have hp' : p.nodes = (done ++ [n]) ++ rest := by rw [hp]; simp
    have hph' : ∀ m ∈ rest, ∀ l, m.kind ≠ .placeholder l := fun m hm => hph m (by simp [hm])
    have hrest : ∀ m ∈ rest, n.name ≠ m.name := by
      intro m hm
      have h := hnames
      rw [hp, List.map_append, List.map_cons] at h
      have := (List.nodup_cons.mp (List.nodup_append.mp h).2.1).1
      intro e
      exact this (by rw [e]; exact List.mem_map_of_mem hm)
    have next : ∀ st1 vals1, p.step st n = some st1 → Inv M p x (done ++ [n]) E1 st1 vals1 →
        ∃ st' vals', (n :: rest).foldlM p.step st = some st' ∧ Inv M p x p.nodes E' st' vals' := by
      intro st1 vals1 hs hI1
      obtain ⟨st', vals', g1, g2⟩ := ih hp' hph' hI1 he
      exact ⟨st', vals', by rw [List.foldlM_cons, hs]; exact g1, g2⟩
    have hkeep : E' n.name = E1 n.name := eval_keep he hrest
    cases hk : n.kind with
    | placeholder l => exact absurd hk (hph n (by simp) l)
    | getAttr v =>
      obtain ⟨hv, hr⟩ := notValue (hph n (by simp)) (n := n) (by rw [hk]; simp)
      refine next st vals (by unfold Program.step; rw [hk]) (inv_skip hI hn hv hr (fun s hs => step_keep h1 hs) ?_)
      unfold Spec.step at h1
      rw [hk] at h1
      cases h1
      intro t ht v' hv'
      rw [hk] at hv'
      cases hv'
      simp at ht
      exact ht.symm
    | call t args kw =>
      unfold Spec.step at h1
      rw [hk] at h1
      obtain ⟨vs, hvs, h1⟩ := Option.bind_eq_some_iff.mp h1
      obtain ⟨kvs, hkv, h1⟩ := Option.bind_eq_some_iff.mp h1
      obtain ⟨y, hy, h1⟩ := Option.bind_eq_some_iff.mp h1
      cases h1
      have hd : y.dims = n.shape := by
        refine hf n hn.mem (value_of hk) y ?_
        rw [hkeep]
        exact if_pos rfl
      obtain ⟨st1, vals1, hs, hI1⟩ := go_call hI hn hd hshapes hk hvs hkv hy
      exact next st1 vals1 (by unfold Program.step; rw [hk]; exact hs) hI1
    | output s =>
      obtain ⟨hv, hr⟩ := notValue (hph n (by simp)) (n := n) (by rw [hk]; simp)
      refine next st vals (by unfold Program.step; rw [hk]) (inv_skip hI hn hv hr (fun s hs => step_keep h1 hs) ?_)
      intro t _ v' hv'
      rw [hk] at hv'
      cases hv'
    | other =>
      unfold Spec.step at h1
      rw [hk] at h1
      cases h1

/-- the nodes before the input -/
theorem visit_params {pre : List Node} (hpre : ∀ m ∈ pre, m.isParam) : ∀ (st : State), pre.foldlM p.step st = some st := by
  induction pre with
  | nil => intro st; rfl
  | cons n pre ih =>
    intro st
    obtain ⟨v, hv⟩ := hpre n (by simp)
    rw [List.foldlM_cons, show p.step st n = some st by unfold Program.step; rw [hv]]
    exact ih (fun m hm => hpre m (by simp [hm])) st

theorem eval_params {pre : List Node} (hpre : ∀ m ∈ pre, m.isParam) (hnd : (pre.map Node.name).Nodup) {E : Spec.Env}
    (h : pre.foldlM (Spec.step x) (fun _ => none) = some E) : ∀ s t, E s = some t → ∃ m ∈ pre, m.name = s ∧ ∀ v, m.kind = .getAttr v → t = v := by
  induction pre using List.reverseRecOn generalizing E with
  | nil => cases h; intro s t h; cases h
  | append_singleton pre n ih =>
    rw [List.foldlM_append] at h
    obtain ⟨E1, h1, h⟩ := Option.bind_eq_some_iff.mp h
    rw [List.foldlM_cons] at h
    obtain ⟨E2, h2, h⟩ := Option.bind_eq_some_iff.mp h
    cases h
    obtain ⟨v, hv⟩ := hpre n (by simp)
    rw [List.map_append] at hnd
    intro s t hs
    by_cases he : s = n.name
    · subst he
      unfold Spec.step at h2
      rw [hv] at h2
      cases h2
      simp at hs
      refine ⟨n, by simp, rfl, fun v' hv' => ?_⟩
      rw [hv] at hv'
      cases hv'
      exact hs.symm
    · rw [step_keep h2 he] at hs
      obtain ⟨m, hm, h⟩ := ih (fun m hm => hpre m (by simp [hm])) (List.nodup_append.mp hnd).1 h1 s t hs
      exact ⟨m, by simp [hm], h⟩

/-- the input -/
theorem inv_input {pre post : List Node} (hnames : (p.nodes.map Node.name).Nodup) (hp : p.nodes = pre ++ n :: post) (hpre : ∀ m ∈ pre, m.isParam) (hk : n.kind = .placeholder false)
    (hx : x.Ok) (hd : x.dims = n.shape) {op : Op ℝ} (hop : inputOp n.shape = some op) {E : Spec.Env} (he : pre.foldlM (Spec.step x) (fun _ => none) = some E) :
    Inv M p x (pre ++ [n]) (E.set n.name x) ⟨⟨[(0, op)], [], 0⟩, [(n.name, 0, n.shape)], .first⟩ [x.data] := by
  have hpv : ∀ m ∈ pre, ¬ m.isValue ∧ m.callReads = [] := by
    intro m hm
    obtain ⟨v, hv⟩ := hpre m hm
    exact notValue (by rw [hv]; simp) (by rw [hv]; simp)
  have hnv : n.isValue := by simp [Node.isValue, hk]
  have hnr : n.callReads = [] := by simp [Node.callReads, hk]
  have hnf : ¬ n.fuses := by rintro ⟨t, a, k, h, _⟩; rw [hk] at h; cases h
  have only : ∀ m ∈ pre ++ [n], m.isValue → m = n := by
    intro m hm hv
    rcases List.mem_append.mp hm with hm | hm
    · exact absurd hv (hpv m hm).1
    · simpa using hm
  have noreads : ∀ c ∈ pre ++ [n], c.callReads = [] := by
    intro c hc
    rcases List.mem_append.mp hc with hc | hc
    · exact (hpv c hc).2
    · simp only [List.mem_singleton] at hc
      rw [hc, hnr]
  have hne : ∀ m ∈ pre, m.name ≠ n.name := by
    intro m hm
    have := hnames
    rw [hp, List.map_append, List.map_cons] at this
    exact (List.nodup_append.mp this).2.2 _ (List.mem_map_of_mem hm) _ (by simp)
  have hlook : State.look ⟨⟨[(0, op)], [], 0⟩, [(n.name, 0, n.shape)], .first⟩ n.name = some (0, n.shape) := by simp [State.look]
  refine ⟨⟨⟨?_, by simp⟩, rfl, hx, ⟨op, by rw [hd]; exact hop, rfl, rfl⟩, ?_⟩, rfl, Covers.nil.new, ?_, ?_, ?_, ?_, ?_, ?_, ?_, ?_⟩
  · simp
  · intro k op' hk1 h
    rw [List.getElem?_eq_none (by simpa using hk1)] at h
    cases h
  · intro e he'
    simp only [List.mem_singleton] at he'
    subst he'
    exact ⟨n, by simp, hnv, rfl⟩
  · intro s t h
    by_cases hs : s = n.name
    · subst hs
      refine ⟨n, by simp, rfl, fun v hv => ?_⟩
      rw [hk] at hv; cases hv
    · rw [set_other E x hs] at h
      have hnd : (pre.map Node.name).Nodup := by
        have := hnames
        rw [hp, List.map_append] at this
        exact (List.nodup_append.mp this).1
      obtain ⟨m, hm, h⟩ := eval_params hpre hnd he s t h
      exact ⟨m, by simp [hm], h⟩
  · intro c hc s hs
    rw [noreads c hc] at hs
    cases hs
  · intro m hm hv
    cases only m hm hv
    exact ⟨0, x, ⟨_, hlook, .inl hd.symm⟩, by simp, set_same E _ x, hx, hd, .inr rfl, fun h => absurd h hnf⟩
  · intro k hk'
    have : k = 0 := by simpa using hk'
    subst this
    exact .inr ⟨n, by simp, hnv, ⟨_, hlook⟩, fun c hc => by rw [noreads c hc]; simp⟩
  · intro d hd'
    simp only [List.mem_singleton] at hd'
    exact ⟨n.name, x, set_same E _ x, hd'.symm⟩
  · intro m hm m' hm' hv hv' _ _ _ _ k sh sh' _ _
    rw [only m hm hv, only m' hm' hv']
  · intro _ k
    simp [preds]

variable {out : String}

/-- the state built by the visit -/
theorem import_core (hv : Valid p out) (hx : x.Ok) {E : Spec.Env} (he : Spec.eval p x = some E) (hf : Fits p E) :
    ∃ st vals, p.built = some st ∧ Inv M p x p.nodes E st vals ∧ x.dims.head? = some 1 := by
  obtain ⟨pre, n, post, hp, hpre, hk, hb, hpost⟩ := hv.input
  have hnm : n ∈ p.nodes := by rw [hp]; simp
  have hnv : n.isValue := by simp [Node.isValue, hk]
  unfold Spec.eval at he
  rw [hp, List.foldlM_append] at he
  obtain ⟨E1, h1, he⟩ := Option.bind_eq_some_iff.mp he
  rw [List.foldlM_cons] at he
  obtain ⟨E2, h2, he⟩ := Option.bind_eq_some_iff.mp he
  have hE2 : E2 = E1.set n.name x := by
    unfold Spec.step at h2
    rw [hk] at h2
    cases h2
    rfl
  subst hE2
  have hrest : ∀ m ∈ post, n.name ≠ m.name := by
    intro m hm
    have h := hv.names
    rw [hp, List.map_append, List.map_cons] at h
    have := (List.nodup_cons.mp (List.nodup_append.mp h).2.1).1
    intro e
    exact this (by rw [e]; exact List.mem_map_of_mem hm)
  have hd : x.dims = n.shape := by
    refine hf n hnm hnv x ?_
    rw [eval_keep he hrest, set_same]
  have hop : ∃ op, inputOp n.shape = some op := by
    unfold inputOp
    rw [if_pos (hv.shapes n hnm hnv).2]
    exact ⟨_, rfl⟩
  obtain ⟨op, hop⟩ := hop
  have hI := inv_input (M := M) hv.names hp hpre hk hx hd hop h1
  obtain ⟨st, vals, g1, g2⟩ := visit_rest hv.names hv.supported hv.shapes hf post (by rw [hp]; simp) hpost hI he
  refine ⟨st, vals, ?_, g2, by rw [hd]; exact hb⟩
  unfold Program.built
  rw [hp, List.foldlM_append, visit_params hpre, Option.bind_eq_bind, Option.bind_some, List.foldlM_cons]
  have : p.step ⟨⟨[], [], 0⟩, [], .first⟩ n = some ⟨⟨[(0, op)], [], 0⟩, [(n.name, 0, n.shape)], .first⟩ := by
    unfold Program.step
    rw [hk]
    simp [hop, State.push]
  rw [this]
  exact g1

/-- the last layer has the output, all others are used -/
theorem import_end (hv : Valid p out) {E : Spec.Env} (hI : Inv M p x p.nodes E st vals) {y : Nd ℝ} (hy : E out = some y) :
    st.net.Used ∧ vals.getLast? = some y.data := by
  obtain ⟨n, hn, hnv, rfl⟩ := hv.made
  obtain ⟨k, t, hh⟩ := hI.held n hn hnv
  rw [hh.env] at hy
  cases hy
  obtain ⟨sh, hl, _⟩ := hh.look
  have hused : ∀ j < st.net.layers.length, j ≠ k → ∃ l ∈ st.net.links, l.1 = j := by
    intro j hj hjk
    rcases hI.used j hj with h | ⟨m, hm, hmv, ⟨sh', h⟩, hu⟩
    · exact h
    · by_cases e : m.name = n.name
      · rw [e, hl] at h
        cases h
        exact absurd rfl hjk
      · obtain ⟨c, hc, hr⟩ := hv.live m hm hmv e
        exact absurd hr (hu c hc)
  have hpos := flow_pos hI.flow
  have hkl : k = st.net.layers.length - 1 := by
    by_contra hcon
    obtain ⟨l, hl, e⟩ := hused (st.net.layers.length - 1) (by omega) (fun e => hcon e.symm)
    have := hI.flow.good.links l hl
    omega
  have hns : ¬ Stale p.nodes n.name := by
    rintro ⟨m, hm, h⟩
    exact hv.unread m hm (absorbs_reads h)
  refine ⟨fun j hj => hused j (by omega) (by omega), ?_⟩
  rw [List.getLast?_eq_getElem?, hI.flow.length, ← hkl]
  exact hh.val.resolve_left hns

/-- **C68** (partial: the operators and restrictions of `Supported` and `Valid`; exact real arithmetic).  Take an exported PyTorch program `p`, an input `x`, values
`E` of its nodes, with the shapes that PyTorch declared, and the value `y` of the returned tensor.  Then the importer accepts `p`, the network has an execution
order, and acetone's interpreter returns the elements of `y`. -/
theorem C68_import_correct_partial (hv : Valid p out) (hx : x.Ok) {E : Spec.Env} (he : Spec.eval p x = some E) (hf : Fits p E) {y : Nd ℝ}
    (hy : Spec.output p x = some y) : ∃ net plan, loadTorch p = some (net, plan) ∧ net.reference M plan x = some y.data := by
  obtain ⟨st, vals, hst, hI, hb⟩ := import_core (M := M) hv hx he hf
  have hyE : E out = some y := by
    unfold Spec.output at hy
    rw [he, hv.returned] at hy
    exact hy
  obtain ⟨hu, hlast⟩ := import_end hv hI hyE
  obtain ⟨plan, hplan⟩ := good_plan hI.flow.good (by have := flow_pos hI.flow; intro h; rw [h] at this; simp at this)
  have hlisted := listed_triTopo hI.flow.good hI.covers
  have hnet : st.network = net st.net := by
    unfold State.network net
    rw [hI.fmt]
  refine ⟨net st.net, plan, ?_, flow_reference hI.flow hb hu hplan hlast⟩
  unfold loadTorch
  rw [hst]
  simp only [Option.bind_eq_bind, Option.bind_some]
  rw [hlisted, show triTopo st.net.graph = some plan from hplan, Option.bind_some, hnet]

/-- **C68** (partial, as above).  The first layer to be executed is the input, with the channels, the height and the width of the tensor given to the program. -/
theorem C68_input_shape_partial (hv : Valid p out) (hx : x.Ok) {E : Spec.Env} (he : Spec.eval p x = some E) (hf : Fits p E) {y : Nd ℝ}
    (hy : Spec.output p x = some y) {c h w : Nat} (hd : x.dims = [1, c, h, w]) :
    ∃ net plan first, loadTorch p = some (net, plan) ∧ plan.order.head? = some first ∧ net.op first = .input true ⟨c, h, w⟩ := by
  obtain ⟨st, vals, hst, hI, hb⟩ := import_core (M := ⟨Real.exp, Real.sqrt, 0⟩) hv hx he hf
  have hyE : E out = some y := by
    unfold Spec.output at hy
    rw [he, hv.returned] at hy
    exact hy
  obtain ⟨hu, hlast⟩ := import_end hv hI hyE
  obtain ⟨plan, hplan⟩ := good_plan hI.flow.good (by have := flow_pos hI.flow; intro h; rw [h] at this; simp at this)
  have hlisted := listed_triTopo hI.flow.good hI.covers
  have hnet : st.network = net st.net := by
    unfold State.network net
    rw [hI.fmt]
  refine ⟨net st.net, plan, 0, ?_, (flow_ends hI.flow hu hplan).1, ?_⟩
  · unfold loadTorch
    rw [hst]
    simp only [Option.bind_eq_bind, Option.bind_some]
    rw [hlisted, show triTopo st.net.graph = some plan from hplan, Option.bind_some, hnet]
  · obtain ⟨op, h1, h2, _⟩ := hI.flow.first
    rw [show (net st.net).op 0 = _ from Keras.net_op hI.flow.good h2]
    rw [hd] at h1
    unfold inputOp at h1
    simp only [Option.ite_none_right_eq_some, Option.some.injEq] at h1
    exact h1.2.symm

end Verif.Torch

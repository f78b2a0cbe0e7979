import Verif.Torch.Inv

/-!
# The three effects of a call on the layers: a new layer, a new name for a layer, a layer changed in place
-/

namespace Verif.Torch
open Net Graph CText
open Onnx (prod)
open Keras (pick pick_forall pick_append pick_bound good_push)
open scoped Classical

variable {M : CMath ℝ} {p : Program} {x : Nd ℝ} {done : List Node} {n : Node} {E : Spec.Env} {st : State} {vals : List (List ℝ)}

/-- the environment after a node -/
def Spec.Env.set (E : Spec.Env) (s : String) (y : Nd ℝ) : Spec.Env := fun s' => if s' = s then some y else E s'

theorem set_same (E : Spec.Env) (s : String) (y : Nd ℝ) : E.set s y s = some y := if_pos rfl

theorem set_other (E : Spec.Env) {s s' : String} (y : Nd ℝ) (h : s' ≠ s) : E.set s y s' = E s' := if_neg h

/-- the parts of the invariant that only depend on the nodes -/
theorem inv_env (hI : Inv M p x done E st vals) (hval : n.isValue) (y : Nd ℝ) :
    ∀ s t, E.set n.name y s = some t → ∃ m ∈ done ++ [n], m.name = s ∧ ∀ v, m.kind = .getAttr v → t = v := by
  intro s t h
  by_cases hs : s = n.name
  · subst hs
    refine ⟨n, by simp, rfl, fun v hv => ?_⟩
    simp [Node.isValue, hv] at hval
  · rw [set_other E y hs] at h
    obtain ⟨m, hm, h⟩ := hI.env s t h
    exact ⟨m, by simp [hm], h⟩

theorem inv_closed (hI : Inv M p x done E st vals) (hr : ∀ s ∈ n.callReads, ∃ m ∈ done, m.name = s) :
    ∀ c ∈ done ++ [n], ∀ s ∈ c.callReads, ∃ m ∈ done ++ [n], m.name = s := by
  intro c hc s hs
  rcases List.mem_append.mp hc with hc | hc
  · obtain ⟨m, hm, h⟩ := hI.closed c hc s hs
    exact ⟨m, by simp [hm], h⟩
  · simp only [List.mem_singleton] at hc
    subst hc
    obtain ⟨m, hm, h⟩ := hr s hs
    exact ⟨m, by simp [hm], h⟩

theorem inv_unread (hI : Inv M p x done E st vals) (hn : Next p done n) (hr : ∀ s ∈ n.callReads, ∃ m ∈ done, m.name = s) : Unread (done ++ [n]) n.name := by
  intro c hc h
  rcases List.mem_append.mp hc with hc | hc
  · exact hI.unread hn c hc h
  · simp only [List.mem_singleton] at hc
    subst hc
    obtain ⟨m, hm, h⟩ := hr _ h
    exact hn.ne hm h

theorem preds_push (hg : st.net.Good) {ks : List Nat} (k : Nat) (layers : List (Nat × Op ℝ)) (nb : Nat) :
    preds ⟨layers, st.net.links ++ ks.map fun q => (q, st.net.layers.length), nb⟩ k =
      if k = st.net.layers.length then ks else preds st.net k := by
  unfold preds
  rw [List.filter_append, List.map_append]
  split
  · rename_i hk
    rw [List.filter_eq_nil_iff.mpr (by
      intro e he
      have := (hg.links e he).2
      simp only [decide_eq_true_eq]; omega), List.filter_eq_self.mpr (by
      intro e he'; obtain ⟨p, _, rfl⟩ := List.mem_map.mp he'; simp [hk])]
    simp [Function.comp_def]
  · rename_i hk
    rw [List.filter_eq_nil_iff (l := List.map _ _) |>.mpr (by
      intro e he'; obtain ⟨p, _, rfl⟩ := List.mem_map.mp he'; simp only [decide_eq_true_eq]; omega)]
    simp

/-- a new layer -/
theorem inv_push (hI : Inv M p x done E st vals) (hn : Next p done n) (hval : n.isValue) {ss : List String} {ks : List Nat} {ds : List (List ℝ)}
    (hl : List.Forall₂ (fun s k => ∃ sh, st.look s = some (k, sh)) ss ks) (hp : pick vals ks = some ds) (hne : ds ≠ [])
    (hss : ∀ s ∈ ss, s ∈ n.callReads) (hreads : ∀ s ∈ n.callReads, s ∈ ss ∨ ∃ m ∈ done, m.name = s ∧ ¬ m.isValue)
    {op : Op ℝ} {y : Nd ℝ} (hg : Gives M op ds y.data) (hc : Coded op ds y.data) (hok : y.Ok) (hd : y.dims = n.shape)
    (hf : n.fuses → Fusing op ∧ (n.isConv → Rescales M op ds y)) (hplain : p.Plain → ks.Nodup) :
    Inv M p x (done ++ [n]) (E.set n.name y) (st.push n.name n.shape op ks) (vals ++ [y.data]) := by
  have hnew := hI.new hn
  have hgood := hI.flow.good
  have hlen := hI.flow.length
  have hr : ∀ s ∈ n.callReads, ∃ m ∈ done, m.name = s := by
    intro s hs
    rcases hreads s hs with h | ⟨m, hm, h, _⟩
    · obtain ⟨i, hi, rfl⟩ := List.mem_iff_getElem.mp h
      obtain ⟨sh, h⟩ := (List.forall₂_iff_get.mp hl).2 i hi (by rw [← hl.length_eq]; exact hi)
      obtain ⟨m, hm, _, e⟩ := hI.known _ (look_mem h)
      exact ⟨m, hm, e⟩
    · exact ⟨m, hm, h⟩
  have hun := inv_unread hI hn hr
  have hlook : ∀ m ∈ done, m.isValue → ∀ e, (st.push n.name n.shape op ks).look m.name = some e → st.look m.name = some e := by
    intro m hm hmv e he
    obtain ⟨k, t, hh⟩ := hI.held m hm hmv
    obtain ⟨sh, h, _⟩ := hh.look
    have : (st.push n.name n.shape op ks).look m.name = some (k, sh) := by
      rw [look_dic (st := st.push n.name n.shape op ks) (st' := { st with dic := st.dic ++ [(n.name, st.net.layers.length, n.shape)] }) rfl]
      exact look_append h
    rw [this] at he
    cases he
    exact h
  have hlook' : ∀ s e, st.look s = some e → (st.push n.name n.shape op ks).look s = some e := by
    intro s e h
    rw [look_dic (st := st.push n.name n.shape op ks) (st' := { st with dic := st.dic ++ [(n.name, st.net.layers.length, n.shape)] }) rfl]
    exact look_append h
  have hlookn : (st.push n.name n.shape op ks).look n.name = some (st.net.layers.length, n.shape) := by
    rw [look_dic (st := st.push n.name n.shape op ks) (st' := { st with dic := st.dic ++ [(n.name, st.net.layers.length, n.shape)] }) rfl]
    exact look_new hnew
  have hlt : ∀ m ∈ done, m.isValue → ∀ k sh, st.look m.name = some (k, sh) → k < st.net.layers.length := by
    intro m hm hmv k sh h
    obtain ⟨k', t, hh⟩ := hI.held m hm hmv
    obtain ⟨sh', h', _⟩ := hh.look
    rw [h] at h'
    cases h'
    exact hh.lt
  have hkl : ∀ k ∈ ks, k < st.net.layers.length := by
    have := pick_bound hp
    rwa [hlen] at this
  refine ⟨flow_push hI.flow hp hne hg hc _, hI.fmt, ?_, ?_, inv_env hI hval y, inv_closed hI hr, ?_, ?_, ?_, ?_, ?_⟩
  · have := hI.covers.new
    simpa [State.push] using this
  · intro e he
    simp only [State.push, List.mem_append, List.mem_singleton] at he
    rcases he with he | rfl
    · obtain ⟨m, hm, h⟩ := hI.known e he
      exact ⟨m, by simp [hm], h⟩
    · exact ⟨n, by simp, hval, rfl⟩
  · intro m hm hmv
    rcases List.mem_append.mp hm with hm | hm
    · obtain ⟨k, t, hh⟩ := hI.held m hm hmv
      refine ⟨k, t, ?_⟩
      obtain ⟨sh, h1, h2⟩ := hh.look
      refine ⟨⟨sh, hlook' _ _ h1, h2⟩, by simp only [State.push, List.length_append]; have := hh.lt; omega, ?_, hh.ok, hh.dims, ?_, ?_⟩
      · rw [set_other E y (hn.ne hm)]; exact hh.env
      · rcases hh.val with h | h
        · exact .inl (stale_mono h n)
        · refine .inr ?_
          rw [List.getElem?_append_left (by rw [hlen]; exact hh.lt)]; exact h
      · intro hmf hmu
        obtain ⟨o1, o2, o3, op', xs, o4, o5, o6⟩ := hh.opened hmf (unread_of hmu)
        refine ⟨o1, ?_, ?_, op', xs, ?_, ?_, o6⟩
        · intro l hl'
          simp only [State.push, List.mem_append, List.mem_map] at hl'
          rcases hl' with hl' | ⟨q, hq, rfl⟩
          · exact o2 l hl'
          · intro e
            simp only at e
            subst e
            obtain ⟨i, hi, rfl⟩ := List.mem_iff_getElem.mp hq
            have hi' : i < ss.length := by rw [hl.length_eq]; exact hi
            obtain ⟨sh', h⟩ := (List.forall₂_iff_get.mp hl).2 i hi' hi
            have hin := hss _ (List.getElem_mem hi')
            obtain ⟨m', hm', hv', e⟩ := hI.known _ (look_mem h)
            simp only [List.get_eq_getElem] at h e
            rw [← e] at h hin
            rcases o3 m' hm' hv' sh' h with e1 | e1
            · rw [e1] at hin
              exact unread_last hmu hin
            · exact hn.fresh hin e1
        · intro m' hm' hv' sh' h
          rcases List.mem_append.mp hm' with hm' | hm'
          · rcases o3 m' hm' hv' sh' (hlook m' hm' hv' _ h) with e | e
            · exact .inl e
            · exact .inr (stale_mono e n)
          · simp only [List.mem_singleton] at hm'
            subst hm'
            rw [hlookn] at h
            cases h
            exact absurd hh.lt (by omega)
        · simp only [State.push]
          rw [List.getElem?_append_left hh.lt]; exact o4
        · simp only [State.push]
          rw [preds_push hgood, if_neg (by have := hh.lt; omega)]
          exact pick_append o5 _
    · simp only [List.mem_singleton] at hm
      subst hm
      refine ⟨st.net.layers.length, y, ⟨_, hlookn, .inl hd.symm⟩, by simp [State.push], set_same E _ y, hok, hd, .inr ?_, ?_⟩
      · rw [← hlen, List.getElem?_append_right (le_refl _)]; simp
      · intro hmf hmu
        refine ⟨flow_pos hI.flow, ?_, ?_, op, ds, ?_, ?_, hne, (hf hmf).1, hg, hc, (hf hmf).2⟩
        · intro l hl'
          simp only [State.push, List.mem_append, List.mem_map] at hl'
          rcases hl' with hl' | ⟨q, hq, rfl⟩
          · have := hgood.links l hl'
            omega
          · have := hkl q hq
            simp only; omega
        · intro m' hm' hv' sh' h
          rcases List.mem_append.mp hm' with hm' | hm'
          · have := hlt m' hm' hv' _ _ (hlook m' hm' hv' _ h)
            exact absurd this (by omega)
          · simp only [List.mem_singleton] at hm'
            exact .inl (by rw [hm'])
        · simp only [State.push]
          rw [List.getElem?_append_right (le_refl _)]; simp
        · simp only [State.push]
          rw [preds_push hgood, if_pos rfl]
          exact pick_append hp _
  · intro k hk
    simp only [State.push, List.length_append, List.length_singleton] at hk
    rcases Nat.lt_or_ge k st.net.layers.length with hlt' | hge
    · rcases hI.used k hlt' with ⟨l, hl', e⟩ | ⟨m, hm, hv, ⟨sh, h⟩, hu⟩
      · exact .inl ⟨l, by simp [State.push, hl'], e⟩
      · by_cases hmr : m.name ∈ n.callReads
        · rcases hreads _ hmr with h1 | ⟨m', hm', e, hv'⟩
          · obtain ⟨i, hi, e⟩ := List.mem_iff_getElem.mp h1
            have hi' : i < ks.length := by rw [← hl.length_eq]; exact hi
            obtain ⟨sh', h'⟩ := (List.forall₂_iff_get.mp hl).2 i hi hi'
            simp only [List.get_eq_getElem] at h'
            rw [e, h] at h'
            cases h'
            refine .inl ⟨(ks[i], st.net.layers.length), ?_, rfl⟩
            simp [State.push]
          · rw [node_eq hn.names (hn.sub hm') (hn.sub hm) e] at hv'
            exact absurd hv hv'
        · refine .inr ⟨m, by simp [hm], hv, ⟨sh, hlook' _ _ h⟩, ?_⟩
          intro c hc'
          rcases List.mem_append.mp hc' with hc' | hc'
          · exact hu c hc'
          · simp only [List.mem_singleton] at hc'
            rw [hc']; exact hmr
    · have : k = st.net.layers.length := by omega
      exact .inr ⟨n, by simp, hval, ⟨_, by rw [this]; exact hlookn⟩, hun⟩
  · intro d hd'
    rcases List.mem_append.mp hd' with h | h
    · obtain ⟨s, t, h1, h2⟩ := hI.among d h
      refine ⟨s, t, ?_, h2⟩
      obtain ⟨m, hm, e, _⟩ := hI.env s t h1
      rw [← e, set_other E y (hn.ne hm), e]; exact h1
    · simp only [List.mem_singleton] at h
      exact ⟨n.name, y, set_same E _ y, h.symm⟩
  · intro m hm m' hm' hv hv' ha ha' hs hs' k sh sh' h h'
    rcases List.mem_append.mp hm with h1 | h1 <;> rcases List.mem_append.mp hm' with h2 | h2
    · exact hI.distinct m h1 m' h2 hv hv' ha ha' (fun e => hs (stale_mono e n)) (fun e => hs' (stale_mono e n)) k sh sh' (hlook m h1 hv _ h) (hlook m' h2 hv' _ h')
    · simp only [List.mem_singleton] at h2
      subst h2
      rw [hlookn] at h'
      cases h'
      exact absurd (hlt m h1 hv _ _ (hlook m h1 hv _ h)) (by omega)
    · simp only [List.mem_singleton] at h1
      subst h1
      rw [hlookn] at h
      cases h
      exact absurd (hlt m' h2 hv' _ _ (hlook m' h2 hv' _ h')) (by omega)
    · simp only [List.mem_singleton] at h1 h2
      rw [h1, h2]
  · intro hpl k
    simp only [State.push]
    rw [preds_push hgood]
    split
    · exact hplain hpl
    · exact hI.simple hpl k

/-- a new name for a layer -/
theorem inv_alias (hI : Inv M p x done E st vals) (hn : Next p done n) (hval : n.isValue) (hal : n.isAlias) (hnf : ¬ n.fuses) {m0 : Node} (hm0 : m0 ∈ done)
    (hv0 : m0.isValue) (hs : ∀ s, s ∈ n.callReads ↔ s = m0.name) {k : Nat} {sh : List Nat} (hl : st.look m0.name = some (k, sh)) {t y : Nd ℝ}
    (ht : E m0.name = some t) (hyt : y.data = t.data) (hok : y.Ok) (hd : y.dims = n.shape) (hsh : sh = y.dims ∨ y.dims.length < 4) :
    Inv M p x (done ++ [n]) (E.set n.name y) (st.alias n.name (k, sh)) vals := by
  have hnew := hI.new hn
  have hr : ∀ s ∈ n.callReads, ∃ m ∈ done, m.name = s := fun s h => ⟨m0, hm0, ((hs s).mp h).symm⟩
  have hun := inv_unread hI hn hr
  have hlook' : ∀ s e, st.look s = some e → (st.alias n.name (k, sh)).look s = some e := fun s e h => look_append h
  have hlookn : (st.alias n.name (k, sh)).look n.name = some (k, sh) := look_new hnew
  have hlook : ∀ m ∈ done, m.isValue → ∀ e, (st.alias n.name (k, sh)).look m.name = some e → st.look m.name = some e := by
    intro m hm hmv e he
    obtain ⟨k, t, hh⟩ := hI.held m hm hmv
    obtain ⟨sh, h, _⟩ := hh.look
    rw [hlook' _ _ h] at he
    cases he
    exact h
  have hfresh : ¬ Stale done m0.name := hn.fresh ((hs _).mpr rfl)
  obtain ⟨k0, t0, hh0⟩ := hI.held m0 hm0 hv0
  obtain ⟨sh0, hl0, _⟩ := hh0.look
  rw [hl] at hl0
  cases hl0
  rw [hh0.env] at ht
  cases ht
  have hv := hh0.val.resolve_left hfresh
  refine ⟨hI.flow, hI.fmt, ?_, ?_, inv_env hI hval y, inv_closed hI hr, ?_, ?_, ?_, ?_, hI.simple⟩
  · have := hI.covers.old hh0.lt
    simpa [State.alias] using this
  · intro e he
    simp only [State.alias, List.mem_append, List.mem_singleton] at he
    rcases he with he | rfl
    · obtain ⟨m, hm, h⟩ := hI.known e he
      exact ⟨m, by simp [hm], h⟩
    · exact ⟨n, by simp, hval, rfl⟩
  · intro m hm hmv
    rcases List.mem_append.mp hm with hm | hm
    · obtain ⟨k', t, hh⟩ := hI.held m hm hmv
      refine ⟨k', t, ?_⟩
      obtain ⟨sh', h1, h2⟩ := hh.look
      refine ⟨⟨sh', hlook' _ _ h1, h2⟩, hh.lt, ?_, hh.ok, hh.dims, ?_, ?_⟩
      · rw [set_other E y (hn.ne hm)]; exact hh.env
      · rcases hh.val with h | h
        · exact .inl (stale_mono h n)
        · exact .inr h
      · intro hmf hmu
        obtain ⟨o1, o2, o3, o4⟩ := hh.opened hmf (unread_of hmu)
        refine ⟨o1, o2, ?_, o4⟩
        intro m' hm' hv' sh'' h
        rcases List.mem_append.mp hm' with hm' | hm'
        · rcases o3 m' hm' hv' sh'' (hlook m' hm' hv' _ h) with e | e
          · exact .inl e
          · exact .inr (stale_mono e n)
        · simp only [List.mem_singleton] at hm'
          subst hm'
          rw [hlookn] at h
          cases h
          rcases o3 m0 hm0 hv0 _ hl with e | e
          · exact absurd ((hs _).mpr e.symm) (unread_last hmu)
          · exact absurd e hfresh
    · simp only [List.mem_singleton] at hm
      subst hm
      refine ⟨k, y, ⟨sh, hlookn, hsh⟩, hh0.lt, set_same E _ y, hok, hd, .inr (by rw [hyt]; exact hv), fun hmf => absurd hmf hnf⟩
  · intro k' hk'
    rcases hI.used k' hk' with h | ⟨m, hm, hv', ⟨sh', h⟩, hu⟩
    · exact .inl h
    · by_cases hmr : m.name ∈ n.callReads
      · rw [(hs _).mp hmr, hl] at h
        cases h
        exact .inr ⟨n, by simp, hval, ⟨_, hlookn⟩, hun⟩
      · refine .inr ⟨m, by simp [hm], hv', ⟨sh', hlook' _ _ h⟩, ?_⟩
        intro c hc'
        rcases List.mem_append.mp hc' with hc' | hc'
        · exact hu c hc'
        · simp only [List.mem_singleton] at hc'
          rw [hc']; exact hmr
  · intro d hd'
    obtain ⟨s, t, h1, h2⟩ := hI.among d hd'
    refine ⟨s, t, ?_, h2⟩
    obtain ⟨m, hm, e, _⟩ := hI.env s t h1
    rw [← e, set_other E y (hn.ne hm), e]; exact h1
  · intro m hm m' hm' hv hv' ha ha' hs hs' k sh sh' h h'
    rcases List.mem_append.mp hm with h1 | h1 <;> rcases List.mem_append.mp hm' with h2 | h2
    · exact hI.distinct m h1 m' h2 hv hv' ha ha' (fun e => hs (stale_mono e n)) (fun e => hs' (stale_mono e n)) k sh sh' (hlook m h1 hv _ h) (hlook m' h2 hv' _ h')
    · simp only [List.mem_singleton] at h2
      rw [h2] at ha'
      exact absurd hal ha'
    · simp only [List.mem_singleton] at h1
      rw [h1] at ha
      exact absurd hal ha
    · simp only [List.mem_singleton] at h1 h2
      rw [h1, h2]

/-- a layer changed in place, with a new name -/
theorem inv_change (hI : Inv M p x done E st vals) (hn : Next p done n) (hval : n.isValue) (hna : ¬ n.isAlias) (hnc : ¬ n.isConv) {m0 : Node} (hm0 : m0 ∈ done)
    (hv0 : m0.isValue) (hab : n.absorbs m0.name) (hs : ∀ s ∈ n.callReads, s = m0.name ∨ ∃ m ∈ done, m.name = s ∧ ¬ m.isValue)
    {k : Nat} {sh : List Nat} (hl : st.look m0.name = some (k, sh)) {t y : Nd ℝ} (ht : E m0.name = some t) (hop : Open M m0 done st vals k t)
    {op op' : Op ℝ} {xs : List (List ℝ)} (hlay : st.net.layers[k]? = some (k, op)) (hpk : pick vals (preds st.net k) = some xs) (hxs : xs ≠ [])
    (hg : Gives M op' xs y.data) (hc : Coded op' xs y.data) (hfu : n.fuses → Fusing op') {f : Nat × Op ℝ → Nat × Op ℝ} (hf : f (k, op) = (k, op'))
    (hok : y.Ok) (hd : y.dims = n.shape) (hyt : y.dims = t.dims) :
    Inv M p x (done ++ [n]) (E.set n.name y) ((st.change k f).alias n.name (k, sh)) (vals.set k y.data) := by
  have hnew := hI.new hn
  have hgood := hI.flow.good
  have hlen := hI.flow.length
  have hr : ∀ s ∈ n.callReads, ∃ m ∈ done, m.name = s := by
    intro s h
    rcases hs s h with rfl | ⟨m, hm, e, _⟩
    · exact ⟨m0, hm0, rfl⟩
    · exact ⟨m, hm, e⟩
  have hun := inv_unread hI hn hr
  have hst : Stale (done ++ [n]) m0.name := ⟨n, by simp, hab⟩
  have hlook' : ∀ s e, st.look s = some e → ((st.change k f).alias n.name (k, sh)).look s = some e := by
    intro s e h
    rw [look_dic (st := (st.change k f).alias n.name (k, sh)) (st' := { st with dic := st.dic ++ [(n.name, k, sh)] }) rfl]
    exact look_append h
  have hlookn : ((st.change k f).alias n.name (k, sh)).look n.name = some (k, sh) := by
    rw [look_dic (st := (st.change k f).alias n.name (k, sh)) (st' := { st with dic := st.dic ++ [(n.name, k, sh)] }) rfl]
    exact look_new hnew
  have hlook : ∀ m ∈ done, m.isValue → ∀ e, ((st.change k f).alias n.name (k, sh)).look m.name = some e → st.look m.name = some e := by
    intro m hm hmv e he
    obtain ⟨k, t, hh⟩ := hI.held m hm hmv
    obtain ⟨sh, h, _⟩ := hh.look
    rw [hlook' _ _ h] at he
    cases he
    exact h
  obtain ⟨k0, t0, hh0⟩ := hI.held m0 hm0 hv0
  obtain ⟨sh0, hl0, hsh⟩ := hh0.look
  rw [hl] at hl0
  cases hl0
  rw [hh0.env] at ht
  cases ht
  have hpk' : ∀ j, ∀ q ∈ preds st.net j, q ≠ k := by
    intro j q hq
    obtain ⟨e, he, rfl⟩ := List.mem_map.mp hq
    exact hop.out e (List.mem_filter.mp he).1
  have hflow := flow_set hI.flow hop.pos hop.out hpk hg hc hxs (f := f) (fun o ho => by rw [hlay] at ho; cases ho; exact hf) hh0.lt
  have hlayers : ((st.change k f).alias n.name (k, sh)).net.layers.length = st.net.layers.length := by simp [State.alias, State.change]
  refine ⟨hflow, hI.fmt, ?_, ?_, inv_env hI hval y, inv_closed hI hr, ?_, ?_, ?_, ?_, hI.simple⟩
  · have := hI.covers.old hh0.lt
    simpa [State.alias, State.change] using this
  · intro e he
    simp only [State.alias, State.change, List.mem_append, List.mem_singleton] at he
    rcases he with he | rfl
    · obtain ⟨m, hm, h⟩ := hI.known e he
      exact ⟨m, by simp [hm], h⟩
    · exact ⟨n, by simp, hval, rfl⟩
  · intro m hm hmv
    rcases List.mem_append.mp hm with hm | hm
    · obtain ⟨k', t, hh⟩ := hI.held m hm hmv
      refine ⟨k', t, ?_⟩
      obtain ⟨sh', h1, h2⟩ := hh.look
      refine ⟨⟨sh', hlook' _ _ h1, h2⟩, by rw [hlayers]; exact hh.lt, ?_, hh.ok, hh.dims, ?_, ?_⟩
      · rw [set_other E y (hn.ne hm)]; exact hh.env
      · rcases hh.val with h | h
        · exact .inl (stale_mono h n)
        · by_cases hkk : k = k'
          · subst hkk
            rcases hop.own m hm hmv _ h1 with e | e
            · rw [e]; exact .inl hst
            · exact .inl (stale_mono e n)
          · refine .inr ?_
            rw [List.getElem?_set_ne hkk]; exact h
      · intro hmf hmu
        have hmu' := unread_of hmu
        obtain ⟨o1, o2, o3, op2, xs2, o4, o5, o6⟩ := hh.opened hmf hmu'
        have hkk : k ≠ k' := by
          rintro rfl
          rcases hop.own m hm hmv _ h1 with e | e
          · exact stale_read hst (by rw [← e]; exact hmu)
          · exact stale_read e hmu'
        refine ⟨o1, o2, ?_, op2, xs2, ?_, pick_set o5 (hpk' k') _, o6⟩
        · intro m' hm' hv' sh'' h
          rcases List.mem_append.mp hm' with hm' | hm'
          · rcases o3 m' hm' hv' sh'' (hlook m' hm' hv' _ h) with e | e
            · exact .inl e
            · exact .inr (stale_mono e n)
          · simp only [List.mem_singleton] at hm'
            subst hm'
            rw [hlookn] at h
            cases h
            exact absurd rfl hkk
        · simp only [State.alias, State.change]
          rw [List.getElem?_modify, o4]
          simp [hkk]
    · simp only [List.mem_singleton] at hm
      subst hm
      refine ⟨k, y, ⟨sh, hlookn, by rw [hyt]; exact hsh⟩, by rw [hlayers]; exact hh0.lt, set_same E _ y, hok, hd, .inr ?_, ?_⟩
      · rw [List.getElem?_set_self (by rw [hlen]; exact hh0.lt)]
      · intro hmf hmu
        refine ⟨hop.pos, hop.out, ?_, op', xs, ?_, pick_set hpk (hpk' k) _, hxs, hfu hmf, hg, hc, fun h => absurd h hnc⟩
        · intro m' hm' hv' sh'' h
          rcases List.mem_append.mp hm' with hm' | hm'
          · rcases hop.own m' hm' hv' sh'' (hlook m' hm' hv' _ h) with e | e
            · rw [e]; exact .inr hst
            · exact .inr (stale_mono e _)
          · simp only [List.mem_singleton] at hm'
            exact .inl (by rw [hm'])
        · simp only [State.alias, State.change]
          rw [List.getElem?_modify, hlay]
          simp [hf]
  · intro k' hk'
    rw [hlayers] at hk'
    rcases hI.used k' hk' with h | ⟨m, hm, hv', ⟨sh', h⟩, hu⟩
    · exact .inl h
    · by_cases hmr : m.name ∈ n.callReads
      · rcases hs _ hmr with e | ⟨m', hm', e, hv''⟩
        · rw [e, hl] at h
          cases h
          exact .inr ⟨n, by simp, hval, ⟨_, hlookn⟩, hun⟩
        · rw [node_eq hn.names (hn.sub hm') (hn.sub hm) e] at hv''
          exact absurd hv' hv''
      · refine .inr ⟨m, by simp [hm], hv', ⟨sh', hlook' _ _ h⟩, ?_⟩
        intro c hc'
        rcases List.mem_append.mp hc' with hc' | hc'
        · exact hu c hc'
        · simp only [List.mem_singleton] at hc'
          rw [hc']; exact hmr
  · intro d hd'
    rcases List.mem_or_eq_of_mem_set hd' with h | h
    · obtain ⟨s, t, h1, h2⟩ := hI.among d h
      refine ⟨s, t, ?_, h2⟩
      obtain ⟨m, hm, e, _⟩ := hI.env s t h1
      rw [← e, set_other E y (hn.ne hm), e]; exact h1
    · exact ⟨n.name, y, set_same E _ y, h.symm⟩
  · intro m hm m' hm' hv hv' ha ha' hs hs' k1 sh1 sh' h h'
    have key : ∀ m ∈ done, m.isValue → ¬ Stale (done ++ [n]) m.name → ∀ sh1, ((st.change k f).alias n.name (k, sh)).look m.name ≠ some (k, sh1) := by
      intro m hm hv hs sh1 h
      rcases hop.own m hm hv _ (hlook m hm hv _ h) with e | e
      · exact hs (by rw [e]; exact hst)
      · exact hs (stale_mono e n)
    rcases List.mem_append.mp hm with h1 | h1 <;> rcases List.mem_append.mp hm' with h2 | h2
    · exact hI.distinct m h1 m' h2 hv hv' ha ha' (fun e => hs (stale_mono e n)) (fun e => hs' (stale_mono e n)) k1 sh1 sh' (hlook m h1 hv _ h) (hlook m' h2 hv' _ h')
    · simp only [List.mem_singleton] at h2
      subst h2
      rw [hlookn] at h'
      cases h'
      exact absurd h (key m h1 hv hs _)
    · simp only [List.mem_singleton] at h1
      subst h1
      rw [hlookn] at h
      cases h
      exact absurd h' (key m' h2 hv' hs' _)
    · simp only [List.mem_singleton] at h1 h2
      rw [h1, h2]

end Verif.Torch

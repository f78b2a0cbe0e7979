import Verif.Graph.Facts

/-!
# C01 – C07: ordering, buffer allocation and execution of a network

`triTopo` (model of `tri_topo`), `interp` (model of `compute_inference`) and `inference` (model of
the generated C function) are the objects of the statements; the vocabulary (`UniqueIdx`,
`Consistent`, `SimpleInputs`, `Acyclic`, `Before`, `Needed`) is in `Verif/Graph/Spec.lean`.
-/

namespace Verif.Graph
open Prog

/-- A network with a branching, a join and a constant:
`Input 0 → 1, 2 ; Add 3 (1, 2) ; Mul 4 (3, Const 5)`. -/
def diamond : Dnn :=
  [⟨0, [], [1, 2], false⟩, ⟨1, [0], [3], false⟩, ⟨2, [0], [3], false⟩, ⟨3, [1, 2], [4], false⟩,
   ⟨4, [3, 5], [], false⟩, ⟨5, [], [4], true⟩]

theorem diamond_ok : UniqueIdx diamond ∧ Consistent diamond ∧ SimpleInputs diamond ∧ Acyclic diamond ∧
    (triTopo diamond).isSome := by
  refine ⟨by decide, by decide, by decide, ⟨fun i => if i = 5 then 0 else i, by decide⟩, by decide⟩

/-! ## C01 -/

/-- Whenever `tri_topo` returns, the list contains every layer exactly once and each layer comes
after all of its producers. -/
theorem C01_order_respects_dataflow {dnn : Dnn} {plan : Plan} (hu : UniqueIdx dnn)
    (hc : Consistent dnn) (h : triTopo dnn = some plan) :
    plan.order.Perm dnn.idxs ∧ plan.order.Nodup ∧
    ∀ l ∈ dnn, ∀ p ∈ l.prev, Before plan.order p l.idx := by
  have hp := plan_perm hu hc h
  have hs := plan_sorted h
  refine ⟨hp, hs.nodup, ?_⟩
  intro l hl p hpm
  have hmem : l.idx ∈ plan.order := hp.mem_iff.2 (List.mem_map_of_mem hl)
  obtain ⟨pre, post, he⟩ := List.append_of_mem hmem
  have := (hs pre l.idx post he).2 p (by rw [prevOf_mem hu hl]; exact hpm)
  obtain ⟨a, b, hab⟩ := List.append_of_mem this
  exact ⟨a, b, post, by rw [he, hab]⟩

/-- A cyclic model is never accepted. -/
theorem C01_cyclic_rejected {dnn : Dnn} (hu : UniqueIdx dnn) (hc : Consistent dnn)
    (hcyc : ¬ Acyclic dnn) : triTopo dnn = none := by
  by_contra hne
  obtain ⟨plan, h⟩ := Option.ne_none_iff_exists'.1 hne
  apply hcyc
  have hp := plan_perm hu hc h
  have hs := plan_sorted h
  refine ⟨fun i => plan.order.idxOf i, ?_⟩
  intro l hl s hsn
  obtain ⟨q, hq, rfl, hb⟩ := (hc l hl).2 s hsn
  have hmem : q.idx ∈ plan.order := hp.mem_iff.2 (List.mem_map_of_mem hq)
  obtain ⟨pre, post, he⟩ := List.append_of_mem hmem
  obtain ⟨hn, hpre⟩ := hs pre q.idx post he
  have h1 := hpre l.idx (by rw [prevOf_mem hu hq]; exact hb)
  show plan.order.idxOf l.idx < plan.order.idxOf q.idx
  rw [he, List.idxOf_append_of_mem h1, List.idxOf_append_of_notMem hn]
  have := List.idxOf_lt_length_of_mem h1
  omega

example : ∃ plan, triTopo diamond = some plan ∧ plan.order = [0, 5, 2, 1, 3, 4] := by
  exact ⟨_, rfl, by decide⟩

example : triTopo [⟨0, [1], [1], false⟩, ⟨1, [0], [0], false⟩] = none := by decide

/-! ## C02 -/

/-- The property as a user expects it. -/
def C02_statement : Prop :=
  ∀ dnn : Dnn, UniqueIdx dnn → Consistent dnn → Acyclic dnn → (∃ l ∈ dnn, l.isConst = false) →
    (∀ l ∈ dnn, l.isConst = true → l.prev = []) → (triTopo dnn).isSome

/-- Proved for models in which no layer is fed by constants only. -/
theorem C02_acyclic_ordered_partial {dnn : Dnn} (hu : UniqueIdx dnn) (hc : Consistent dnn)
    (ha : Acyclic dnn) (hne : ∃ l ∈ dnn, l.isConst = false)
    (hk : ∀ l ∈ dnn, l.isConst = true → l.prev = [])
    (hfed : ∀ l ∈ dnn, l.isConst = false → l.prev ≠ [] →
      ∃ q ∈ dnn, q.idx ∈ l.prev ∧ q.isConst = false) :
    (triTopo dnn).isSome := by
  obtain ⟨rank, hr⟩ := ha
  have hlen : dnn.idxs.length = dnn.length := by simp [Dnn.idxs]
  have hperm := sortAll_perm (next_closed hu hc) hu
  have htopo := sortAll_topo (next_closed hu hc) rank (by
    intro x hx y hy
    obtain ⟨l, hl, rfl⟩ := layer_of_idx hx
    rw [nextOf_mem hu hl] at hy
    exact hr l hl y hy)
  rw [hlen] at hperm htopo
  unfold triTopo
  generalize (sortAll dnn.nextOf dnn.length dnn.idxs).1 = sorted at *
  -- producers come first in the sorted list
  have hfirst : ∀ pre n post, sorted = pre ++ n :: post → ∀ p ∈ dnn.prevOf n, p ∈ pre := by
    intro pre n post he p hp
    have hnd : sorted.Nodup := hperm.nodup_iff.2 hu
    have hpn : n ∈ dnn.nextOf p := (links hu hc p n).1 hp
    have hps : p ∈ sorted := hperm.mem_iff.2 (nextOf_idx hpn)
    rw [he] at hps
    rcases List.mem_append.1 hps with h | h
    · exact h
    · exfalso
      have key : ∀ l : List Nat, Topo dnn.nextOf l → l.Nodup → ∀ pre n post, l = pre ++ n :: post →
          ∀ p ∈ n :: post, n ∉ dnn.nextOf p := by
        intro l
        induction l with
        | nil => intro _ _ pre n post he; simp at he
        | cons x t ih =>
          intro ht hn pre n post he p hp hpn
          cases pre with
          | nil =>
            simp only [List.nil_append, List.cons.injEq] at he
            obtain ⟨rfl, rfl⟩ := he
            rcases List.mem_cons.1 hp with rfl | hp'
            · exact (List.nodup_cons.1 hn).1 (ht.1 _ hpn)
            · obtain ⟨a, b, hab⟩ := List.append_of_mem hp'
              -- p ∈ t, its successor x must be after it in t
              have : x ∈ t := by
                subst hab
                have aux : ∀ (a : List Nat), Topo dnn.nextOf (a ++ p :: b) → x ∈ a ++ p :: b := by
                  intro a
                  induction a with
                  | nil => intro h; exact List.mem_cons_of_mem _ (h.1 x hpn)
                  | cons c a iha => intro h; exact List.mem_cons_of_mem _ (iha h.2)
                exact aux a ht.2
              exact (List.nodup_cons.1 hn).1 this
          | cons c pre =>
            simp only [List.cons_append, List.cons.injEq] at he
            exact ih ht.2 (List.nodup_cons.1 hn).2 pre n post he.2 p hp hpn
      exact key sorted htopo hnd pre n post he p h hpn
  have hcprev : ∀ i ∈ sorted, dnn.constOf i = true → dnn.prevOf i = [] := by
    intro i hi hci
    obtain ⟨l, hl, rfl⟩ := layer_of_idx (hperm.mem_iff.1 hi)
    rw [constOf_mem hu hl] at hci
    rw [prevOf_mem hu hl]; exact hk l hl hci
  unfold moveConsts
  cases hoth : sorted.filter (fun i => !dnn.constOf i) with
  | nil =>
    exfalso
    obtain ⟨l, hl, hlc⟩ := hne
    have : l.idx ∈ sorted.filter (fun i => !dnn.constOf i) := by
      rw [List.mem_filter]
      exact ⟨hperm.mem_iff.2 (List.mem_map_of_mem hl), by simp [constOf_mem hu hl, hlc]⟩
    rw [hoth] at this; simp at this
  | cons o os =>
    simp only
    have hnd : (o :: (sorted.filter dnn.constOf ++ os)).Nodup := by
      have hm := moveConsts_perm (isConst := dnn.constOf) (l := sorted)
        (l' := o :: (sorted.filter dnn.constOf ++ os)) (by simp [moveConsts, hoth])
      exact (hm.trans hperm).nodup_iff.2 hu
    have hmemo : ∀ i, i ∈ o :: os ↔ i ∈ sorted ∧ dnn.constOf i = false := by
      intro i; rw [← hoth, List.mem_filter]; simp
    -- producers of a non-constant layer, in the filtered list
    have hos : ∀ pre n post, o :: os = pre ++ n :: post → ∀ p ∈ dnn.prevOf n,
        p ∈ pre ∨ p ∈ sorted.filter dnn.constOf := by
      intro pre n post he p hp
      rw [← hoth] at he
      obtain ⟨l1, l2, h1, h2, h3⟩ := List.filter_eq_append_iff.1 he
      obtain ⟨l3, l4, h4, h5, h6, h7⟩ := List.filter_eq_cons_iff.1 h3
      have hp1 := hfirst (l1 ++ l3) n l4 (by rw [h1, h4]; simp) p hp
      by_cases hpc : dnn.constOf p = true
      · right
        exact List.mem_filter.2 ⟨by rw [h1, h4]; simp at hp1 ⊢; tauto, hpc⟩
      · left
        rcases List.mem_append.1 hp1 with h | h
        · rw [← h2]; exact List.mem_filter.2 ⟨h, by simpa using hpc⟩
        · have := h5 p h; simp at this; exact absurd this hpc
    have ho : dnn.prevOf o = [] := by
      have hoo := (hmemo o).1 (by simp)
      obtain ⟨l, hl, rfl⟩ := layer_of_idx (hperm.mem_iff.1 hoo.1)
      by_contra hne
      rw [prevOf_mem hu hl] at hne
      rw [constOf_mem hu hl] at hoo
      obtain ⟨q, hq, hqp, hqc⟩ := hfed l hl hoo.2 hne
      rcases hos [] l.idx os rfl q.idx (by rw [prevOf_mem hu hl]; exact hqp) with h | h
      · simp at h
      · rw [List.mem_filter, constOf_mem hu hq, hqc] at h; simp at h
    obtain ⟨live, hlive⟩ := assignLive_succeeds (prevOf := dnn.prevOf) (nextOf := dnn.nextOf) hnd (by
      intro pre n post he p hp
      cases pre with
      | nil =>
        simp only [List.nil_append, List.cons.injEq] at he
        rw [← he.1, ho] at hp; simp at hp
      | cons c pre =>
        simp only [List.cons_append, List.cons.injEq] at he
        obtain ⟨rfl, he⟩ := he
        rcases List.append_eq_append_iff.1 he with ⟨a, h1, h2⟩ | ⟨a, h1, h2⟩
        · -- n is in os
          have := hos (o :: a) n post (by simp [h2]) p hp
          rw [h1]
          simp only [List.mem_cons, List.mem_append] at this ⊢
          tauto
        · cases a with
          | nil =>
            simp only [List.nil_append] at h2
            simp only [List.append_nil] at h1
            have := hos [o] n post (by rw [← h2]; rfl) p hp
            rw [← h1]
            simpa using this
          | cons d a =>
            simp only [List.cons_append, List.cons.injEq] at h2
            obtain ⟨rfl, h2⟩ := h2
            have : n ∈ sorted.filter dnn.constOf := by rw [h1]; simp
            rw [List.mem_filter] at this
            rw [hcprev n this.1 this.2] at hp; simp at hp)
    rw [hlive]; simp

/-- Without that restriction the property fails: `Add 2` of `Input 0` and `X 1`, where `X` is
computed from the constant `3` only. -/
theorem C02_fails_constant_fed : ¬ C02_statement := by
  intro h
  have := h [⟨0, [], [2], false⟩, ⟨1, [3], [2], false⟩, ⟨2, [0, 1], [], false⟩, ⟨3, [], [1], true⟩]
    (by decide) (by decide) ⟨fun i => if i = 3 then 0 else i + 1, by decide⟩ (by decide) (by decide)
  revert this; decide

example : (triTopo diamond).isSome := by
  obtain ⟨h1, h2, _, h4, _⟩ := diamond_ok
  exact C02_acyclic_ordered_partial h1 h2 h4 (by decide) (by decide) (by decide)

/-! ## C03 -/

/-- The property as a user expects it (for every model). -/
def C03_statement : Prop :=
  ∀ (dnn : Dnn) (plan : Plan), UniqueIdx dnn → Consistent dnn → triTopo dnn = some plan →
    ∀ done rest, plan.order = done ++ rest → ∀ l₁ ∈ dnn, ∀ l₂ ∈ dnn, l₁.idx ≠ l₂.idx →
      Needed done l₁ → Needed done l₂ → plan.path l₁.idx ≠ plan.path l₂.idx

theorem held_of_needed {dnn : Dnn} (hu : UniqueIdx dnn) {done : List Nat} {l : Layer} (hl : l ∈ dnn)
    (h : Needed done l) : Held dnn.nextOf done l.idx :=
  ⟨h.1, by rw [nextOf_mem hu hl]; exact h.2.symm⟩

/-- Proved for models in which no layer takes the same producer twice. -/
theorem C03_no_shared_path_partial {dnn : Dnn} {plan : Plan} (hu : UniqueIdx dnn)
    (hc : Consistent dnn) (hs : SimpleInputs dnn) (h : triTopo dnn = some plan)
    {done rest : List Nat} (he : plan.order = done ++ rest) {l₁ l₂ : Layer} (h₁ : l₁ ∈ dnn)
    (h₂ : l₂ ∈ dnn) (hne : l₁.idx ≠ l₂.idx) (n₁ : Needed done l₁) (n₂ : Needed done l₂) :
    plan.path l₁.idx ≠ plan.path l₂.idx :=
  plan_noalias hu hc hs h he hne (held_of_needed hu h₁ n₁) (held_of_needed hu h₂ n₂)

/-- `Mul(i, i)` followed by two branches: the buffer of `i` is released twice, so both branches are
computed into the same buffer although both results are needed by `Add`. -/
def dupNet : Dnn :=
  [⟨0, [], [1, 1], false⟩, ⟨1, [0, 0], [2, 3], false⟩, ⟨2, [1], [4], false⟩, ⟨3, [1], [4], false⟩,
   ⟨4, [2, 3], [], false⟩]

theorem C03_fails_duplicate_input : ¬ C03_statement := by
  intro h
  have hp : ∃ plan, triTopo dupNet = some plan ∧ plan.order = [0, 1, 3, 2, 4] ∧
      plan.path 2 = plan.path 3 := ⟨_, rfl, by decide, by decide⟩
  obtain ⟨plan, h1, h2, h3⟩ := hp
  exact h dupNet plan (by decide) (by decide) h1 [0, 1, 3, 2] [4] (by rw [h2]; rfl)
    ⟨2, [1], [4], false⟩ (by decide) ⟨3, [1], [4], false⟩ (by decide) (by decide)
    ⟨by decide, Or.inl (by decide)⟩ ⟨by decide, Or.inl (by decide)⟩ h3

example : ∃ plan, triTopo diamond = some plan ∧ plan.order = [0, 5, 2, 1] ++ [3, 4] ∧
    Needed [0, 5, 2, 1] ⟨1, [0], [3], false⟩ ∧ Needed [0, 5, 2, 1] ⟨2, [0], [3], false⟩ ∧
    plan.path 1 ≠ plan.path 2 :=
  ⟨_, rfl, by decide, ⟨by decide, Or.inl (by decide)⟩, ⟨by decide, Or.inl (by decide)⟩, by decide⟩

/-! ## C04 -/

/-- A layer has a saved copy exactly when it has more than one consumer link. -/
theorem C04_cst_iff_multi_consumer {dnn : Dnn} {plan : Plan} (hu : UniqueIdx dnn)
    (hc : Consistent dnn) (h : triTopo dnn = some plan) {l : Layer} (hl : l ∈ dnn) :
    (plan.cst l.idx).isSome ↔ l.next.length > 1 := by
  obtain ⟨f⟩ := facts h
  rw [f.hcst, assignCst_keys, nextOf_mem hu hl]
  have : l.idx ∈ plan.order := (plan_perm hu hc h).mem_iff.2 (List.mem_map_of_mem hl)
  tauto

/-- Saved copies that are still needed are in different `cst` arrays
(no layer takes the same producer twice). -/
theorem C04_no_shared_cst_partial {dnn : Dnn} {plan : Plan} (hu : UniqueIdx dnn)
    (hc : Consistent dnn) (hs : SimpleInputs dnn) (h : triTopo dnn = some plan)
    {done rest : List Nat} (he : plan.order = done ++ rest) {l₁ l₂ : Layer} (h₁ : l₁ ∈ dnn)
    (h₂ : l₂ ∈ dnn) (hne : l₁.idx ≠ l₂.idx) (m₁ : l₁.next.length > 1) (m₂ : l₂.next.length > 1)
    (n₁ : Needed done l₁) (n₂ : Needed done l₂) :
    plan.cst l₁.idx ≠ plan.cst l₂.idx := by
  obtain ⟨f⟩ := facts h
  rw [f.hcst]
  have aux : ∀ l : Layer, l ∈ dnn → l.next.length > 1 → Needed done l → CHeld dnn.nextOf done l.idx := by
    intro l hl hm hn
    refine ⟨hn.1, by rw [nextOf_mem hu hl]; exact hm, ?_⟩
    rw [nextOf_mem hu hl]
    rcases hn.2 with h | h
    · exact h
    · simp [h] at hm
  exact assignCst_noalias (plan_sorted h).nodup (links hu hc) (simple_prev hu hs) he hne
    (aux l₁ h₁ m₁ n₁) (aux l₂ h₂ m₂ n₂)

/-- The property for every model. -/
def C04_statement : Prop :=
  ∀ (dnn : Dnn) (plan : Plan), UniqueIdx dnn → Consistent dnn → triTopo dnn = some plan →
    ∀ done rest, plan.order = done ++ rest → ∀ l₁ ∈ dnn, ∀ l₂ ∈ dnn, l₁.idx ≠ l₂.idx →
      l₁.next.length > 1 → l₂.next.length > 1 →
      Needed done l₁ → Needed done l₂ → plan.cst l₁.idx ≠ plan.cst l₂.idx

/-- `Mul(i, i)`, then two multi-consumer branches `b`, `c` consumed together twice. -/
def dupNetCst : Dnn :=
  [⟨0, [], [1, 1], false⟩, ⟨1, [0, 0], [2], false⟩, ⟨2, [1], [3, 4], false⟩,
   ⟨3, [2], [4, 5], false⟩, ⟨4, [2, 3], [5], false⟩, ⟨5, [3, 4], [], false⟩]

theorem C04_fails_duplicate_input : ¬ C04_statement := by
  intro h
  have hp : ∃ plan, triTopo dupNetCst = some plan ∧ plan.order = [0, 1, 2, 3, 4, 5] ∧
      plan.cst 2 = plan.cst 3 := ⟨_, rfl, by decide, by decide⟩
  obtain ⟨plan, h1, h2, h3⟩ := hp
  exact h dupNetCst plan (by decide) (by decide) h1 [0, 1, 2, 3] [4, 5] (by rw [h2]; rfl)
    ⟨2, [1], [3, 4], false⟩ (by decide) ⟨3, [2], [4, 5], false⟩ (by decide) (by decide) (by decide)
    (by decide) ⟨by decide, Or.inl (by decide)⟩ ⟨by decide, Or.inl (by decide)⟩ h3

/-- two nested multi-consumer layers -/
def twoCst : Dnn :=
  [⟨0, [], [1, 3], false⟩, ⟨1, [0], [2, 3], false⟩, ⟨2, [1], [3], false⟩, ⟨3, [0, 1, 2], [], false⟩]

example : UniqueIdx twoCst ∧ Consistent twoCst ∧ SimpleInputs twoCst ∧
    ∃ plan, triTopo twoCst = some plan ∧ plan.order = [0, 1] ++ [2, 3] ∧
    Needed [0, 1] ⟨0, [], [1, 3], false⟩ ∧ Needed [0, 1] ⟨1, [0], [2, 3], false⟩ ∧
    plan.cst 0 = some 0 ∧ plan.cst 1 = some 1 := by
  refine ⟨by decide, by decide, by decide, _, rfl, by decide, ⟨by decide, Or.inl (by decide)⟩,
    ⟨by decide, Or.inl (by decide)⟩, by decide, by decide⟩

/-! ## C05 -/

/-- Every `output_k` and `cst_k` a layer refers to is declared, and there are never more buffers
than layers (than multi-consumer layers). -/
theorem C05_buffers_declared {dnn : Dnn} {plan : Plan} (hu : UniqueIdx dnn) (hc : Consistent dnn)
    (h : triTopo dnn = some plan) :
    (∀ l ∈ dnn, plan.path l.idx < plan.maxPath) ∧ plan.maxPath ≤ dnn.length ∧
    (∀ l ∈ dnn, ∀ k, plan.cst l.idx = some k → k < multiConsumers dnn) := by
  obtain ⟨f⟩ := facts h
  have hp := plan_perm hu hc h
  refine ⟨?_, ?_, ?_⟩
  · intro l hl
    have hmem : l.idx ∈ plan.order := hp.mem_iff.2 (List.mem_map_of_mem hl)
    rw [f.hmax]
    have := (le_foldl_max (plan.order.map plan.path) 0).2 _ (List.mem_map_of_mem hmem)
    omega
  · rw [f.hmax]
    have hb := run_base base_init f.hlive
    simp only [List.nil_append] at hb
    have hlen : plan.order.length = dnn.length := by rw [hp.length_eq]; simp [Dnn.idxs]
    have hlt : ∀ x ∈ plan.order.map plan.path, x < dnn.length := by
      intro x hx
      obtain ⟨i, hi, rfl⟩ := List.mem_map.1 hx
      have h1 := hb.plt i _ (path_get f hi)
      have h2 := hb.cnt
      omega
    have hpos : 0 < dnn.length := by
      cases hd : plan.order with
      | nil =>
        have hm := f.hmove
        rw [hd] at hm
        unfold moveConsts at hm
        split at hm <;> simp at hm
      | cons a t => rw [← hlen, hd]; simp
    exact foldl_max_lt _ 0 _ hpos hlt
  · intro l hl k hk
    rw [f.hcst] at hk
    rw [← multiCount_eq hu hp]
    exact assignCst_lt _ _ _ hk

example : ∃ plan, triTopo diamond = some plan ∧ plan.maxPath = 3 ∧ multiConsumers diamond = 1 :=
  ⟨_, rfl, by decide, by decide⟩

/-! ## C07 -/

/-- The only consumer of its only producer works in place. -/
theorem C07_in_place {dnn : Dnn} {plan : Plan} (hu : UniqueIdx dnn) (hc : Consistent dnn)
    (h : triTopo dnn = some plan) {l p : Layer} (hl : l ∈ dnn) (hp : p ∈ dnn)
    (h1 : l.prev = [p.idx]) (h2 : p.next = [l.idx]) :
    plan.path l.idx = plan.path p.idx ∧ outStr plan p.idx = .out (plan.path l.idx) := by
  obtain ⟨f⟩ := facts h
  have hperm := plan_perm hu hc h
  have hlo : l.idx ∈ plan.order := hperm.mem_iff.2 (List.mem_map_of_mem hl)
  have hpo : p.idx ∈ plan.order := hperm.mem_iff.2 (List.mem_map_of_mem hp)
  have := assignLive_inplace f.hlive hlo (by rw [prevOf_mem hu hl]; exact h1)
    (by rw [nextOf_mem hu hp]; exact h2)
  rw [path_get f hlo, path_get f hpo, Option.some.injEq] at this
  refine ⟨this, ?_⟩
  have hk := C04_cst_iff_multi_consumer hu hc h hp
  rw [h2] at hk
  unfold outStr
  cases hcst : plan.cst p.idx with
  | none => simp [this]
  | some k => rw [hcst] at hk; simp at hk

example : ∃ plan, triTopo [⟨0, [], [1], false⟩, ⟨1, [0], [], false⟩] = some plan ∧
    plan.path 1 = plan.path 0 := ⟨_, rfl, by decide⟩

/-! ## C06 -/

/-- If the code of every layer computes the layer's reference function (`fwd`) into its own buffer
from the places where its producers' outputs are kept, then on every input the interpreter returns
a result `y`, and the generated inference function, started from any memory with these inputs and
parameters, terminates without out-of-bounds access and leaves `y` in
`prediction`.  (No layer takes the same producer twice, cf. `C03_fails_duplicate_input`.) -/
theorem C06_inference_refines_interpreter_partial {α : Type} {dnn : Dnn} {plan : Plan}
    (hu : UniqueIdx dnn) (hc : Consistent dnn) (hs : SimpleInputs dnn) (h : triTopo dnn = some plan)
    (fwd : Nat → List (List α) → List α) (code : Nat → List Buf → Buf → Prog α Unit)
    (size : Nat → Nat) (x : List α) (m : Mem α)
    -- the reference function of a layer produces `size` elements
    (hsize : ∀ l ∈ dnn, ∀ v : Nat → List α, (∀ p ∈ l.prev, (v p).length = size p) →
      (fwd l.idx (argsOf dnn.prevOf x v l.idx)).length = size l.idx)
    -- the arrays `cst_k` and `prediction` are large enough
    (hcst : ∀ l ∈ dnn, ∀ k, plan.cst l.idx = some k → size l.idx ≤ m.size (.cst k))
    (hpred : ∀ n, plan.order.getLast? = some n → size n ≤ m.size .pred)
    -- the code of every layer is correct, with the input and the parameters of `m`
    (hcode : ∀ l ∈ dnn, LayerCodeOK dnn.prevOf plan fwd code m size x l.idx) :
    ∃ y m', interp dnn.prevOf dnn.nextOf fwd plan.order x = some y ∧
      inference plan dnn.prevOf size code m = some ((), m') ∧ Holds m' .pred y := by
  obtain ⟨f⟩ := facts h
  have hsorted := plan_sorted h
  have hperm := plan_perm hu hc h
  have hlk := links hu hc
  have hcl : ∀ n ∈ plan.order, ∀ s ∈ dnn.nextOf n, s ∈ plan.order := by
    intro n _ s hsn
    exact hperm.mem_iff.2 (next_closed hu hc n (nextOf_idx hsn) s hsn)
  have hin : ∀ n ∈ plan.order, ∃ l ∈ dnn, l.idx = n := fun n hn => layer_of_idx (hperm.mem_iff.1 hn)
  obtain ⟨v, hv⟩ := exists_valuation (fwd := fwd) (x := x) hsorted
  have hlast : ∃ n, plan.order.getLast? = some n := by
    cases hd : plan.order.getLast? with
    | none =>
      have : plan.order = [] := List.getLast?_eq_none_iff.1 hd
      have hm := f.hmove
      rw [this] at hm
      unfold moveConsts at hm
      split at hm <;> simp at hm
    | some n => exact ⟨n, rfl⟩
  obtain ⟨n, hn⟩ := hlast
  have hno : n ∈ plan.order := List.mem_of_getLast? hn
  have hint := interp_steps hsorted hlk hcl hv plan.order [] (by simp)
  have hvsz : ∀ pre post, plan.order = pre ++ post → ∀ i ∈ pre, (v i).length = size i := by
    intro pre
    induction pre using List.reverseRecOn with
    | nil => simp
    | append_singleton pre n ih =>
      intro post he i hi
      have ih' := ih (n :: post) (by simp [he])
      rcases List.mem_append.1 hi with hi | hi
      · exact ih' i hi
      · simp at hi; subst hi
        obtain ⟨l, hl, rfl⟩ := hin i (by simp [he])
        rw [hv l.idx (by simp [he])]
        apply hsize l hl
        intro p hp
        exact ih' p ((hsorted pre l.idx post (by simp [he])).2 p (by rw [prevOf_mem hu hl]; exact hp))
  have hvsz := hvsz plan.order [] (by simp)
  obtain ⟨m1, e1, hm1, hx1, hlast1⟩ := run_refines (plan := plan) (nextOf := dnn.nextOf) (code := code)
    (m0 := m) (size := size) (x := x) (fwd := fwd) hsorted hlk
    (fun pre post he p q hpq hp hq => plan_noalias hu hc hs h he hpq hp hq)
    (fun pre post he p q hpq hp hq => by
      rw [f.hcst]
      exact assignCst_noalias hsorted.nodup hlk (simple_prev hu hs) he hpq hp hq)
    (fun n hn => by
      rw [f.hcst] at hn
      exact ((assignCst_keys _ _).1 hn).2)
    (fun n hn => by obtain ⟨l, hl, rfl⟩ := hin n hn; exact hcode l hl)
    hv hvsz
    (fun n hn k hk => by obtain ⟨l, hl, rfl⟩ := hin n hn; exact hcst l hl k hk)
    plan.order [] (by simp) m rfl (fun _ _ => rfl) (by simp) (by simp)
  have hfin := hlast1 n hn
  obtain ⟨m2, e2, h2, _⟩ := copy_holds (fun _ a => a) hfin (dst := .pred)
    (by rw [hm1, hvsz n hno]; exact hpred n hn)
  have hid : (v n).mapIdx (fun _ a => a) = v n := by apply List.ext_getElem <;> simp
  rw [hid] at h2
  refine ⟨v n, m2, ?_, ?_, h2⟩
  · unfold interp
    rw [hint]; simp [hn]
  · unfold inference
    rw [andThen_run e1]
    unfold outputCopy
    rw [hn]
    simp only
    rw [← hvsz n hno]
    exact e2

/-! Scalar layers used to exhibit concrete networks: `dst[0] = c n + src₁[0] + src₂[0] + ...`. -/

def addAll (acc : Nat) : List Buf → Prog Nat Nat
  | [] => ret acc
  | b :: bs => andThen (load b 0) fun v => addAll (acc + v) bs

def scalarCode (c : Nat → Nat) (n : Nat) (srcs : List Buf) (dst : Buf) : Prog Nat Unit :=
  andThen (addAll (c n) (if srcs = [] then [.input] else srcs)) fun v => store dst 0 v

def scalarFwd (c : Nat → Nat) (n : Nat) (args : List (List Nat)) : List Nat :=
  [args.foldl (fun acc t => acc + t.headD 0) (c n)]

theorem addAll_run {m : Mem Nat} {w : Nat → List Nat} {loc : Nat → Buf} (ps : List Nat)
    (h : ∀ p ∈ ps, Holds m (loc p) (w p) ∧ (w p).length = 1) (acc : Nat) :
    addAll acc (ps.map loc) m
      = some ((ps.map w).foldl (fun acc t => acc + t.headD 0) acc, m) := by
  induction ps generalizing acc with
  | nil => rfl
  | cons p ps ih =>
    obtain ⟨h1, h2⟩ := h p (by simp)
    have : load (loc p) ((0 : Nat) : Int) m = some ((w p).headD 0, m) := by
      rw [load_nat (by have := h1.1; omega), h1.2 0 (by omega)]
      simp [List.head?_eq_getElem?, List.headD_eq_head?_getD, h2]
    rw [List.map_cons, addAll]
    refine (andThen_run this).trans ?_
    rw [ih (fun q hq => h q (by simp [hq]))]
    simp

theorem scalarCode_ok {dnn : Dnn} {plan : Plan} (c : Nat → Nat) (x : Nat) (n : Nat) :
    LayerCodeOK dnn.prevOf plan (scalarFwd c) (scalarCode c) ⟨fun _ => 1, fun _ _ => x⟩ (fun _ => 1) [x] n := by
  intro m v hm hr hp
  have hx : Holds m .input [x] := ⟨by rw [hm]; simp, fun a ha => by rw [hr .input trivial]; simp at ha; subst ha; rfl⟩
  have hload : addAll (c n) (if (dnn.prevOf n).map (outStr plan) = [] then [.input] else
      (dnn.prevOf n).map (outStr plan)) m
      = some ((argsOf dnn.prevOf [x] v n).foldl (fun acc t => acc + t.headD 0) (c n), m) := by
    unfold argsOf
    by_cases h0 : dnn.prevOf n = []
    · have := addAll_run (m := m) (w := fun _ => [x]) (loc := fun _ => .input) [0]
        (by simpa using hx) (c n)
      simpa [h0] using this
    · have := addAll_run (m := m) (w := v) (loc := outStr plan) (dnn.prevOf n) hp (c n)
      simpa [h0] using this
  have hst := store_nat (m := m) (b := .out (plan.path n)) (a := 0)
    (v := (argsOf dnn.prevOf [x] v n).foldl (fun acc t => acc + t.headD 0) (c n)) (by rw [hm]; simp)
  refine ⟨_, by rw [scalarCode, andThen_run hload]; exact hst, ⟨by simp [scalarFwd, hm], ?_⟩,
    OnlyChanges.upd m (by simp) _⟩
  intro a ha
  have : a = 0 := by simp [scalarFwd] at ha; omega
  subst this
  simp [Mem.upd_val_same, single, scalarFwd]

/-- the hypotheses of the theorem are met by the diamond network on every one-element input -/
example (x : Nat) : ∃ plan y m', triTopo diamond = some plan ∧
    interp diamond.prevOf diamond.nextOf (scalarFwd id) plan.order [x] = some y ∧
    inference plan diamond.prevOf (fun _ => 1) (scalarCode id) ⟨fun _ => 1, fun _ _ => x⟩
      = some ((), m') ∧ Holds m' .pred y := by
  obtain ⟨h1, h2, h3, _, h5⟩ := diamond_ok
  obtain ⟨plan, hp⟩ := Option.isSome_iff_exists.1 h5
  obtain ⟨y, m', h⟩ := C06_inference_refines_interpreter_partial h1 h2 h3 hp (scalarFwd id)
    (scalarCode id) (fun _ => 1) [x] ⟨fun _ => 1, fun _ _ => x⟩ (by intros; rfl) (by intros; exact Nat.le_refl 1)
    (by intros; exact Nat.le_refl 1) (fun l _ => scalarCode_ok id x l.idx)
  exact ⟨plan, y, m', hp, h⟩

/-- The property for every model. -/
def C06_statement : Prop :=
  ∀ (dnn : Dnn) (plan : Plan), UniqueIdx dnn → Consistent dnn → triTopo dnn = some plan →
    ∀ (fwd : Nat → List (List Nat) → List Nat) (code : Nat → List Buf → Buf → Prog Nat Unit)
      (size : Nat → Nat) (x : List Nat) (m : Mem Nat),
    (∀ l ∈ dnn, ∀ v : Nat → List Nat, (∀ p ∈ l.prev, (v p).length = size p) →
      (fwd l.idx (argsOf dnn.prevOf x v l.idx)).length = size l.idx) →
    (∀ l ∈ dnn, ∀ k, plan.cst l.idx = some k → size l.idx ≤ m.size (.cst k)) →
    (∀ n, plan.order.getLast? = some n → size n ≤ m.size .pred) →
    (∀ l ∈ dnn, LayerCodeOK dnn.prevOf plan fwd code m size x l.idx) →
    ∃ y m', interp dnn.prevOf dnn.nextOf fwd plan.order x = some y ∧
      inference plan dnn.prevOf size code m = some ((), m') ∧ Holds m' .pred y

/-- With a repeated input the generated code returns a wrong result: in `dupNet` (layer `n` adds `n`
to the sum of its inputs) the interpreter computes `(2x+1+2) + (2x+1+3) + 4`, the generated code
overwrites one branch by the other. -/
theorem C06_fails_duplicate_input : ¬ C06_statement := by
  intro H
  obtain ⟨plan, hp, hval, hint⟩ : ∃ plan, triTopo dupNet = some plan ∧
      ((inference plan dupNet.prevOf (fun _ => 1) (scalarCode id) ⟨fun _ => 1, fun _ _ => 5⟩).map
        fun r => r.2.val .pred 0) = some 30 ∧
      interp dupNet.prevOf dupNet.nextOf (scalarFwd id) plan.order [5] = some [31] :=
    ⟨_, rfl, by decide +kernel, by decide +kernel⟩
  obtain ⟨y, m', h1, h2, h3⟩ := H dupNet plan (by decide) (by decide) hp (scalarFwd id)
    (scalarCode id) (fun _ => 1) [5] ⟨fun _ => 1, fun _ _ => 5⟩ (by intros; rfl) (by intros; exact Nat.le_refl 1)
    (by intros; exact Nat.le_refl 1) (fun l _ => scalarCode_ok id 5 l.idx)
  rw [hint] at h1
  simp only [Option.some.injEq] at h1
  subst h1
  rw [h2] at hval
  have := h3.2 0 (by simp)
  simp only [Option.map_some, Option.some.injEq] at hval
  rw [hval] at this
  simp at this

end Verif.Graph

import Verif.Graph.Spec
import Verif.Graph.Sort
import Verif.Graph.Live
import Verif.Graph.CstAlloc
import Verif.Graph.Refine
import Mathlib.Tactic.Tauto

/-! # Facts about plans returned by `triTopo` (helper lemmas for `Verif/Props/Graph.lean`) -/

namespace Verif.Graph

theorem Dnn.get?_of_mem {dnn : Dnn} (hu : UniqueIdx dnn) {l : Layer} (hl : l ∈ dnn) :
    dnn.get? l.idx = some l := by
  unfold Dnn.get?
  unfold UniqueIdx Dnn.idxs at hu
  induction dnn with
  | nil => simp at hl
  | cons a t ih =>
    simp only [List.map_cons, List.nodup_cons] at hu
    by_cases h : a = l
    · subst h; simp
    · have hl' : l ∈ t := by
        rcases List.mem_cons.1 hl with h' | h'
        · exact absurd h'.symm h
        · exact h'
      have hne : (a.idx == l.idx) = false := by
        simp only [beq_eq_false_iff_ne]
        intro he; exact hu.1 (by rw [he]; exact List.mem_map_of_mem hl')
      rw [List.find?_cons_of_neg (by simp [hne])]
      exact ih hu.2 hl'

theorem Dnn.get?_none {dnn : Dnn} {i : Nat} (h : i ∉ dnn.idxs) : dnn.get? i = none := by
  unfold Dnn.get?
  rw [List.find?_eq_none]
  intro l hl he
  simp at he
  exact h (by rw [← he]; exact List.mem_map_of_mem hl)

theorem prevOf_mem {dnn : Dnn} (hu : UniqueIdx dnn) {l : Layer} (hl : l ∈ dnn) :
    dnn.prevOf l.idx = l.prev := by simp [Dnn.prevOf, Dnn.get?_of_mem hu hl]
theorem nextOf_mem {dnn : Dnn} (hu : UniqueIdx dnn) {l : Layer} (hl : l ∈ dnn) :
    dnn.nextOf l.idx = l.next := by simp [Dnn.nextOf, Dnn.get?_of_mem hu hl]
theorem constOf_mem {dnn : Dnn} (hu : UniqueIdx dnn) {l : Layer} (hl : l ∈ dnn) :
    dnn.constOf l.idx = l.isConst := by simp [Dnn.constOf, Dnn.get?_of_mem hu hl]

theorem layer_of_idx {dnn : Dnn} {i : Nat} (h : i ∈ dnn.idxs) : ∃ l ∈ dnn, l.idx = i := by
  simpa [Dnn.idxs] using h

theorem prevOf_idx {dnn : Dnn} {i p : Nat} (h : p ∈ dnn.prevOf i) : i ∈ dnn.idxs := by
  by_contra hc
  simp [Dnn.prevOf, Dnn.get?_none hc] at h
theorem nextOf_idx {dnn : Dnn} {i p : Nat} (h : p ∈ dnn.nextOf i) : i ∈ dnn.idxs := by
  by_contra hc
  simp [Dnn.nextOf, Dnn.get?_none hc] at h

theorem links {dnn : Dnn} (hu : UniqueIdx dnn) (hc : Consistent dnn) (a b : Nat) :
    a ∈ dnn.prevOf b ↔ b ∈ dnn.nextOf a := by
  constructor
  · intro h
    obtain ⟨l, hl, rfl⟩ := layer_of_idx (prevOf_idx h)
    rw [prevOf_mem hu hl] at h
    obtain ⟨q, hq, rfl, hn⟩ := (hc l hl).1 a h
    rw [nextOf_mem hu hq]; exact hn
  · intro h
    obtain ⟨l, hl, rfl⟩ := layer_of_idx (nextOf_idx h)
    rw [nextOf_mem hu hl] at h
    obtain ⟨q, hq, rfl, hn⟩ := (hc l hl).2 b h
    rw [prevOf_mem hu hq]; exact hn

theorem next_closed {dnn : Dnn} (hu : UniqueIdx dnn) (hc : Consistent dnn) :
    ∀ x ∈ dnn.idxs, ∀ y ∈ dnn.nextOf x, y ∈ dnn.idxs := fun x _ y hy =>
  prevOf_idx ((links hu hc x y).2 hy)

theorem simple_prev {dnn : Dnn} (hu : UniqueIdx dnn) (hs : SimpleInputs dnn) (n : Nat) :
    (dnn.prevOf n).Nodup := by
  by_cases h : n ∈ dnn.idxs
  · obtain ⟨l, hl, rfl⟩ := layer_of_idx h
    rw [prevOf_mem hu hl]; exact hs l hl
  · simp [Dnn.prevOf, Dnn.get?_none h]

theorem moveConsts_perm {isConst : Nat → Bool} {l l' : List Nat} (h : moveConsts isConst l = some l') :
    l'.Perm l := by
  unfold moveConsts at h
  split at h
  · simp at h
  · rename_i o os ho
    simp only [Option.some.injEq] at h
    subst h
    have h1 : (l.filter isConst ++ l.filter (fun i => !isConst i)).Perm l :=
      List.filter_append_perm isConst l
    refine List.Perm.trans ?_ h1
    rw [ho]
    exact (List.perm_middle (l₁ := l.filter isConst) (l₂ := os) (a := o)).symm

structure Facts (dnn : Dnn) (plan : Plan) where
  live : Live
  hlive : assignLive dnn.prevOf dnn.nextOf plan.order = some live
  hpath : plan.path = fun i => (live.get? i).getD 0
  hmax : plan.maxPath = (plan.order.map plan.path).foldl max 0 + 1
  hcst : plan.cst = (assignCst dnn.prevOf dnn.nextOf plan.order).get?
  hmove : moveConsts dnn.constOf (sortAll dnn.nextOf dnn.length dnn.idxs).1 = some plan.order

theorem facts {dnn : Dnn} {plan : Plan} (h : triTopo dnn = some plan) : Nonempty (Facts dnn plan) := by
  unfold triTopo at h
  split at h
  · simp at h
  · rename_i order ho
    split at h
    · simp at h
    · rename_i live hl
      simp only [Option.some.injEq] at h
      subst h
      exact ⟨{ live := live, hlive := hl, hpath := rfl, hmax := rfl, hcst := rfl, hmove := ho }⟩

theorem plan_perm {dnn : Dnn} {plan : Plan} (hu : UniqueIdx dnn) (hc : Consistent dnn)
    (h : triTopo dnn = some plan) : plan.order.Perm dnn.idxs := by
  obtain ⟨f⟩ := facts h
  have h1 := sortAll_perm (next_closed hu hc) hu
  have hlen : dnn.idxs.length = dnn.length := by simp [Dnn.idxs]
  rw [hlen] at h1
  exact (moveConsts_perm f.hmove).trans h1

theorem plan_sorted {dnn : Dnn} {plan : Plan} (h : triTopo dnn = some plan) :
    Sorted dnn.prevOf plan.order := by
  obtain ⟨f⟩ := facts h
  intro pre n post he
  exact assignLive_topo f.hlive he

theorem path_get {dnn : Dnn} {plan : Plan} (f : Facts dnn plan) {i : Nat} (hi : i ∈ plan.order) :
    f.live.get? i = some (plan.path i) := by
  have hb := run_base base_init f.hlive
  simp only [List.nil_append] at hb
  obtain ⟨k, hk⟩ := Option.isSome_iff_exists.1 ((hb.keys i).2 hi)
  rw [f.hpath]; simp [hk]

theorem plan_noalias {dnn : Dnn} {plan : Plan} (hu : UniqueIdx dnn) (hc : Consistent dnn)
    (hs : SimpleInputs dnn) (h : triTopo dnn = some plan) {pre post : List Nat}
    (he : plan.order = pre ++ post) {p q : Nat} (hpq : p ≠ q)
    (hp : Held dnn.nextOf pre p) (hq : Held dnn.nextOf pre q) : plan.path p ≠ plan.path q := by
  obtain ⟨f⟩ := facts h
  have := assignLive_noalias f.hlive (links hu hc) (simple_prev hu hs) he hpq hp hq
  rw [path_get f (by rw [he]; simp [hp.1]), path_get f (by rw [he]; simp [hq.1])] at this
  simpa using this

theorem le_foldl_max (l : List Nat) (a : Nat) : a ≤ l.foldl max a ∧ ∀ x ∈ l, x ≤ l.foldl max a := by
  induction l generalizing a with
  | nil => simp
  | cons b l ih =>
    have := ih (max a b)
    simp only [List.foldl_cons, List.mem_cons]
    refine ⟨by omega, ?_⟩
    rintro x (rfl | hx)
    · omega
    · exact this.2 x hx

theorem foldl_max_lt (l : List Nat) (a n : Nat) (ha : a < n) (h : ∀ x ∈ l, x < n) :
    l.foldl max a < n := by
  induction l generalizing a with
  | nil => simpa
  | cons b l ih =>
    simp only [List.foldl_cons]
    apply ih
    · have := h b (by simp); omega
    · intro x hx; exact h x (by simp [hx])

theorem multiCount_eq {dnn : Dnn} (hu : UniqueIdx dnn) {order : List Nat} (hp : order.Perm dnn.idxs) :
    multiCount dnn.nextOf order = multiConsumers dnn := by
  unfold multiCount multiConsumers
  rw [(hp.filter _).length_eq]
  unfold Dnn.idxs
  rw [List.filter_map, List.length_map]
  congr 1
  apply List.filter_congr
  intro l hl
  simp [nextOf_mem hu hl]

end Verif.Graph

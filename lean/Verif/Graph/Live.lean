import Verif.Graph.Spec
import Mathlib.Tactic.Tauto
import Mathlib.Tactic.ByContra
import Mathlib.Data.List.Basic
import Mathlib.Data.List.Nodup
import Mathlib.Data.List.Induction

/-! # The allocation of working buffers (`assign_liveliness_index`) -/

namespace Verif.Graph

variable {prevOf nextOf : Nat → List Nat}

/-- all consumers of `p` other than `n` have been executed -/
def dies (nextOf : Nat → List Nat) (s : Live) (n p : Nat) : Bool :=
  (nextOf p).all (fun c => c == n || (s.get? c).isSome)

theorem freePreds_eq (s : Live) (n : Nat) (ps av : List Nat) :
    freePreds nextOf s n ps av =
      if ∀ p ∈ ps, (s.get? p).isSome then
        some (((ps.filter (dies nextOf s n)).map (fun p => (s.get? p).getD 0)).reverse ++ av)
      else none := by
  induction ps generalizing av with
  | nil => simp [freePreds]
  | cons p ps ih =>
    rw [freePreds]
    cases h : s.get? p with
    | none => simp [h]
    | some k =>
      simp only
      by_cases hd : dies nextOf s n p
      · rw [if_pos (by simpa [dies] using hd), ih]
        simp [h, hd]
      · rw [if_neg (by simpa [dies] using hd), ih]
        simp [h, hd]

theorem Live.get?_cons (c : Nat) (av : List Nat) (n k : Nat) (ix : List (Nat × Nat)) (i : Nat) :
    (Live.mk c av ((n, k) :: ix)).get? i = if i = n then some k else (Live.mk c av ix).get? i := by
  unfold Live.get?
  by_cases h : i = n
  · subst h; simp
  · have h2 : (n == i) = false := by simpa using fun hh => h hh.symm
    simp [h, h2]

theorem Live.get?_mk (s : Live) (c : Nat) (av : List Nat) (i : Nat) :
    (Live.mk c av s.indexes).get? i = s.get? i := rfl

/-- A successful step: the predecessors are allocated, and the layer receives the head of the free
list (or a new index). -/
theorem liveStep_some {s s' : Live} {n : Nat} (h : liveStep prevOf nextOf s n = some s') :
    s.get? n = none ∧ (∀ p ∈ prevOf n, (s.get? p).isSome) ∧
    ∃ k, (∀ i, s'.get? i = if i = n then some k else s.get? i) ∧
      (let av := ((prevOf n).filter (dies nextOf s n)).map (fun p => (s.get? p).getD 0)
       let av := av.reverse ++ s.avail
       (av = [] ∧ k = s.count ∧ s'.count = s.count + 1 ∧ s'.avail = []) ∨
       (av = k :: s'.avail ∧ s'.count = s.count)) := by
  unfold liveStep at h
  by_cases hn : (s.get? n).isSome
  · simp [hn] at h
  · rw [if_neg hn, freePreds_eq] at h
    refine ⟨by simpa using hn, ?_⟩
    by_cases hp : ∀ p ∈ prevOf n, (s.get? p).isSome
    · rw [if_pos hp] at h
      refine ⟨hp, ?_⟩
      generalize hav : (((prevOf n).filter (dies nextOf s n)).map
        (fun p => (s.get? p).getD 0)).reverse ++ s.avail = av at *
      cases av with
      | nil =>
        simp only [Option.some.injEq] at h
        subst h
        exact ⟨s.count, fun i => Live.get?_cons _ _ _ _ _ _, Or.inl ⟨hav, rfl, rfl, rfl⟩⟩
      | cons k av =>
        simp only [Option.some.injEq] at h
        subst h
        exact ⟨k, fun i => Live.get?_cons _ _ _ _ _ _, Or.inr ⟨hav, rfl⟩⟩
    · rw [if_neg hp] at h; simp at h

/-- Bookkeeping that holds for every graph. -/
structure Base (done : List Nat) (s : Live) : Prop where
  keys : ∀ i, (s.get? i).isSome ↔ i ∈ done
  plt : ∀ i k, s.get? i = some k → k < s.count
  alt : ∀ k ∈ s.avail, k < s.count
  cnt : s.count ≤ done.length

theorem base_init : Base [] {} := by
  constructor <;> simp [Live.get?]

theorem base_step {done : List Nat} {s s' : Live} {n : Nat} (hb : Base done s)
    (h : liveStep prevOf nextOf s n = some s') : Base (done ++ [n]) s' := by
  obtain ⟨hn, hp, k, hg, hcase⟩ := liveStep_some h
  have hfr : ∀ x ∈ (((prevOf n).filter (dies nextOf s n)).map
        (fun p => (s.get? p).getD 0)).reverse ++ s.avail, x < s.count := by
    intro x hx
    rcases List.mem_append.1 hx with hx | hx
    · simp only [List.mem_reverse, List.mem_map, List.mem_filter] at hx
      obtain ⟨p, ⟨hpm, _⟩, rfl⟩ := hx
      obtain ⟨kk, hk⟩ := Option.isSome_iff_exists.1 (hp p hpm)
      rw [hk]; exact hb.plt p kk hk
    · exact hb.alt x hx
  have hk : k < s'.count := by
    rcases hcase with ⟨_, rfl, h2, _⟩ | ⟨h1, h2⟩
    · omega
    · rw [h2]; exact hfr k (by rw [h1]; simp)
  have hc : s.count ≤ s'.count := by rcases hcase with ⟨_, _, h2, _⟩ | ⟨_, h2⟩ <;> omega
  refine ⟨?_, ?_, ?_, ?_⟩
  · intro i; rw [hg]
    by_cases hi : i = n
    · simp [hi]
    · simp [hi, hb.keys]
  · intro i k' h'
    rw [hg] at h'
    split at h'
    · simp only [Option.some.injEq] at h'; omega
    · have := hb.plt i k' h'; omega
  · intro x hx
    rcases hcase with ⟨_, _, _, h3⟩ | ⟨h1, h2⟩
    · rw [h3] at hx; simp at hx
    · rw [h2]; exact hfr x (by rw [h1]; simp [hx])
  · have := hb.cnt
    simp only [List.length_append, List.length_singleton]
    rcases hcase with ⟨_, _, h2, _⟩ | ⟨_, h2⟩ <;> omega

/-- The output of `p` occupies its buffer: it has been computed, and either is never consumed or
still has a consumer to run. -/
def Held (nextOf : Nat → List Nat) (done : List Nat) (p : Nat) : Prop :=
  p ∈ done ∧ (nextOf p = [] ∨ ∃ s ∈ nextOf p, s ∉ done)

/-- Allocation invariant, for graphs without repeated inputs. -/
structure Inv (nextOf : Nat → List Nat) (done : List Nat) (s : Live) : Prop where
  nodup : s.avail.Nodup
  disj : ∀ p k, Held nextOf done p → s.get? p = some k → k ∉ s.avail
  inj : ∀ p q k, Held nextOf done p → Held nextOf done q → s.get? p = some k →
    s.get? q = some k → p = q

theorem inv_init : Inv nextOf [] {} := by
  constructor
  · simp
  · intro p k h; simp [Held] at h
  · intro p q k h; simp [Held] at h

theorem inv_step {done : List Nat} {s s' : Live} {n : Nat} (hb : Base done s) (hi : Inv nextOf done s)
    (hc : ∀ a b, a ∈ prevOf b ↔ b ∈ nextOf a) (hs : (prevOf n).Nodup)
    (h : liveStep prevOf nextOf s n = some s') : Inv nextOf (done ++ [n]) s' := by
  obtain ⟨hn, hp, k, hg, hcase⟩ := liveStep_some h
  have hnd : n ∉ done := by
    intro hh; have := (hb.keys n).2 hh; simp [hn] at this
  -- predecessors are held before the step
  have hheld : ∀ p ∈ prevOf n, Held nextOf done p := fun p hpm =>
    ⟨(hb.keys p).1 (hp p hpm), Or.inr ⟨n, (hc p n).1 hpm, hnd⟩⟩
  have hget : ∀ p ∈ prevOf n, s.get? p = some ((s.get? p).getD 0) := by
    intro p hpm
    obtain ⟨kk, hk⟩ := Option.isSome_iff_exists.1 (hp p hpm)
    simp [hk]
  -- what is still held after the step was held before and is not freed
  have hheld' : ∀ p, p ≠ n → Held nextOf (done ++ [n]) p → Held nextOf done p := by
    rintro p hpn ⟨h1, h2⟩
    refine ⟨by simpa [hpn] using h1, ?_⟩
    rcases h2 with h2 | ⟨c, hc1, hc2⟩
    · exact Or.inl h2
    · exact Or.inr ⟨c, hc1, fun hh => hc2 (by simp [hh])⟩
  have hnotdie : ∀ p ∈ prevOf n, Held nextOf (done ++ [n]) p → dies nextOf s n p = false := by
    rintro p hpm ⟨h1, h2⟩
    by_contra hd
    have hd : dies nextOf s n p = true := by simpa using hd
    simp only [dies, List.all_eq_true, Bool.or_eq_true, beq_iff_eq] at hd
    rcases h2 with h2 | ⟨c, hc1, hc2⟩
    · have := (hc p n).1 hpm; rw [h2] at this; simp at this
    · rcases hd c hc1 with hd | hd
      · exact hc2 (by simp [hd])
      · exact hc2 (by simp [(hb.keys c).1 hd])
  simp only at hcase
  generalize hav : (((prevOf n).filter (dies nextOf s n)).map
        (fun p => (s.get? p).getD 0)).reverse ++ s.avail = av at *
  have havnd : av.Nodup := by
    rw [← hav, List.nodup_append]
    refine ⟨?_, hi.nodup, ?_⟩
    · rw [List.nodup_reverse]
      apply List.Nodup.map_on
      · intro x hx y hy hxy
        have hx := (List.mem_filter.1 hx).1
        have hy := (List.mem_filter.1 hy).1
        exact hi.inj x y _ (hheld x hx) (hheld y hy) (hget x hx) (by rw [hxy]; exact hget y hy)
      · exact hs.filter _
    · intro a ha b hb' hab
      subst hab
      simp only [List.mem_reverse, List.mem_map, List.mem_filter] at ha
      obtain ⟨p, ⟨hpm, _⟩, rfl⟩ := ha
      exact hi.disj p _ (hheld p hpm) (hget p hpm) hb'
  have havdisj : ∀ p kk, p ≠ n → Held nextOf (done ++ [n]) p → s.get? p = some kk → kk ∉ av := by
    intro p kk hpn hph hpk hmem
    rw [← hav] at hmem
    rcases List.mem_append.1 hmem with hx | hx
    · simp only [List.mem_reverse, List.mem_map, List.mem_filter] at hx
      obtain ⟨q, ⟨hqm, hqd⟩, rfl⟩ := hx
      have := hi.inj p q _ (hheld' p hpn hph) (hheld q hqm) hpk (hget q hqm)
      subst this
      rw [hnotdie p hqm hph] at hqd; simp at hqd
    · exact hi.disj p kk (hheld' p hpn hph) hpk hx
  -- the new index is not used by a held layer
  have hknew : ∀ p, p ≠ n → Held nextOf (done ++ [n]) p → s.get? p ≠ some k := by
    intro p hpn hph hpk
    rcases hcase with ⟨_, rfl, _, _⟩ | ⟨h1, _⟩
    · exact absurd (hb.plt p _ hpk) (Nat.lt_irrefl _)
    · exact havdisj p k hpn hph hpk (by rw [h1]; simp)
  have hkav : k ∉ s'.avail ∧ s'.avail.Nodup ∧ ∀ x ∈ s'.avail, x ∈ av := by
    rcases hcase with ⟨_, _, _, h3⟩ | ⟨h1, _⟩
    · rw [h3]; simp
    · rw [h1] at havnd
      rw [List.nodup_cons] at havnd
      exact ⟨havnd.1, havnd.2, fun x hx => by rw [h1]; simp [hx]⟩
  refine ⟨hkav.2.1, ?_, ?_⟩
  · intro p kk hph hpk
    rw [hg] at hpk
    split at hpk
    · simp only [Option.some.injEq] at hpk; subst hpk; exact hkav.1
    · rename_i hpn
      exact fun hh => havdisj p kk hpn hph hpk (hkav.2.2 kk hh)
  · intro p q kk hph hqh hpk hqk
    rw [hg] at hpk hqk
    by_cases hpn : p = n <;> by_cases hqn : q = n
    · rw [hpn, hqn]
    · simp only [hpn, if_true, Option.some.injEq] at hpk
      subst hpk; simp only [hqn, if_false] at hqk
      exact absurd hqk (hknew q hqn hqh)
    · simp only [hqn, if_true, Option.some.injEq] at hqk
      subst hqk; simp only [hpn, if_false] at hpk
      exact absurd hpk (hknew p hpn hph)
    · simp only [hpn, hqn, if_false] at hpk hqk
      exact hi.inj p q kk (hheld' p hpn hph) (hheld' q hqn hqh) hpk hqk

/-- the run over `order`, split at any point -/
theorem assign_split {pre post : List Nat} {s0 s : Live}
    (h : (pre ++ post).foldlM (liveStep prevOf nextOf) s0 = some s) :
    ∃ s1, pre.foldlM (liveStep prevOf nextOf) s0 = some s1 ∧
      post.foldlM (liveStep prevOf nextOf) s1 = some s := by
  rw [List.foldlM_append] at h
  cases h1 : pre.foldlM (liveStep prevOf nextOf) s0 with
  | none => rw [h1] at h; simp at h
  | some s1 => rw [h1] at h; exact ⟨s1, rfl, by simpa using h⟩

theorem run_base {done l : List Nat} {s s' : Live} (hb : Base done s)
    (h : l.foldlM (liveStep prevOf nextOf) s = some s') : Base (done ++ l) s' := by
  induction l generalizing done s with
  | nil =>
    simp only [List.foldlM_nil, Option.pure_def, Option.some.injEq] at h
    subst h; simpa using hb
  | cons n l ih =>
    rw [List.foldlM_cons] at h
    cases h1 : liveStep prevOf nextOf s n with
    | none => rw [h1] at h; simp at h
    | some s1 =>
      rw [h1] at h
      have := ih (base_step hb h1) (by simpa using h)
      simpa using this

theorem run_inv {done l : List Nat} {s s' : Live} (hb : Base done s) (hi : Inv nextOf done s)
    (hc : ∀ a b, a ∈ prevOf b ↔ b ∈ nextOf a) (hs : ∀ n, (prevOf n).Nodup)
    (h : l.foldlM (liveStep prevOf nextOf) s = some s') : Inv nextOf (done ++ l) s' := by
  induction l generalizing done s with
  | nil =>
    simp only [List.foldlM_nil, Option.pure_def, Option.some.injEq] at h
    subst h; simpa using hi
  | cons n l ih =>
    rw [List.foldlM_cons] at h
    cases h1 : liveStep prevOf nextOf s n with
    | none => rw [h1] at h; simp at h
    | some s1 =>
      rw [h1] at h
      have := ih (base_step hb h1) (inv_step hb hi hc (hs n) h1) (by simpa using h)
      simpa using this

/-- indexes are never reassigned -/
theorem run_stable {l : List Nat} {s s' : Live} (h : l.foldlM (liveStep prevOf nextOf) s = some s')
    {i k : Nat} (hk : s.get? i = some k) : s'.get? i = some k := by
  induction l generalizing s with
  | nil =>
    simp only [List.foldlM_nil, Option.pure_def, Option.some.injEq] at h
    subst h; exact hk
  | cons n l ih =>
    rw [List.foldlM_cons] at h
    cases h1 : liveStep prevOf nextOf s n with
    | none => rw [h1] at h; simp at h
    | some s1 =>
      rw [h1] at h
      obtain ⟨hn, _, k', hg, _⟩ := liveStep_some h1
      refine ih (by simpa using h) ?_
      rw [hg, if_neg]
      · exact hk
      · rintro rfl; rw [hn] at hk; simp at hk

/-- No two held layers share an index, at any point of the execution. -/
theorem assignLive_noalias {order : List Nat} {s : Live}
    (h : assignLive prevOf nextOf order = some s)
    (hc : ∀ a b, a ∈ prevOf b ↔ b ∈ nextOf a) (hs : ∀ n, (prevOf n).Nodup)
    {pre post : List Nat} (he : order = pre ++ post) {p q : Nat} (hpq : p ≠ q)
    (hp : Held nextOf pre p) (hq : Held nextOf pre q) : s.get? p ≠ s.get? q := by
  subst he
  obtain ⟨s1, h1, h2⟩ := assign_split h
  have hb := run_base base_init h1
  have hi := run_inv base_init inv_init hc hs h1
  simp only [List.nil_append] at hb hi
  obtain ⟨kp, hkp⟩ := Option.isSome_iff_exists.1 ((hb.keys p).2 hp.1)
  obtain ⟨kq, hkq⟩ := Option.isSome_iff_exists.1 ((hb.keys q).2 hq.1)
  rw [run_stable h2 hkp, run_stable h2 hkq]
  intro hh
  simp only [Option.some.injEq] at hh
  subst hh
  exact hpq (hi.inj p q kp hp hq hkp hkq)

/-- A successful allocation proves that the order is duplicate-free and topological. -/
theorem assignLive_topo {order : List Nat} {s : Live} (h : assignLive prevOf nextOf order = some s)
    {pre post : List Nat} {n : Nat} (he : order = pre ++ n :: post) :
    n ∉ pre ∧ ∀ p ∈ prevOf n, p ∈ pre := by
  subst he
  obtain ⟨s1, h1, h2⟩ := assign_split h
  have hb := run_base base_init h1
  simp only [List.nil_append] at hb
  rw [List.foldlM_cons] at h2
  cases h3 : liveStep prevOf nextOf s1 n with
  | none => rw [h3] at h2; simp at h2
  | some s2 =>
    obtain ⟨hn, hp, _⟩ := liveStep_some h3
    refine ⟨fun hh => ?_, fun p hpm => (hb.keys p).1 (hp p hpm)⟩
    have := (hb.keys n).2 hh
    simp [hn] at this

/-- Conversely a duplicate-free topological order is always allocated. -/
theorem assignLive_succeeds {order : List Nat} (hnd : order.Nodup)
    (ht : ∀ pre n post, order = pre ++ n :: post → ∀ p ∈ prevOf n, p ∈ pre) :
    ∃ s, assignLive prevOf nextOf order = some s := by
  suffices H : ∀ pre post, order = pre ++ post →
      ∃ s, pre.foldlM (liveStep prevOf nextOf) {} = some s by
    exact H order [] (by simp)
  intro pre
  induction pre using List.reverseRecOn with
  | nil => intro _ _; exact ⟨{}, rfl⟩
  | append_singleton pre n ih =>
    intro post he
    obtain ⟨s, h1⟩ := ih ([n] ++ post) (by simpa using he)
    have hb := run_base base_init h1
    simp only [List.nil_append] at hb
    rw [List.foldlM_append, h1]
    simp only [Option.bind_eq_bind, Option.bind_some, List.foldlM_cons, List.foldlM_nil]
    have hn : ¬ (s.get? n).isSome := by
      rw [hb.keys]
      intro hh
      rw [he] at hnd
      simp only [List.append_assoc, List.singleton_append] at hnd
      rw [List.nodup_append] at hnd
      exact hnd.2.2 n hh n (by simp) rfl
    have hp : ∀ p ∈ prevOf n, (s.get? p).isSome := fun p hp =>
      (hb.keys p).2 (ht pre n post (by simpa using he) p hp)
    unfold liveStep
    rw [if_neg hn, freePreds_eq, if_pos hp]
    generalize (((prevOf n).filter (dies nextOf s n)).map
        (fun p => (s.get? p).getD 0)).reverse ++ s.avail = av
    cases av <;> exact ⟨_, rfl⟩

/-- The only consumer of its only producer takes over the producer's index. -/
theorem assignLive_inplace {order : List Nat} {s : Live} (h : assignLive prevOf nextOf order = some s)
    {n p : Nat} (hn : n ∈ order) (hp : prevOf n = [p]) (hx : nextOf p = [n]) :
    s.get? n = s.get? p := by
  obtain ⟨pre, post, rfl⟩ := List.append_of_mem hn
  obtain ⟨s1, h1, h2⟩ := assign_split h
  rw [List.foldlM_cons] at h2
  cases h3 : liveStep prevOf nextOf s1 n with
  | none => rw [h3] at h2; simp at h2
  | some s2 =>
    rw [h3] at h2
    simp only [Option.bind_eq_bind, Option.bind_some] at h2
    obtain ⟨hn, hpm, k, hg, hcase⟩ := liveStep_some h3
    have hsome := hpm p (by rw [hp]; simp)
    obtain ⟨kp, hkp⟩ := Option.isSome_iff_exists.1 hsome
    have hd : dies nextOf s1 n p = true := by simp [dies, hx]
    rw [hp] at hcase
    simp only [List.filter_cons, hd, if_true, List.filter_nil, List.map_cons, List.map_nil, hkp,
      Option.getD_some, List.reverse_singleton, List.singleton_append] at hcase
    have hk : k = kp := by
      rcases hcase with ⟨h, _⟩ | ⟨h, _⟩
      · simp at h
      · simp only [List.cons.injEq] at h; exact h.1.symm
    have hpn : p ≠ n := by rintro rfl; rw [hn] at hkp; simp at hkp
    have e1 := hg n
    rw [if_pos rfl] at e1
    have e2 := hg p
    rw [if_neg hpn, hkp] at e2
    rw [run_stable h2 e1, run_stable h2 e2, hk]

/-- A layer that consumes `q` last, after a layer that is the only other consumer of `q`, takes over the index of `q`. -/
theorem assignLive_inplace2 {order : List Nat} {s : Live} (h : assignLive prevOf nextOf order = some s)
    {n a q : Nat} (hn : n ∈ order) (hp : prevOf n = [a, q]) (hx : ∀ c ∈ nextOf q, c = n ∨ c = a) :
    s.get? n = s.get? q := by
  obtain ⟨pre, post, rfl⟩ := List.append_of_mem hn
  obtain ⟨s1, h1, h2⟩ := assign_split h
  rw [List.foldlM_cons] at h2
  cases h3 : liveStep prevOf nextOf s1 n with
  | none => rw [h3] at h2; simp at h2
  | some s2 =>
    rw [h3] at h2
    simp only [Option.bind_eq_bind, Option.bind_some] at h2
    obtain ⟨hn, hpm, k, hg, hcase⟩ := liveStep_some h3
    obtain ⟨kq, hkq⟩ := Option.isSome_iff_exists.1 (hpm q (by rw [hp]; simp))
    have hsa := hpm a (by rw [hp]; simp)
    have hd : dies nextOf s1 n q = true := by
      simp only [dies, List.all_eq_true, Bool.or_eq_true, beq_iff_eq]
      intro c hc
      rcases hx c hc with e | e
      · exact Or.inl e
      · subst e; exact Or.inr hsa
    rw [hp] at hcase
    have hk : k = kq := by
      by_cases hda : dies nextOf s1 n a = true
      · simp only [List.filter_cons, hd, hda, if_true, List.filter_nil, List.map_cons, List.map_nil, hkq,
          Option.getD_some, List.reverse_cons, List.reverse_nil, List.nil_append,
          List.cons_append] at hcase
        rcases hcase with ⟨h, _⟩ | ⟨h, _⟩
        · simp at h
        · simp only [List.cons.injEq] at h; exact h.1.symm
      · simp only [List.filter_cons, hd, hda, if_true, List.filter_nil, List.map_cons, List.map_nil, hkq,
          Option.getD_some, List.reverse_cons, List.reverse_nil, List.nil_append, List.singleton_append,
          Bool.false_eq_true, if_false] at hcase
        rcases hcase with ⟨h, _⟩ | ⟨h, _⟩
        · simp at h
        · simp only [List.cons.injEq] at h; exact h.1.symm
    have hpn : q ≠ n := by rintro rfl; rw [hn] at hkq; simp at hkq
    have e1 := hg n
    rw [if_pos rfl] at e1
    have e2 := hg q
    rw [if_neg hpn, hkq] at e2
    rw [run_stable h2 e1, run_stable h2 e2, hk]

end Verif.Graph

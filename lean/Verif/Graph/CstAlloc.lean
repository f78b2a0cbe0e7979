import Verif.Graph.Spec
import Mathlib.Tactic.Tauto
import Mathlib.Tactic.ByContra
import Mathlib.Data.List.Basic
import Mathlib.Data.List.Nodup
import Mathlib.Data.List.Induction

/-! # The allocation of `cst` buffers (`assign_cst`) -/

namespace Verif.Graph

variable {prevOf nextOf : Nat → List Nat}

/-- the saved copy of `p` is released when a layer is visited -/
def released (nextOf : Nat → List Nat) (s : Cst) (visited : List Nat) (p : Nat) : Bool :=
  (s.get? p).isSome && (nextOf p).all (fun c => visited.contains c)

theorem freeCst_eq (s : Cst) (visited ps av : List Nat) :
    freeCst nextOf s visited ps av =
      ((ps.filter (released nextOf s visited)).map (fun p => (s.get? p).getD 0)).reverse ++ av := by
  induction ps generalizing av with
  | nil => simp [freeCst]
  | cons p ps ih =>
    rw [freeCst]
    cases h : s.get? p with
    | none => simp [released, h, ih]
    | some k =>
      simp only
      by_cases hd : (nextOf p).all (fun c => visited.contains c)
      · rw [if_pos hd, ih]
        have : released nextOf s visited p = true := by simp only [released, h, hd]; rfl
        simp [this, h]
      · rw [if_neg hd, ih]
        have : released nextOf s visited p = false := by
          have hd : (nextOf p).all (fun c => visited.contains c) = false := by simpa using hd
          simp only [released, h, hd]; rfl
        simp [this]

theorem Cst.get?_cons (c : Nat) (av v : List Nat) (n k : Nat) (ix : List (Nat × Nat)) (i : Nat) :
    (Cst.mk c av ((n, k) :: ix) v).get? i = if i = n then some k else (Cst.mk c av ix v).get? i := by
  unfold Cst.get?
  by_cases h : i = n
  · subst h; simp
  · have h2 : (n == i) = false := by simpa using fun hh => h hh.symm
    simp [h, h2]

/-- One step, described by cases. -/
theorem cstStep_cases (s : Cst) (n : Nat) :
    let s' := cstStep prevOf nextOf s n
    let av := ((((prevOf n).filter (released nextOf s (n :: s.visited))).map
        (fun p => (s.get? p).getD 0)).reverse ++ s.avail)
    s'.visited = n :: s.visited ∧
    ((¬ (nextOf n).length > 1 ∧ (∀ i, s'.get? i = s.get? i) ∧ s'.avail = av ∧ s'.count = s.count) ∨
     ((nextOf n).length > 1 ∧ ∃ k, (∀ i, s'.get? i = if i = n then some k else s.get? i) ∧
       ((av = [] ∧ k = s.count ∧ s'.count = s.count + 1 ∧ s'.avail = []) ∨
        (av = k :: s'.avail ∧ s'.count = s.count)))) := by
  intro s' av
  have hs' : s' = cstStep prevOf nextOf s n := rfl
  unfold cstStep at hs'
  simp only [freeCst_eq] at hs'
  have hav : av = ((((prevOf n).filter (released nextOf s (n :: s.visited))).map
        (fun p => (s.get? p).getD 0)).reverse ++ s.avail) := rfl
  rw [← hav] at hs'
  clear_value av s'
  by_cases h : (nextOf n).length > 1
  · rw [if_pos h] at hs'
    cases av with
    | nil =>
      simp only at hs'
      rw [hs']
      exact ⟨rfl, Or.inr ⟨h, s.count, fun i => Cst.get?_cons _ _ _ _ _ _ _, Or.inl ⟨rfl, rfl, rfl, rfl⟩⟩⟩
    | cons k av =>
      simp only at hs'
      rw [hs']
      exact ⟨rfl, Or.inr ⟨h, k, fun i => Cst.get?_cons _ _ _ _ _ _ _, Or.inr ⟨rfl, rfl⟩⟩⟩
  · rw [if_neg h] at hs'
    rw [hs']
    exact ⟨rfl, Or.inl ⟨h, fun i => rfl, rfl, rfl⟩⟩

/-- number of multi-consumer layers in a list -/
def multiCount (nextOf : Nat → List Nat) (l : List Nat) : Nat :=
  (l.filter (fun i => decide ((nextOf i).length > 1))).length

structure CBase (nextOf : Nat → List Nat) (done : List Nat) (s : Cst) : Prop where
  vis : ∀ i, i ∈ s.visited ↔ i ∈ done
  keys : ∀ i, (s.get? i).isSome ↔ i ∈ done ∧ (nextOf i).length > 1
  plt : ∀ i k, s.get? i = some k → k < s.count
  alt : ∀ k ∈ s.avail, k < s.count
  cnt : s.count ≤ multiCount nextOf done

theorem cbase_init : CBase nextOf [] {} := by
  constructor <;> simp [Cst.get?]

theorem cbase_step {done : List Nat} {s : Cst} {n : Nat} (hb : CBase nextOf done s) :
    CBase nextOf (done ++ [n]) (cstStep prevOf nextOf s n) := by
  obtain ⟨hv, hcase⟩ := cstStep_cases (prevOf := prevOf) (nextOf := nextOf) s n
  have hfr : ∀ x ∈ (((prevOf n).filter (released nextOf s (n :: s.visited))).map
        (fun p => (s.get? p).getD 0)).reverse ++ s.avail, x < s.count := by
    intro x hx
    rcases List.mem_append.1 hx with hx | hx
    · simp only [List.mem_reverse, List.mem_map, List.mem_filter, released, Bool.and_eq_true] at hx
      obtain ⟨p, ⟨hpm, hps, _⟩, rfl⟩ := hx
      obtain ⟨kk, hk⟩ := Option.isSome_iff_exists.1 hps
      rw [hk]; exact hb.plt p kk hk
    · exact hb.alt x hx
  generalize cstStep prevOf nextOf s n = s' at *
  have hmc : multiCount nextOf (done ++ [n]) =
      multiCount nextOf done + if (nextOf n).length > 1 then 1 else 0 := by
    unfold multiCount
    rw [List.filter_append, List.length_append]
    by_cases h : (nextOf n).length > 1 <;> simp [h]
  rcases hcase with ⟨h1, h2, h3, h4⟩ | ⟨h1, k, h2, h3⟩
  · refine ⟨?_, ?_, ?_, ?_, ?_⟩
    · intro i; rw [hv]; simp [hb.vis]; tauto
    · intro i; rw [h2, hb.keys]
      simp only [List.mem_append, List.mem_singleton]
      constructor
      · tauto
      · rintro ⟨h | rfl, h'⟩
        · exact ⟨h, h'⟩
        · exact absurd h' h1
    · intro i k; rw [h2, h4]; exact hb.plt i k
    · intro x hx; rw [h3] at hx; rw [h4]; exact hfr x hx
    · rw [h4, hmc]; have := hb.cnt; omega
  · have hk : k < s'.count := by
      rcases h3 with ⟨_, rfl, h5, _⟩ | ⟨h5, h6⟩
      · omega
      · rw [h6]; exact hfr k (by rw [h5]; simp)
    have hc : s.count ≤ s'.count := by rcases h3 with ⟨_, _, h5, _⟩ | ⟨_, h5⟩ <;> omega
    refine ⟨?_, ?_, ?_, ?_, ?_⟩
    · intro i; rw [hv]; simp [hb.vis]; tauto
    · intro i; rw [h2]
      by_cases hi : i = n
      · simp [hi]; simpa using h1
      · simp [hi, hb.keys]
    · intro i k' h'
      rw [h2] at h'
      split at h'
      · simp only [Option.some.injEq] at h'; omega
      · have := hb.plt i k' h'; omega
    · intro x hx
      rcases h3 with ⟨_, _, _, h6⟩ | ⟨h5, h6⟩
      · rw [h6] at hx; simp at hx
      · rw [h6]; exact hfr x (by rw [h5]; simp [hx])
    · rw [hmc, if_pos h1]
      have := hb.cnt
      rcases h3 with ⟨_, _, h5, _⟩ | ⟨_, h5⟩ <;> omega

/-- The saved copy of `p` is still needed. -/
def CHeld (nextOf : Nat → List Nat) (done : List Nat) (p : Nat) : Prop :=
  p ∈ done ∧ (nextOf p).length > 1 ∧ ∃ s ∈ nextOf p, s ∉ done

structure CInv (nextOf : Nat → List Nat) (done : List Nat) (s : Cst) : Prop where
  nodup : s.avail.Nodup
  disj : ∀ p k, CHeld nextOf done p → s.get? p = some k → k ∉ s.avail
  inj : ∀ p q k, CHeld nextOf done p → CHeld nextOf done q → s.get? p = some k →
    s.get? q = some k → p = q

theorem cinv_init : CInv nextOf [] {} := by
  constructor
  · simp
  · intro p k h; simp [CHeld] at h
  · intro p q k h; simp [CHeld] at h

theorem cinv_step {done : List Nat} {s : Cst} {n : Nat} (hb : CBase nextOf done s)
    (hi : CInv nextOf done s) (hnd : n ∉ done)
    (hc : ∀ a b, a ∈ prevOf b ↔ b ∈ nextOf a) (hs : (prevOf n).Nodup) :
    CInv nextOf (done ++ [n]) (cstStep prevOf nextOf s n) := by
  obtain ⟨hv, hcase⟩ := cstStep_cases (prevOf := prevOf) (nextOf := nextOf) s n
  generalize cstStep prevOf nextOf s n = s' at *
  have hheld : ∀ p ∈ prevOf n, (s.get? p).isSome → CHeld nextOf done p := fun p hpm hps =>
    ⟨((hb.keys p).1 hps).1, ((hb.keys p).1 hps).2, n, (hc p n).1 hpm, hnd⟩
  have hget : ∀ p, (s.get? p).isSome → s.get? p = some ((s.get? p).getD 0) := by
    intro p hps
    obtain ⟨kk, hk⟩ := Option.isSome_iff_exists.1 hps
    simp [hk]
  have hheld' : ∀ p, p ≠ n → CHeld nextOf (done ++ [n]) p → CHeld nextOf done p := by
    rintro p hpn ⟨h1, h2, c, hc1, hc2⟩
    exact ⟨by simpa [hpn] using h1, h2, c, hc1, fun hh => hc2 (by simp [hh])⟩
  have hnotrel : ∀ p, CHeld nextOf (done ++ [n]) p →
      released nextOf s (n :: s.visited) p = false := by
    rintro p ⟨h1, h2, c, hc1, hc2⟩
    by_contra hd
    have hd : released nextOf s (n :: s.visited) p = true := by simpa using hd
    simp only [released, Bool.and_eq_true, List.all_eq_true] at hd
    have := hd.2 c hc1
    have : c = n ∨ c ∈ s.visited := by simpa using this
    rcases this with h | h
    · exact hc2 (by simp [h])
    · exact hc2 (by simp [(hb.vis c).1 h])
  generalize hav : (((prevOf n).filter (released nextOf s (n :: s.visited))).map
        (fun p => (s.get? p).getD 0)).reverse ++ s.avail = av at *
  have hrs : ∀ p, released nextOf s (n :: s.visited) p = true → (s.get? p).isSome := by
    intro p hp; simp only [released, Bool.and_eq_true] at hp; exact hp.1
  have havnd : av.Nodup := by
    rw [← hav, List.nodup_append]
    refine ⟨?_, hi.nodup, ?_⟩
    · rw [List.nodup_reverse]
      apply List.Nodup.map_on
      · intro x hx y hy hxy
        obtain ⟨hx, hxr⟩ := List.mem_filter.1 hx
        obtain ⟨hy, hyr⟩ := List.mem_filter.1 hy
        exact hi.inj x y _ (hheld x hx (hrs x hxr)) (hheld y hy (hrs y hyr)) (hget x (hrs x hxr))
          (by rw [hxy]; exact hget y (hrs y hyr))
      · exact hs.filter _
    · intro a ha b hb' hab
      subst hab
      simp only [List.mem_reverse, List.mem_map, List.mem_filter] at ha
      obtain ⟨p, ⟨hpm, hpr⟩, rfl⟩ := ha
      exact hi.disj p _ (hheld p hpm (hrs p hpr)) (hget p (hrs p hpr)) hb'
  have havdisj : ∀ p kk, p ≠ n → CHeld nextOf (done ++ [n]) p → s.get? p = some kk → kk ∉ av := by
    intro p kk hpn hph hpk hmem
    rw [← hav] at hmem
    rcases List.mem_append.1 hmem with hx | hx
    · simp only [List.mem_reverse, List.mem_map, List.mem_filter] at hx
      obtain ⟨q, ⟨hqm, hqd⟩, rfl⟩ := hx
      have := hi.inj p q _ (hheld' p hpn hph) (hheld q hqm (hrs q hqd)) hpk (hget q (hrs q hqd))
      subst this
      rw [hnotrel p hph] at hqd; simp at hqd
    · exact hi.disj p kk (hheld' p hpn hph) hpk hx
  rcases hcase with ⟨h1, h2, h3, h4⟩ | ⟨h1, k, h2, h3⟩
  · have hpn : ∀ p, CHeld nextOf (done ++ [n]) p → p ≠ n := by
      rintro p ⟨_, h, _⟩ rfl; exact h1 h
    refine ⟨by rw [h3]; exact havnd, ?_, ?_⟩
    · intro p kk hph hpk
      rw [h2] at hpk; rw [h3]
      exact havdisj p kk (hpn p hph) hph hpk
    · intro p q kk hph hqh hpk hqk
      rw [h2] at hpk hqk
      exact hi.inj p q kk (hheld' p (hpn p hph) hph) (hheld' q (hpn q hqh) hqh) hpk hqk
  · have hknew : ∀ p, p ≠ n → CHeld nextOf (done ++ [n]) p → s.get? p ≠ some k := by
      intro p hpn hph hpk
      rcases h3 with ⟨_, rfl, _, _⟩ | ⟨h5, _⟩
      · exact absurd (hb.plt p _ hpk) (Nat.lt_irrefl _)
      · exact havdisj p k hpn hph hpk (by rw [h5]; simp)
    have hkav : k ∉ s'.avail ∧ s'.avail.Nodup ∧ ∀ x ∈ s'.avail, x ∈ av := by
      rcases h3 with ⟨_, _, _, h6⟩ | ⟨h5, _⟩
      · rw [h6]; simp
      · rw [h5] at havnd
        rw [List.nodup_cons] at havnd
        exact ⟨havnd.1, havnd.2, fun x hx => by rw [h5]; simp [hx]⟩
    refine ⟨hkav.2.1, ?_, ?_⟩
    · intro p kk hph hpk
      rw [h2] at hpk
      split at hpk
      · simp only [Option.some.injEq] at hpk; subst hpk; exact hkav.1
      · rename_i hpn
        exact fun hh => havdisj p kk hpn hph hpk (hkav.2.2 kk hh)
    · intro p q kk hph hqh hpk hqk
      rw [h2] at hpk hqk
      by_cases hpn : p = n <;> by_cases hqn : q = n
      · rw [hpn, hqn]
      · simp only [hpn, if_true, Option.some.injEq] at hpk
        subst hpk; simp only [hqn, if_false] at hqk
        exact absurd hqk (hknew q hqn hqh)
      · simp only [hqn, if_true, Option.some.injEq] at hqk
        subst hqk; simp only [hpn, if_false] at hpk
        exact absurd hpk (hknew p hpn hph)
      · simp only [hpn, hqn, if_false] at hpk hqk
        exact hi.inj p q kk (hheld' p hpn hph) (hheld' q hqn hqh) hpk hqk

theorem crun_base {done l : List Nat} {s : Cst} (hb : CBase nextOf done s) :
    CBase nextOf (done ++ l) (l.foldl (cstStep prevOf nextOf) s) := by
  induction l generalizing done s with
  | nil => simpa using hb
  | cons n l ih =>
    have := ih (cbase_step (prevOf := prevOf) (n := n) hb)
    simpa using this

theorem crun_inv {done l : List Nat} {s : Cst} (hb : CBase nextOf done s) (hi : CInv nextOf done s)
    (hnd : (done ++ l).Nodup) (hc : ∀ a b, a ∈ prevOf b ↔ b ∈ nextOf a)
    (hs : ∀ n, (prevOf n).Nodup) :
    CInv nextOf (done ++ l) (l.foldl (cstStep prevOf nextOf) s) := by
  induction l generalizing done s with
  | nil => simpa using hi
  | cons n l ih =>
    have hn : n ∉ done := by
      intro hh
      rw [List.nodup_append] at hnd
      exact hnd.2.2 n hh n (by simp) rfl
    have := ih (cbase_step (prevOf := prevOf) (n := n) hb) (cinv_step hb hi hn hc (hs n)) (by simpa using hnd)
    simpa using this

theorem crun_stable {l : List Nat} {s : Cst} {i : Nat} (hl : i ∉ l) :
    (l.foldl (cstStep prevOf nextOf) s).get? i = s.get? i := by
  induction l generalizing s with
  | nil => rfl
  | cons n l ih =>
    simp only [List.mem_cons, not_or] at hl
    rw [List.foldl_cons, ih hl.2]
    obtain ⟨_, hcase⟩ := cstStep_cases (prevOf := prevOf) (nextOf := nextOf) s n
    rcases hcase with ⟨_, h2, _⟩ | ⟨_, k, h2, _⟩
    · exact h2 i
    · rw [h2 i, if_neg hl.1]

/-- No two layers whose saved copies are needed share a `cst` index. -/
theorem assignCst_noalias {order : List Nat} (hnd : order.Nodup)
    (hc : ∀ a b, a ∈ prevOf b ↔ b ∈ nextOf a) (hs : ∀ n, (prevOf n).Nodup)
    {pre post : List Nat} (he : order = pre ++ post) {p q : Nat} (hpq : p ≠ q)
    (hp : CHeld nextOf pre p) (hq : CHeld nextOf pre q) :
    (assignCst prevOf nextOf order).get? p ≠ (assignCst prevOf nextOf order).get? q := by
  subst he
  unfold assignCst
  rw [List.foldl_append]
  have hb := crun_base (prevOf := prevOf) (l := pre) (cbase_init (nextOf := nextOf))
  have hi := crun_inv (prevOf := prevOf) (l := pre) (cbase_init (nextOf := nextOf)) cinv_init
    (by simpa using (List.nodup_append.1 hnd).1) hc hs
  simp only [List.nil_append] at hb hi
  have hd : ∀ i, i ∈ pre → i ∉ post := fun i h1 h2 => (List.nodup_append.1 hnd).2.2 i h1 i h2 rfl
  rw [crun_stable (hd p hp.1), crun_stable (hd q hq.1)]
  obtain ⟨kp, hkp⟩ := Option.isSome_iff_exists.1 ((hb.keys p).2 ⟨hp.1, hp.2.1⟩)
  obtain ⟨kq, hkq⟩ := Option.isSome_iff_exists.1 ((hb.keys q).2 ⟨hq.1, hq.2.1⟩)
  rw [hkp, hkq]
  intro hh
  simp only [Option.some.injEq] at hh
  subst hh
  exact hpq (hi.inj p q kp hp hq hkp hkq)

theorem assignCst_keys (order : List Nat) (i : Nat) :
    ((assignCst prevOf nextOf order).get? i).isSome ↔ i ∈ order ∧ (nextOf i).length > 1 := by
  have hb := crun_base (prevOf := prevOf) (l := order) (cbase_init (nextOf := nextOf))
  have := hb.keys i
  simp only [List.nil_append] at this
  exact this

theorem assignCst_lt (order : List Nat) (i k : Nat)
    (h : (assignCst prevOf nextOf order).get? i = some k) : k < multiCount nextOf order := by
  have hb := crun_base (prevOf := prevOf) (l := order) (cbase_init (nextOf := nextOf))
  simp only [List.nil_append] at hb
  have h1 := hb.plt i k h
  exact Nat.lt_of_lt_of_le h1 hb.cnt

end Verif.Graph

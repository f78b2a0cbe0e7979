import Verif.Opt.Lemmas
import Mathlib.Tactic.Tauto

/-! # What each fusion preserves -/

namespace Verif.Opt
variable {P T : Type}

theorem er_get {l : List Nat} {i : Nat} (j : Nat) :
    (l.eraseIdx i)[j]? = if j < i then l[j]? else l[j + 1]? := List.getElem?_eraseIdx

theorem er_pos {l : List Nat} {i k o a : Nat} (ha : l[i]? = some a) (hk : l[k]? = some o) (hne : o ≠ a) :
    k ≠ i ∧ (l.eraseIdx i)[if k < i then k else k - 1]? = some o := by
  have hki : k ≠ i := by
    rintro rfl; rw [ha] at hk; exact hne (by simpa using hk.symm)
  refine ⟨hki, ?_⟩
  rw [er_get]
  by_cases h : k < i
  · simp [h, hk]
  · rw [if_neg h, if_neg (by omega), show k - 1 + 1 = k by omega]; exact hk

theorem er_mem {l : List Nat} {i a : Nat} (hnd : l.Nodup) (ha : l[i]? = some a) (o : Nat) :
    o ∈ l.eraseIdx i ↔ o ∈ l ∧ o ≠ a := by
  constructor
  · intro h
    obtain ⟨j, hj⟩ := List.mem_iff_getElem?.1 h
    rw [er_get] at hj
    split at hj
    · refine ⟨List.mem_of_getElem? hj, ?_⟩
      rintro rfl
      have : j = i := (List.getElem?_inj (List.getElem?_eq_some_iff.1 hj).1 hnd).1 (hj.trans ha.symm)
      omega
    · refine ⟨List.mem_of_getElem? hj, ?_⟩
      rintro rfl
      have : j + 1 = i := (List.getElem?_inj (List.getElem?_eq_some_iff.1 hj).1 hnd).1 (hj.trans ha.symm)
      omega
  · rintro ⟨h, hne⟩
    obtain ⟨k, hk⟩ := List.mem_iff_getElem?.1 h
    exact List.mem_of_getElem? (er_pos ha hk hne).2

theorem erase_eq_eraseIdx {l : List Nat} {i a : Nat} (hnd : l.Nodup) (ha : l[i]? = some a) :
    l.erase a = l.eraseIdx i := by
  induction l generalizing i with
  | nil => simp at ha
  | cons b l ih =>
    rw [List.nodup_cons] at hnd
    cases i with
    | zero => simp at ha; subst ha; simp
    | succ i =>
      simp at ha
      have : b ≠ a := by rintro rfl; exact hnd.1 (List.mem_of_getElem? ha)
      rw [List.erase_cons_tail (by simpa using this), List.eraseIdx_cons_succ, ih hnd.2 ha]

/-- consecutive in the list -/
def Adj (l : List Nat) (a b : Nat) : Prop := ∃ j : Nat, l[j]? = some a ∧ l[j + 1]? = some b

def Adj3 (l : List Nat) (a b c : Nat) : Prop :=
  ∃ j : Nat, l[j]? = some a ∧ l[j + 1]? = some b ∧ l[j + 2]? = some c

theorem Adj.erase {l : List Nat} {i x a b : Nat} (hx : l[i]? = some x) (h : Adj l a b) (ha : a ≠ x)
    (hb : b ≠ x) : Adj (l.eraseIdx i) a b := by
  obtain ⟨j, h1, h2⟩ := h
  obtain ⟨n1, e1⟩ := er_pos hx h1 ha
  obtain ⟨n2, e2⟩ := er_pos hx h2 hb
  by_cases hj : j < i
  · rw [if_pos hj] at e1
    rw [if_pos (by omega)] at e2
    exact ⟨j, e1, e2⟩
  · rw [if_neg hj] at e1
    rw [if_neg (by omega)] at e2
    exact ⟨j - 1, e1, by rwa [show j - 1 + 1 = j + 1 - 1 by omega]⟩

theorem Adj3.erase {l : List Nat} {i x a b c : Nat} (hx : l[i]? = some x) (h : Adj3 l a b c) (ha : a ≠ x)
    (hb : b ≠ x) (hc : c ≠ x) : Adj3 (l.eraseIdx i) a b c := by
  obtain ⟨j, h1, h2, h3⟩ := h
  obtain ⟨n1, e1⟩ := er_pos hx h1 ha
  obtain ⟨n2, e2⟩ := er_pos hx h2 hb
  obtain ⟨n3, e3⟩ := er_pos hx h3 hc
  by_cases hj : j < i
  · rw [if_pos hj] at e1
    rw [if_pos (by omega)] at e2
    rw [if_pos (by omega)] at e3
    exact ⟨j, e1, e2, e3⟩
  · rw [if_neg hj] at e1
    rw [if_neg (by omega)] at e2
    rw [if_neg (by omega)] at e3
    exact ⟨j - 1, e1, by rwa [show j - 1 + 1 = j + 1 - 1 by omega],
      by rwa [show j - 1 + 2 = j + 2 - 1 by omega]⟩

theorem nodup_pos {l : List Nat} (hnd : l.Nodup) {i j a : Nat} (h1 : l[i]? = some a) (h2 : l[j]? = some a) :
    i = j := (List.getElem?_inj (List.getElem?_eq_some_iff.1 h1).1 hnd).1 (h1.trans h2.symm)

/-- `a, x, b` consecutive: removing `x` makes `a, b` consecutive -/
theorem Adj.skip {l : List Nat} {i x a b : Nat} (hnd : l.Nodup) (hx : l[i]? = some x) (h1 : Adj l a x)
    (h2 : Adj l x b) : Adj (l.eraseIdx i) a b := by
  obtain ⟨j, e1, e2⟩ := h1
  obtain ⟨k, e3, e4⟩ := h2
  have hk := nodup_pos hnd e3 hx
  have hj := nodup_pos hnd e2 hx
  subst hk; subst hj
  exact ⟨j, by rw [er_get, if_pos (by omega)]; exact e1, by rw [er_get, if_neg (by omega)]; exact e4⟩

theorem Adj3.skip {l : List Nat} {i x a b c : Nat} (hnd : l.Nodup) (hx : l[i]? = some x) (h1 : Adj l a x)
    (h2 : Adj3 l x b c) : Adj3 (l.eraseIdx i) a b c := by
  obtain ⟨j, e1, e2⟩ := h1
  obtain ⟨k, e3, e4, e5⟩ := h2
  have hk := nodup_pos hnd e3 hx
  have hj := nodup_pos hnd e2 hx
  subst hk; subst hj
  exact ⟨j, by rw [er_get, if_pos (by omega)]; exact e1, by rw [er_get, if_neg (by omega)]; exact e4,
    by rw [er_get, if_neg (by omega)]; exact e5⟩

/-! ### Fusion into the producer -/

section Fuse
variable {net net' : Net P} {par' : Nat → P} {p a i i' : Nat}

/-- `a` replaced by `p` -/
abbrev ren (a p : Nat) : Nat → Nat := fun q => if q = a then p else q

structure FusedFacts (net net' : Net P) (par' : Nat → P) (p a i : Nat) : Prop where
  layers : net'.layers = net.layers.eraseIdx i
  cls : net'.cls = net.cls
  fn : net'.fn = Function.update net.fn p (net.fn a)
  par : net'.par = par'
  path : net'.path = net.path
  outS : net'.outS = Function.update net.outS p (net.outS a)
  next : net'.next = Function.update net.next p (net.next a)
  prev : ∀ o ∈ net.layers, net'.prev o = (net.prev o).map (ren a p)
  mem : ∀ o, o ∈ net'.layers ↔ o ∈ net.layers ∧ o ≠ a
  ne : p ≠ a
  am : a ∈ net.layers
  pm : p ∈ net.layers

theorem Fused.facts (wf : WF net) (h : Fused net net' par' p a i i') : FusedFacts net net' par' p a i := by
  obtain ⟨r, hr, e⟩ := h.eq
  have s := shift_same (net.num r) 1 (net.layers.eraseIdx i) (fuse net par' p a i)
  rw [← e] at s
  have ham := mem_of_pos h.ha
  have hap : p ∈ net.prev a := by rw [h.hp]; simp
  refine ⟨s.layers, s.cls, s.fn, s.par, s.path, s.outS, s.next, ?_, ?_, ?_, ham, wf.prev_mem ham hap⟩
  · intro o ho
    rw [s.prev]
    show (if o ∈ net.next a then _ else _) = _
    split
    · rfl
    · rename_i hna
      have : ∀ q ∈ net.prev o, ren a p q = q := by
        intro q hq
        have : q ≠ a := by rintro rfl; exact hna (wf.back o ho _ hq)
        simp [this]
      rw [List.map_congr_left this]; simp
  · intro o; rw [s.layers]; exact er_mem wf.nodup h.ha o
  · rintro rfl; exact wf.irrefl ham hap

theorem mem_ren {l : List Nat} {x : Nat} : x ∈ l.map (ren a p) ↔ (x = p ∧ a ∈ l) ∨ (x ∈ l ∧ x ≠ a) := by
  simp only [List.mem_map, ren]
  constructor
  · rintro ⟨q, hq, rfl⟩
    by_cases h : q = a
    · subst h; simp [hq]
    · simp [h, hq]
  · rintro (⟨rfl, h⟩ | ⟨h, hne⟩)
    · exact ⟨a, h, by simp⟩
    · exact ⟨x, h, by simp [hne]⟩

theorem Fused.wf (wf : WF net) (h : Fused net net' par' p a i i') : WF net' := by
  have F := h.facts wf
  have hpa : p ∈ net.prev a := by rw [h.hp]; simp
  have hcons : ∀ o ∈ net.layers, p ∈ net.prev o → o = a := by
    intro o ho hp
    have := wf.back o ho p hp
    rw [h.hn] at this; simpa using this
  obtain ⟨kp, hkp⟩ := pos_of_mem F.pm
  have hkpi := wf.before h.ha hkp hpa
  refine ⟨?_, ?_, ?_, ?_, ?_, ?_⟩
  · rw [F.layers]; exact wf.nodup.sublist (List.eraseIdx_sublist _ _)
  · intro j o hj q hq
    rw [F.layers] at hj ⊢
    have ho := (F.mem o).1 (by rw [F.layers]; exact List.mem_of_getElem? hj)
    rw [F.prev o ho.1, mem_ren] at hq
    have hj' := hj
    rw [er_get] at hj'
    rcases hq with ⟨rfl, haq⟩ | ⟨hq, hqa⟩
    · -- `o` consumed `a`
      refine ⟨kp, ?_, by rw [er_get, if_pos hkpi]; exact hkp⟩
      split at hj'
      · have := wf.before hj' h.ha haq; omega
      · have := wf.before hj' h.ha haq; omega
    · have hqm := wf.prev_mem ho.1 hq
      obtain ⟨k, hk⟩ := pos_of_mem hqm
      obtain ⟨hki, e⟩ := er_pos h.ha hk hqa
      refine ⟨_, ?_, e⟩
      split at hj'
      · have := wf.before hj' hk hq; split <;> omega
      · have := wf.before hj' hk hq; split <;> omega
  · intro o ho q hq
    have ho := (F.mem o).1 ho
    rw [F.prev o ho.1, mem_ren] at hq
    rw [F.next]
    rcases hq with ⟨rfl, haq⟩ | ⟨hq, hqa⟩
    · simpa using wf.back o ho.1 a haq
    · have : q ≠ p := by
        rintro rfl
        exact ho.2 (hcons o ho.1 hq)
      rw [Function.update_of_ne this]; exact wf.back o ho.1 q hq
  · intro o ho c hc
    have ho := (F.mem o).1 ho
    rw [F.next] at hc
    by_cases hop : o = p
    · subst hop
      rw [Function.update_self] at hc
      obtain ⟨h1, h2⟩ := wf.fwd a F.am c hc
      refine ⟨(F.mem c).2 ⟨h1, ?_⟩, ?_⟩
      · rintro rfl; exact wf.irrefl h1 h2
      · rw [F.prev c h1, mem_ren]; exact Or.inl ⟨rfl, h2⟩
    · rw [Function.update_of_ne hop] at hc
      obtain ⟨h1, h2⟩ := wf.fwd o ho.1 c hc
      refine ⟨(F.mem c).2 ⟨h1, ?_⟩, ?_⟩
      · rintro rfl
        rw [h.hp] at h2; simp at h2; exact hop h2
      · rw [F.prev c h1, mem_ren]; exact Or.inr ⟨h2, ho.2⟩
  · intro o ho
    have ho := (F.mem o).1 ho
    rw [F.next]
    by_cases hop : o = p
    · subst hop; rw [Function.update_self]; exact wf.nextNodup a F.am
    · rw [Function.update_of_ne hop]; exact wf.nextNodup o ho.1
  · intro o ho hc
    have ho := (F.mem o).1 ho
    rw [F.prev o ho.1, List.length_map]
    rw [F.cls] at hc
    exact wf.matMul o ho.1 hc

/-- neither a network input nor a constant -/
def Inner (net : Net P) (o : Nat) : Prop := net.cls o ≠ .input ∧ net.cls o ≠ .constant

/-- A layer and its only consumer, of which it is the only producer, are consecutive. -/
def Pairs (net : Net P) : Prop := ∀ p ∈ net.layers, ∀ c, Inner net p → net.next p = [c] → net.prev c = [p] →
  Adj net.layers p c

/-- `x`, an activation layer on `x`, and a layer that consumes exactly both are consecutive. -/
def Triples (net : Net P) : Prop := ∀ q ∈ net.layers, ∀ s ∈ net.layers, ∀ m ∈ net.layers, Inner net q →
  net.cls s = .activation → net.prev s = [q] → net.next s = [m] →
  (net.prev m = [q, s] ∨ net.prev m = [s, q]) → (net.next q = [s, m] ∨ net.next q = [m, s]) →
  Adj3 net.layers q s m

theorem map_ren_single {l : List Nat} {q : Nat} (h : l.map (ren a p) = [q]) :
    (q = p ∧ l = [a]) ∨ (l = [q] ∧ q ≠ a) ∨ (q = p ∧ l = [p]) := by
  match l, h with
  | [x], h =>
    simp [ren] at h
    by_cases hx : x = a
    · subst hx; simp at h; subst h; simp
    · simp [hx] at h; subst h; simp [hx]

theorem Fused.prev_inv (wf : WF net) (h : Fused net net' par' p a i i') {o q : Nat} (ho : o ∈ net'.layers)
    (hq : net'.prev o = [q]) : (q = p ∧ net.prev o = [a]) ∨ (net.prev o = [q] ∧ q ≠ p ∧ q ≠ a) := by
  have F := h.facts wf
  have ho := (F.mem o).1 ho
  rw [F.prev o ho.1] at hq
  have hnp : p ∉ net.prev o := by
    intro hp
    have := wf.back o ho.1 p hp
    rw [h.hn] at this; simp at this; exact ho.2 this
  rcases map_ren_single hq with h1 | h1 | h1
  · exact Or.inl h1
  · refine Or.inr ⟨h1.1, ?_, h1.2⟩
    rintro rfl; exact hnp (by rw [h1.1]; simp)
  · exact absurd (by rw [h1.2]; simp) hnp

theorem Fused.pairs (wf : WF net) (h : Fused net net' par' p a i i') (hin : Inner net p) (hia : Inner net a)
    (hP : Pairs net) : Pairs net' := by
  have F := h.facts wf
  have hpa := hP p F.pm a hin h.hn h.hp
  intro q hq c hqi hn hp
  have hc : c ∈ net'.layers := ((h.wf wf).fwd q hq c (by rw [hn]; simp)).1
  have hq' := (F.mem q).1 hq
  have hc' := (F.mem c).1 hc
  have hqi' : Inner net q := by unfold Inner at hqi ⊢; rwa [F.cls] at hqi
  rw [F.layers]
  rcases h.prev_inv wf hc hp with ⟨rfl, h1⟩ | ⟨h1, h2, h3⟩
  · rw [F.next, Function.update_self] at hn
    exact hpa.skip wf.nodup h.ha (hP a F.am c hia hn h1)
  · rw [F.next, Function.update_of_ne h2] at hn
    exact (hP q hq'.1 c hqi' hn h1).erase h.ha hq'.2 hc'.2

theorem Fused.triples (wf : WF net) (h : Fused net net' par' p a i i') (hin : Inner net p)
    (hia : Inner net a) (hcp : net.cls p ≠ .activation) (hP : Pairs net) (hT : Triples net) :
    Triples net' := by
  have F := h.facts wf
  have hpa := hP p F.pm a hin h.hn h.hp
  intro q hq s hs m hm hqi hcs hps hns hpm hnq
  have hq' := (F.mem q).1 hq
  have hs' := (F.mem s).1 hs
  have hm' := (F.mem m).1 hm
  have hqi' : Inner net q := by unfold Inner at hqi ⊢; rwa [F.cls] at hqi
  rw [F.cls] at hcs
  have hsp : s ≠ p := by rintro rfl; exact hcp hcs
  have hnp : p ∉ net.prev m := by
    intro hp
    have := wf.back m hm'.1 p hp
    rw [h.hn] at this; simp at this; exact hm'.2 this
  rw [F.next, Function.update_of_ne hsp] at hns
  rw [F.prev m hm'.1] at hpm
  rw [F.layers]
  -- the old producers of `m`
  have two : ∀ x y, (net.prev m).map (ren a p) = [x, y] → ∃ x' y', net.prev m = [x', y'] ∧
      ren a p x' = x ∧ ren a p y' = y ∧ x' ≠ p ∧ y' ≠ p := by
    intro x y e
    match hl : net.prev m, e with
    | [x', y'], e =>
      simp only [List.map_cons, List.map_nil, List.cons.injEq, and_true] at e
      refine ⟨x', y', rfl, e.1, e.2, ?_, ?_⟩ <;> rintro rfl <;> exact hnp (by rw [hl]; simp)
  have ren_ne : ∀ x y, ren a p x = y → y ≠ p → x = y := by
    intro x y e hy
    by_cases hx : x = a
    · simp [ren, hx] at e; exact absurd e.symm hy
    · simpa [ren, hx] using e
  have ren_p : ∀ x, ren a p x = p → x ≠ p → x = a := by
    intro x e hx
    by_contra hc
    simp [ren, hc] at e; exact hx e
  rcases h.prev_inv wf hs hps with ⟨rfl, h1⟩ | ⟨h1, h2, h3⟩
  · rw [F.next, Function.update_self] at hnq
    have hpm' : net.prev m = [a, s] ∨ net.prev m = [s, a] := by
      rcases hpm with e | e
      · obtain ⟨x', y', e', ex, ey, nx, ny⟩ := two _ _ e
        left; rw [e', ren_p _ ex nx, ren_ne _ _ ey hsp]
      · obtain ⟨x', y', e', ex, ey, nx, ny⟩ := two _ _ e
        right; rw [e', ren_p _ ey ny, ren_ne _ _ ex hsp]
    exact Adj3.skip wf.nodup h.ha hpa (hT a F.am s hs'.1 m hm'.1 hia hcs h1 hns hpm' hnq)
  · rw [F.next, Function.update_of_ne h2] at hnq
    have hpm' : net.prev m = [q, s] ∨ net.prev m = [s, q] := by
      rcases hpm with e | e
      · obtain ⟨x', y', e', ex, ey, nx, ny⟩ := two _ _ e
        left; rw [e', ren_ne _ _ ex h2, ren_ne _ _ ey hsp]
      · obtain ⟨x', y', e', ex, ey, nx, ny⟩ := two _ _ e
        right; rw [e', ren_ne _ _ ey h2, ren_ne _ _ ex hsp]
    exact (hT q hq'.1 s hs'.1 m hm'.1 hqi' hcs h1 hns hpm' hnq).erase h.ha hq'.2 hs'.2 hm'.2

/-- no layer before position `i` is the root of the SiLU pattern -/
def Quiet (net : Net P) (i : Nat) : Prop := ∀ j < i, ∀ s, net.layers[j]? = some s → ¬ isSilu net s

/-- the SiLU pattern never meets a `Multiply` with an activation function -/
def MulLin (net : Net P) : Prop := ∀ s ∈ net.layers, isSilu net s → ∀ m ∈ net.next s, net.fn m = .linear

theorem Fused.silu_inv (wf : WF net) (h : Fused net net' par' p a i i') (hcp : net.cls p ≠ .activation)
    {s : Nat} (hs : s ∈ net'.layers) (hS : isSilu net' s) : isSilu net s ∧ net'.next s = net.next s ∧ s ≠ p := by
  have F := h.facts wf
  obtain ⟨c, f, q, hp, hl, h2, m, hn, hm, hlm, hmq⟩ := hS
  have hs' := (F.mem s).1 hs
  rw [F.cls] at c hm
  have hsp : s ≠ p := by rintro rfl; exact hcp c
  rw [F.next, Function.update_of_ne hsp] at hn
  rw [F.fn, Function.update_of_ne hsp] at f
  have hmm := (wf.fwd s hs'.1 m (by rw [hn]; simp)).1
  rw [F.prev m hmm, List.length_map] at hlm
  refine ⟨?_, by rw [F.next, Function.update_of_ne hsp], hsp⟩
  rcases h.prev_inv wf hs hp with ⟨rfl, h1⟩ | ⟨h1, h3, h4⟩
  · rw [F.next, Function.update_self] at h2 hmq
    rw [F.fn, Function.update_self] at hl
    exact ⟨c, f, a, h1, hl, h2, m, hn, hm, hlm, hmq⟩
  · rw [F.next, Function.update_of_ne h3] at h2 hmq
    rw [F.fn, Function.update_of_ne h3] at hl
    exact ⟨c, f, q, h1, hl, h2, m, hn, hm, hlm, hmq⟩

theorem Fused.pos_lt (wf : WF net) (h : Fused net net' par' p a i i') : i' < i ∧ net.layers[i']? = some p := by
  have F := h.facts wf
  obtain ⟨k, hk⟩ := pos_of_mem F.pm
  have hlt := wf.before h.ha hk (by rw [h.hp]; simp)
  have h2 : net'.layers[k]? = some p := by rw [F.layers, er_get, if_pos hlt]; exact hk
  have := (h.wf wf).pos_inj h.pos h2
  subst this
  exact ⟨hlt, hk⟩

theorem Fused.quiet (wf : WF net) (h : Fused net net' par' p a i i') (hcp : net.cls p ≠ .activation)
    (hQ : Quiet net i) : Quiet net' (i' + 1) := by
  have F := h.facts wf
  have hlt := (h.pos_lt wf).1
  intro j hj s hs hS
  have := (h.silu_inv wf hcp (mem_of_pos hs) hS).1
  rw [F.layers, er_get, if_pos (by omega)] at hs
  exact hQ j (by omega) s hs this

theorem Fused.mulLin (wf : WF net) (h : Fused net net' par' p a i i') (hcp : net.cls p ≠ .activation)
    (hQ : Quiet net i) (hM : MulLin net) : MulLin net' := by
  have F := h.facts wf
  intro s hs hS m hm
  obtain ⟨h1, h2, h3⟩ := h.silu_inv wf hcp hs hS
  have hs' := (F.mem s).1 hs
  rw [h2] at hm
  rw [F.fn]
  by_cases hmp : m = p
  · -- `s` precedes `p`, hence position `i`
    subst hmp
    exfalso
    obtain ⟨k, hk⟩ := pos_of_mem hs'.1
    have hlt := wf.before (h.pos_lt wf).2 hk (wf.fwd s hs'.1 m hm).2
    have := (h.pos_lt wf).1
    exact hQ k (by omega) s hk h1
  · rw [Function.update_of_ne hmp]; exact hM s hs'.1 h1 m hm

/-- layers whose class ignores the activation function have no activation layer as consumer -/
def Keeps (S : Sem P T) (net : Net P) : Prop :=
  ∀ o ∈ net.layers, S.applies (net.cls o) = false → ∀ c ∈ net.next o, net.cls c ≠ .activation

theorem Fused.keeps {S : Sem P T} (wf : WF net) (h : Fused net net' par' p a i i')
    (hap : S.applies (net.cls p) = true) (hK : Keeps S net) : Keeps S net' := by
  have F := h.facts wf
  intro o ho hS c hc
  rw [F.cls] at hS ⊢
  rw [F.next] at hc
  have hop : o ≠ p := by rintro rfl; rw [hap] at hS; cases hS
  rw [Function.update_of_ne hop] at hc
  exact hK o ((F.mem o).1 ho).1 hS c hc

theorem Fused.isVal {S : Sem P T} (wf : WF net) (h : Fused net net' par' p a i i')
    (hpar : ∀ o, o ≠ p → par' o = net.par o) (hap : S.applies (net.cls p) = true)
    (x : T) (v : Nat → T) (hv : net.IsVal S x v)
    (heq : ∀ xs, net.eval S a [net.eval S p xs] = S.den (net.fn a) (S.op (net.cls p) (par' p) xs)) :
    net'.IsVal S x (Function.update v p (v a)) := by
  have F := h.facts wf
  have args : ∀ o ∈ net'.layers, Graph.argsOf net'.prev x (Function.update v p (v a)) o =
      Graph.argsOf net.prev x v o := by
    intro o ho
    have ho' := (F.mem o).1 ho
    unfold Graph.argsOf
    rw [F.prev o ho'.1]
    by_cases h0 : net.prev o = []
    · simp [h0]
    · simp only [List.map_eq_nil_iff, h0, if_false, List.map_map]
      apply List.map_congr_left
      intro q hq
      by_cases hqa : q = a
      · subst hqa; simp [ren]
      · have hqp : q ≠ p := by
          rintro rfl
          have := wf.back o ho'.1 _ hq
          rw [h.hn] at this; simp at this; exact ho'.2 this
        simp [ren, hqa, hqp]
  intro o ho
  have ho' := (F.mem o).1 ho
  rw [args o ho]
  by_cases hop : o = p
  · subst hop
    rw [Function.update_self, hv a F.am]
    have : Graph.argsOf net.prev x v a = [v o] := by simp [Graph.argsOf, h.hp]
    rw [this, hv o ho'.1, heq]
    simp only [Net.eval, F.cls, hap, if_true, F.fn, Function.update_self, F.par]
  · rw [Function.update_of_ne hop, hv o ho'.1]
    simp only [Net.eval, F.cls, F.fn, Function.update_of_ne hop, F.par, hpar o hop]

end Fuse

/-! ### `Sigmoid` and `Multiply` into `Silu` -/

section Silu
variable {net net' : Net P} {q s m i i' : Nat}

structure SiluFacts (net net' : Net P) (q s m k : Nat) : Prop where
  hk : net.layers[k]? = some m
  layers : net'.layers = net.layers.eraseIdx k
  cls : net'.cls = net.cls
  fn : net'.fn = Function.update net.fn s .silu
  par : net'.par = net.par
  path : net'.path = Function.update net.path s (net.path m)
  outS : net'.outS = Function.update net.outS s (net.outS m)
  next : net'.next = Function.update (Function.update net.next q [s]) s (net.next m)
  prev : ∀ o ∈ net.layers, net'.prev o = (net.prev o).map (ren m s)
  mem : ∀ o, o ∈ net'.layers ↔ o ∈ net.layers ∧ o ≠ m
  sm : s ∈ net.layers
  mm : m ∈ net.layers
  qm : q ∈ net.layers
  n1 : q ≠ s
  n2 : s ≠ m
  n3 : q ≠ m
  pm : ∀ o, o ∈ net.prev m ↔ o = q ∨ o = s
  nq : ∀ o, o ∈ net.next q ↔ o = s ∨ o = m

theorem Silued.facts (wf : WF net) (h : Silued net net' q s m i i') : ∃ k, SiluFacts net net' q s m k := by
  obtain ⟨r, hr, e⟩ := h.eq
  have sh := shift_same (net.num r) 1 (net.layers.erase m) (toSilu net q s m)
  rw [← e] at sh
  have hsm := mem_of_pos h.hs
  have hqs : q ∈ net.prev s := by rw [h.hp]; simp
  have hqL := wf.prev_mem hsm hqs
  obtain ⟨hmL, hsm'⟩ := wf.fwd s hsm m (by rw [h.hn]; simp)
  have pm : ∀ o, o ∈ net.prev m ↔ o = q ∨ o = s := by
    intro o
    rcases h.hm with e | e <;> rw [e] <;> simp [or_comm]
  have nq : ∀ o, o ∈ net.next q ↔ o = s ∨ o = m := by
    intro o
    rcases h.hq with e | e <;> rw [e] <;> simp [or_comm]
  have n1 : q ≠ s := by rintro rfl; exact wf.irrefl hsm hqs
  have n2 : s ≠ m := by rintro rfl; exact wf.irrefl hsm hsm'
  have n3 : q ≠ m := by rintro rfl; exact wf.irrefl hqL ((pm q).2 (Or.inl rfl))
  obtain ⟨k, hk⟩ := pos_of_mem hmL
  have hl : net'.layers = net.layers.eraseIdx k := by
    rw [sh.layers]; exact erase_eq_eraseIdx wf.nodup hk
  refine ⟨k, hk, hl, sh.cls, sh.fn, sh.par, sh.path, sh.outS, sh.next, ?_, ?_, hsm, hmL, hqL, n1, n2, n3,
    pm, nq⟩
  · intro o ho
    rw [sh.prev]
    show (if o ∈ net.next m then _ else _) = _
    split
    · rfl
    · rename_i hna
      have : ∀ x ∈ net.prev o, ren m s x = x := by
        intro x hx
        have : x ≠ m := by rintro rfl; exact hna (wf.back o ho _ hx)
        simp [this]
      rw [List.map_congr_left this]; simp
  · intro o; rw [hl]; exact er_mem wf.nodup hk o

theorem SiluFacts.next_of {k : Nat} (F : SiluFacts net net' q s m k) {o : Nat} (h1 : o ≠ q) (h2 : o ≠ s) :
    net'.next o = net.next o := by
  rw [F.next, Function.update_of_ne h2, Function.update_of_ne h1]

theorem SiluFacts.next_s {k : Nat} (F : SiluFacts net net' q s m k) : net'.next s = net.next m := by
  rw [F.next, Function.update_self]

theorem SiluFacts.next_q {k : Nat} (F : SiluFacts net net' q s m k) : net'.next q = [s] := by
  rw [F.next, Function.update_of_ne F.n1, Function.update_self]

theorem Silued.wf (wf : WF net) (h : Silued net net' q s m i i') : WF net' := by
  obtain ⟨k, F⟩ := h.facts wf
  have hsm : k ≠ i ∧ i < k := by
    have := wf.before F.hk h.hs ((F.pm s).2 (Or.inr rfl)); omega
  have hcons : ∀ o ∈ net.layers, s ∈ net.prev o → o = m := by
    intro o ho hp
    have := wf.back o ho s hp
    rw [h.hn] at this; simpa using this
  refine ⟨?_, ?_, ?_, ?_, ?_, ?_⟩
  · rw [F.layers]; exact wf.nodup.sublist (List.eraseIdx_sublist _ _)
  · intro j o hj x hx
    have ho := (F.mem o).1 (mem_of_pos hj)
    rw [F.prev o ho.1, mem_ren] at hx
    rw [F.layers] at hj ⊢
    have hj' := hj
    rw [er_get] at hj'
    rcases hx with ⟨rfl, hmx⟩ | ⟨hx, hxm⟩
    · refine ⟨i, ?_, by rw [er_get, if_pos hsm.2]; exact h.hs⟩
      split at hj'
      · have := wf.before hj' F.hk hmx; omega
      · have := wf.before hj' F.hk hmx; omega
    · have hxm' := wf.prev_mem ho.1 hx
      obtain ⟨k', hk'⟩ := pos_of_mem hxm'
      obtain ⟨hki, e⟩ := er_pos F.hk hk' hxm
      refine ⟨_, ?_, e⟩
      split at hj'
      · have := wf.before hj' hk' hx; split <;> omega
      · have := wf.before hj' hk' hx; split <;> omega
  · intro o ho x hx
    have ho := (F.mem o).1 ho
    rw [F.prev o ho.1, mem_ren] at hx
    rcases hx with ⟨rfl, hmx⟩ | ⟨hx, hxm⟩
    · rw [F.next_s]; exact wf.back o ho.1 m hmx
    · have hxs : x ≠ s := by rintro rfl; exact ho.2 (hcons o ho.1 hx)
      by_cases hxq : x = q
      · subst hxq
        rw [F.next_q]
        rcases (F.nq o).1 (wf.back o ho.1 _ hx) with rfl | h
        · simp
        · exact absurd h ho.2
      · rw [F.next_of hxq hxs]; exact wf.back o ho.1 x hx
  · intro o ho c hc
    have ho := (F.mem o).1 ho
    by_cases hos : o = s
    · subst hos
      rw [F.next_s] at hc
      obtain ⟨h1, h2⟩ := wf.fwd m F.mm c hc
      refine ⟨(F.mem c).2 ⟨h1, ?_⟩, ?_⟩
      · rintro rfl; exact wf.irrefl h1 h2
      · rw [F.prev c h1, mem_ren]; exact Or.inl ⟨rfl, h2⟩
    · by_cases hoq : o = q
      · subst hoq
        rw [F.next_q] at hc
        simp at hc; subst hc
        refine ⟨(F.mem c).2 ⟨F.sm, F.n2⟩, ?_⟩
        rw [F.prev c F.sm, mem_ren, h.hp]
        exact Or.inr ⟨by simp, F.n3⟩
      · rw [F.next_of hoq hos] at hc
        obtain ⟨h1, h2⟩ := wf.fwd o ho.1 c hc
        refine ⟨(F.mem c).2 ⟨h1, ?_⟩, ?_⟩
        · rintro rfl
          rcases (F.pm o).1 h2 with h | h
          · exact hoq h
          · exact hos h
        · rw [F.prev c h1, mem_ren]; exact Or.inr ⟨h2, ho.2⟩
  · intro o ho
    have ho := (F.mem o).1 ho
    by_cases hos : o = s
    · subst hos; rw [F.next_s]; exact wf.nextNodup m F.mm
    · by_cases hoq : o = q
      · subst hoq; rw [F.next_q]; simp
      · rw [F.next_of hoq hos]; exact wf.nextNodup o ho.1
  · intro o ho hc
    have ho := (F.mem o).1 ho
    rw [F.prev o ho.1, List.length_map]
    rw [F.cls] at hc
    exact wf.matMul o ho.1 hc

theorem Silued.prev_inv (wf : WF net) (h : Silued net net' q s m i i') {o x : Nat} (ho : o ∈ net'.layers)
    (hx : net'.prev o = [x]) : (x = s ∧ net.prev o = [m]) ∨ (net.prev o = [x] ∧ x ≠ s ∧ x ≠ m) := by
  obtain ⟨k, F⟩ := h.facts wf
  have ho := (F.mem o).1 ho
  rw [F.prev o ho.1] at hx
  have hnp : s ∉ net.prev o := by
    intro hp
    have := wf.back o ho.1 s hp
    rw [h.hn] at this; simp at this; exact ho.2 this
  rcases map_ren_single hx with h1 | h1 | h1
  · exact Or.inl h1
  · refine Or.inr ⟨h1.1, ?_, h1.2⟩
    rintro rfl; exact hnp (by rw [h1.1]; simp)
  · exact absurd (by rw [h1.2]; simp) hnp

theorem Silued.adj3 (wf : WF net) (h : Silued net net' q s m i i') (hqi : Inner net q) (hT : Triples net) :
    Adj3 net.layers q s m := by
  obtain ⟨k, F⟩ := h.facts wf
  exact hT q F.qm s F.sm m F.mm hqi h.cs h.hp h.hn h.hm h.hq

theorem Silued.pairs (wf : WF net) (h : Silued net net' q s m i i') (hqi : Inner net q) (hP : Pairs net)
    (hT : Triples net) : Pairs net' := by
  obtain ⟨k, F⟩ := h.facts wf
  obtain ⟨j, e1, e2, e3⟩ := h.adj3 wf hqi hT
  intro p hp c hpi hn hpc
  have hc : c ∈ net'.layers := ((h.wf wf).fwd p hp c (by rw [hn]; simp)).1
  have hp' := (F.mem p).1 hp
  have hc' := (F.mem c).1 hc
  have hpi' : Inner net p := by unfold Inner at hpi ⊢; rwa [F.cls] at hpi
  have him : Inner net m := by unfold Inner; rw [h.cm]; simp
  rw [F.layers]
  rcases h.prev_inv wf hc hpc with ⟨rfl, h1⟩ | ⟨h1, h2, h3⟩
  · rw [F.next_s] at hn
    exact Adj.skip wf.nodup F.hk ⟨j + 1, e2, e3⟩ (hP m F.mm c him hn h1)
  · by_cases hpq : p = q
    · subst hpq
      rw [F.next_q] at hn
      simp at hn; subst hn
      exact Adj.erase F.hk ⟨j, e1, e2⟩ F.n3 F.n2
    · rw [F.next_of hpq h2] at hn
      exact (hP p hp'.1 c hpi' hn h1).erase F.hk hp'.2 hc'.2

theorem Silued.triples (wf : WF net) (h : Silued net net' q s m i i') (hqi : Inner net q)
    (hT : Triples net) : Triples net' := by
  obtain ⟨k, F⟩ := h.facts wf
  obtain ⟨j, e1, e2, e3⟩ := h.adj3 wf hqi hT
  intro q' hq s' hs m' hm hqi' hcs hps hns hpm hnq
  have hq' := (F.mem q').1 hq
  have hs' := (F.mem s').1 hs
  have hm' := (F.mem m').1 hm
  have hqi'' : Inner net q' := by unfold Inner at hqi' ⊢; rwa [F.cls] at hqi'
  have him : Inner net m := by unfold Inner; rw [h.cm]; simp
  rw [F.cls] at hcs
  have hq'q : q' ≠ q := by
    rintro rfl
    rw [F.next_q] at hnq; rcases hnq with e | e <;> simp at e
  have hpmlen : (net'.prev m').length = 2 := by rcases hpm with e | e <;> rw [e] <;> rfl
  have hm's : m' ≠ s := by
    rintro rfl
    rw [F.prev _ F.sm, h.hp] at hpmlen; simp at hpmlen
  have hs's : s' ≠ s := by
    rintro rfl
    have : q' = q := by
      rw [F.prev _ F.sm, h.hp] at hps
      simpa [ren, F.n3] using hps.symm
    exact hq'q this
  have hs'q : s' ≠ q := by
    rintro rfl
    rw [F.next_q] at hns; simp at hns; exact hm's hns.symm
  rw [F.next_of hs'q hs's] at hns
  rw [F.prev m' hm'.1] at hpm
  rw [F.layers]
  have hnp : s ∉ net.prev m' := by
    intro hp
    have := wf.back m' hm'.1 s hp
    rw [h.hn] at this; simp at this; exact hm'.2 this
  have two : ∀ x y, (net.prev m').map (ren m s) = [x, y] → ∃ x' y', net.prev m' = [x', y'] ∧
      ren m s x' = x ∧ ren m s y' = y ∧ x' ≠ s ∧ y' ≠ s := by
    intro x y e
    match hl : net.prev m', e with
    | [x', y'], e =>
      simp only [List.map_cons, List.map_nil, List.cons.injEq, and_true] at e
      refine ⟨x', y', rfl, e.1, e.2, ?_, ?_⟩ <;> rintro rfl <;> exact hnp (by rw [hl]; simp)
  have ren_ne : ∀ x y, ren m s x = y → y ≠ s → x = y := by
    intro x y e hy
    by_cases hx : x = m
    · simp [ren, hx] at e; exact absurd e.symm hy
    · simpa [ren, hx] using e
  have ren_p : ∀ x, ren m s x = s → x ≠ s → x = m := by
    intro x e hx
    by_contra hc
    simp [ren, hc] at e; exact hx e
  rcases h.prev_inv wf hs hps with ⟨rfl, h1⟩ | ⟨h1, h2, h3⟩
  · rw [F.next_s] at hnq
    have hpm' : net.prev m' = [m, s'] ∨ net.prev m' = [s', m] := by
      rcases hpm with e | e
      · obtain ⟨x', y', e', ex, ey, nx, ny⟩ := two _ _ e
        left; rw [e', ren_p _ ex nx, ren_ne _ _ ey hs's]
      · obtain ⟨x', y', e', ex, ey, nx, ny⟩ := two _ _ e
        right; rw [e', ren_p _ ey ny, ren_ne _ _ ex hs's]
    exact Adj3.skip wf.nodup F.hk ⟨j + 1, e2, e3⟩ (hT m F.mm s' hs'.1 m' hm'.1 him hcs h1 hns hpm' hnq)
  · rw [F.next_of hq'q h2] at hnq
    have hpm' : net.prev m' = [q', s'] ∨ net.prev m' = [s', q'] := by
      rcases hpm with e | e
      · obtain ⟨x', y', e', ex, ey, nx, ny⟩ := two _ _ e
        left; rw [e', ren_ne _ _ ex h2, ren_ne _ _ ey hs's]
      · obtain ⟨x', y', e', ex, ey, nx, ny⟩ := two _ _ e
        right; rw [e', ren_ne _ _ ey h2, ren_ne _ _ ex hs's]
    exact (hT q' hq'.1 s' hs'.1 m' hm'.1 hqi'' hcs h1 hns hpm' hnq).erase F.hk hq'.2 hs'.2 hm'.2

theorem Silued.silu_inv (wf : WF net) (h : Silued net net' q s m i i') {t : Nat} (ht : t ∈ net'.layers)
    (hS : isSilu net' t) : isSilu net t ∧ net'.next t = net.next t := by
  obtain ⟨k, F⟩ := h.facts wf
  obtain ⟨c, f, x, hp, hl, h2, m', hn, hm, hlm, hmx⟩ := hS
  have ht' := (F.mem t).1 ht
  rw [F.cls] at c hm
  have hts : t ≠ s := by rintro rfl; rw [F.fn, Function.update_self] at f; cases f
  have htq : t ≠ q := by
    rintro rfl
    rw [F.next_q] at hn; simp at hn; subst hn
    rw [h.cs] at hm; cases hm
  rw [F.fn, Function.update_of_ne hts] at f
  rw [F.next_of htq hts] at hn
  have hmm := (wf.fwd t ht'.1 m' (by rw [hn]; simp)).1
  rw [F.prev m' hmm, List.length_map] at hlm
  refine ⟨?_, F.next_of htq hts⟩
  rcases h.prev_inv wf ht hp with ⟨rfl, h1⟩ | ⟨h1, h3, h4⟩
  · rw [F.fn, Function.update_self] at hl; cases hl
  · have hxq : x ≠ q := by
      rintro rfl
      rw [F.next_q] at h2; simp at h2
    rw [F.next_of hxq h3] at h2 hmx
    rw [F.fn, Function.update_of_ne h3] at hl
    exact ⟨c, f, x, h1, hl, h2, m', hn, hm, hlm, hmx⟩

theorem Silued.pos_lt (wf : WF net) (h : Silued net net' q s m i i') :
    i' < i ∧ net.layers[i']? = some q := by
  obtain ⟨k, F⟩ := h.facts wf
  obtain ⟨kq, hkq⟩ := pos_of_mem F.qm
  have hlt := wf.before h.hs hkq (by rw [h.hp]; simp)
  have hsm := wf.before F.hk h.hs ((F.pm s).2 (Or.inr rfl))
  have h2 : net'.layers[kq]? = some q := by rw [F.layers, er_get, if_pos (by omega)]; exact hkq
  have := (h.wf wf).pos_inj h.pos h2
  subst this
  exact ⟨hlt, hkq⟩

theorem Silued.quiet (wf : WF net) (h : Silued net net' q s m i i') (hQ : Quiet net i) :
    Quiet net' (i' + 1) := by
  obtain ⟨k, F⟩ := h.facts wf
  have hlt := (h.pos_lt wf).1
  have hsm := wf.before F.hk h.hs ((F.pm s).2 (Or.inr rfl))
  intro j hj t ht hS
  have := (h.silu_inv wf (mem_of_pos ht) hS).1
  rw [F.layers, er_get, if_pos (by omega)] at ht
  exact hQ j (by omega) t ht this

theorem Silued.mulLin (wf : WF net) (h : Silued net net' q s m i i') (hM : MulLin net) : MulLin net' := by
  obtain ⟨k, F⟩ := h.facts wf
  intro t ht hS m' hm'
  obtain ⟨h1, h2⟩ := h.silu_inv wf ht hS
  have ht' := (F.mem t).1 ht
  rw [h2] at hm'
  have : m' ≠ s := by
    rintro rfl
    obtain ⟨_, _, _, _, _, _, y, hy, hcy, _⟩ := h1
    rw [hy] at hm'; simp at hm'; subst hm'
    rw [h.cs] at hcy; cases hcy
  rw [F.fn, Function.update_of_ne this]
  exact hM t ht'.1 h1 m' hm'

theorem Silued.keeps {S : Sem P T} (wf : WF net) (h : Silued net net' q s m i i')
    (hact : S.applies .activation = true) (hK : Keeps S net) : Keeps S net' := by
  obtain ⟨k, F⟩ := h.facts wf
  intro o ho hS c hc
  rw [F.cls] at hS ⊢
  have hos : o ≠ s := by rintro rfl; rw [h.cs, hact] at hS; cases hS
  by_cases hoq : o = q
  · subst hoq
    exact absurd h.cs (hK o F.qm hS s ((F.nq s).2 (Or.inl rfl)))
  · rw [F.next_of hoq hos] at hc
    exact hK o ((F.mem o).1 ho).1 hS c hc

theorem Silued.isVal {S : Sem P T} (wf : WF net) (h : Silued net net' q s m i i') (x : T) (v : Nat → T)
    (hv : net.IsVal S x v) (hact : S.applies .activation = true) (hmul : S.applies .multiply = true)
    (hlin : ∀ y, S.den .linear y = y) (hop : ∀ p y, S.op .activation p [y] = y)
    (hfm : net.fn m = .linear)
    (h1 : ∀ p y, S.op .multiply p [y, S.den .sigmoid y] = S.den .silu y)
    (h2 : ∀ p y, S.op .multiply p [S.den .sigmoid y, y] = S.den .silu y) :
    net'.IsVal S x (Function.update v s (v m)) := by
  obtain ⟨k, F⟩ := h.facts wf
  have args : ∀ o ∈ net'.layers, Graph.argsOf net'.prev x (Function.update v s (v m)) o =
      Graph.argsOf net.prev x v o := by
    intro o ho
    have ho' := (F.mem o).1 ho
    unfold Graph.argsOf
    rw [F.prev o ho'.1]
    by_cases h0 : net.prev o = []
    · simp [h0]
    · simp only [List.map_eq_nil_iff, h0, if_false, List.map_map]
      apply List.map_congr_left
      intro y hy
      by_cases hym : y = m
      · subst hym; simp [ren]
      · have hys : y ≠ s := by
          rintro rfl
          have := wf.back o ho'.1 _ hy
          rw [h.hn] at this; simp at this; exact ho'.2 this
        simp [ren, hym, hys]
  have hvs : v s = S.den .sigmoid (v q) := by
    rw [hv s F.sm]
    simp [Net.eval, h.cs, hact, h.fs, Graph.argsOf, h.hp, hop]
  intro o ho
  have ho' := (F.mem o).1 ho
  rw [args o ho]
  by_cases hos : o = s
  · subst hos
    rw [Function.update_self, hv m F.mm]
    have e : net'.eval S o (Graph.argsOf net.prev x v o) = S.den .silu (v q) := by
      simp [Net.eval, F.cls, h.cs, hact, F.fn, Graph.argsOf, h.hp, hop]
    rw [e]
    rcases h.hm with e | e
    · simp [Net.eval, h.cm, hmul, hfm, hlin, Graph.argsOf, e, hvs, h1]
    · simp [Net.eval, h.cm, hmul, hfm, hlin, Graph.argsOf, e, hvs, h2]
  · rw [Function.update_of_ne hos, hv o ho'.1]
    simp only [Net.eval, F.cls, F.fn, Function.update_of_ne hos, F.par]

end Silu
end Verif.Opt

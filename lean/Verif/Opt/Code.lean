import Verif.Opt.Renumber

/-! # Numbers, saved copies and buffers during the pass -/

namespace Verif.Opt
variable {P : Type}

/-- `x` comes before `y` in the list -/
def Bef (l : List Nat) (x y : Nat) : Prop := ∃ i j : Nat, i < j ∧ l[i]? = some x ∧ l[j]? = some y

theorem Bef.mem {l : List Nat} {x y : Nat} (h : Bef l x y) : x ∈ l ∧ y ∈ l := by
  obtain ⟨i, j, _, h1, h2⟩ := h
  exact ⟨List.mem_of_getElem? h1, List.mem_of_getElem? h2⟩

theorem Bef.asymm {l : List Nat} (hnd : l.Nodup) {x y : Nat} (h : Bef l x y) (h' : Bef l y x) : False := by
  obtain ⟨i, j, h0, h1, h2⟩ := h
  obtain ⟨i', j', h0', h1', h2'⟩ := h'
  have := nodup_pos hnd h1 h2'
  have := nodup_pos hnd h2 h1'
  omega

theorem Bef.ne {l : List Nat} (hnd : l.Nodup) {x y : Nat} (h : Bef l x y) : x ≠ y := by
  rintro rfl; exact h.asymm hnd h

theorem bef_total {l : List Nat} {x y : Nat} (hx : x ∈ l) (hy : y ∈ l) (hne : x ≠ y) : Bef l x y ∨ Bef l y x := by
  obtain ⟨i, hi⟩ := List.mem_iff_getElem?.1 hx
  obtain ⟨j, hj⟩ := List.mem_iff_getElem?.1 hy
  rcases Nat.lt_trichotomy i j with h | h | h
  · exact Or.inl ⟨i, j, h, hi, hj⟩
  · subst h; rw [hi] at hj; exact absurd (by simpa using hj) hne
  · exact Or.inr ⟨j, i, h, hj, hi⟩

theorem bef_erase {l : List Nat} (hnd : l.Nodup) {k r : Nat} (hr : l[k]? = some r) {x y : Nat} :
    Bef (l.eraseIdx k) x y ↔ Bef l x y ∧ x ≠ r ∧ y ≠ r := by
  constructor
  · rintro ⟨i, j, h, h1, h2⟩
    have m1 := (er_mem hnd hr x).1 (List.mem_of_getElem? h1)
    have m2 := (er_mem hnd hr y).1 (List.mem_of_getElem? h2)
    refine ⟨?_, m1.2, m2.2⟩
    rw [er_get] at h1 h2
    split at h1 <;> split at h2
    · exact ⟨i, j, h, h1, h2⟩
    · exact ⟨i, j + 1, by omega, h1, h2⟩
    · exact ⟨i + 1, j, by omega, h1, h2⟩
    · exact ⟨i + 1, j + 1, by omega, h1, h2⟩
  · rintro ⟨⟨i, j, h, h1, h2⟩, n1, n2⟩
    obtain ⟨e1, p1⟩ := er_pos hr h1 n1
    obtain ⟨e2, p2⟩ := er_pos hr h2 n2
    refine ⟨_, _, ?_, p1, p2⟩
    split <;> split <;> omega

theorem Adj.bef {l : List Nat} {x y : Nat} (h : Adj l x y) : Bef l x y := by
  obtain ⟨j, h1, h2⟩ := h; exact ⟨j, j + 1, by omega, h1, h2⟩

/-- nothing between consecutive layers -/
theorem Adj.bef_right {l : List Nat} (hnd : l.Nodup) {x y z : Nat} (h : Adj l x y) (hz : Bef l x z) (hne : z ≠ y) :
    Bef l y z := by
  obtain ⟨j, h1, h2⟩ := h
  obtain ⟨i, k, h0, h3, h4⟩ := hz
  have := nodup_pos hnd h1 h3
  subst this
  refine ⟨j + 1, k, ?_, h2, h4⟩
  have : k ≠ j + 1 := by rintro rfl; rw [h2] at h4; exact hne (by simpa using h4.symm)
  omega

theorem Adj.bef_left {l : List Nat} (hnd : l.Nodup) {x y z : Nat} (h : Adj l x y) (hz : Bef l z y) (hne : z ≠ x) :
    Bef l z x := by
  obtain ⟨j, h1, h2⟩ := h
  obtain ⟨i, k, h0, h3, h4⟩ := hz
  have := nodup_pos hnd h2 h4
  subst this
  refine ⟨i, j, ?_, h3, h1⟩
  have : i ≠ j := by rintro rfl; rw [h1] at h3; exact hne (by simpa using h3.symm)
  omega

theorem Bef.trans {l : List Nat} (hnd : l.Nodup) {x y z : Nat} (h1 : Bef l x y) (h2 : Bef l y z) : Bef l x z := by
  obtain ⟨i, j, a, b, c⟩ := h1
  obtain ⟨i', j', a', b', c'⟩ := h2
  have := nodup_pos hnd c b'
  exact ⟨i, j', by omega, b, c'⟩

/-- Numbers are distinct; only layers of the list have a saved copy; every layer whose number is smaller than
that of a layer with a saved copy comes before it. -/
structure Keyed (net : Net P) : Prop where
  inj : ∀ o ∈ net.layers, ∀ q ∈ net.layers, net.num o = net.num q → o = q
  ord : ∀ o ∈ net.layers, ∀ q ∈ net.layers, net.dict (net.num o) ≠ none → net.num q < net.num o →
    Bef net.layers q o
  keys : ∀ k, net.dict k ≠ none → ∃ o ∈ net.layers, net.num o = k

/-- the effect on numbers and saved copies of merging layer `y` into layer `x` just before it -/
structure Merged (net net' : Net P) (x y : Nat) : Prop where
  mem : ∀ o, o ∈ net'.layers ↔ o ∈ net.layers ∧ o ≠ y
  num : ∀ o ∈ net'.layers, net'.num o = if net.num o > net.num x then net.num o - 1 else net.num o
  dict : ∀ o ∈ net'.layers, net'.dict (net'.num o) =
    if o = x then (net.dict (net.num y)).or (net.dict (net.num x)) else net.dict (net.num o)
  bef : ∀ o q, Bef net'.layers o q ↔ Bef net.layers o q ∧ o ≠ y ∧ q ≠ y
  keyed : Keyed net'

theorem merged {net f net' : Net P} {x y k : Nat} (hnd : net.layers.Nodup) (K : Keyed net)
    (hy : net.layers[k]? = some y) (hadj : Adj net.layers x y) (hnum : net.num y = net.num x + 1)
    (fnum : f.num = net.num) (flay : f.layers = net.layers.eraseIdx k)
    (fdict : f.dict = match net.dict (net.num y) with
      | none => net.dict
      | some c => Function.update (Function.update net.dict (net.num x) (some c)) (net.num y) none)
    (e : net' = (net.layers.eraseIdx k).foldl (shiftOne (net.num x) 1) f) : Merged net net' x y := by
  have hxy : x ≠ y := hadj.bef.ne hnd
  obtain ⟨hxm, hym⟩ := hadj.bef.mem
  have hL : net'.layers = net.layers.eraseIdx k := by
    rw [e, (shift_same _ 1 _ _).layers, flay]
  have hmem : ∀ o, o ∈ net.layers.eraseIdx k ↔ o ∈ net.layers ∧ o ≠ y := er_mem hnd hy
  have hLnd : (net.layers.eraseIdx k).Nodup := hnd.eraseIdx k
  -- the dictionary before renumbering
  have fd : ∀ o ∈ net.layers.eraseIdx k, f.dict (net.num o) =
      if o = x then (net.dict (net.num y)).or (net.dict (net.num x)) else net.dict (net.num o) := by
    intro o ho
    obtain ⟨ho, hoy⟩ := (hmem o).1 ho
    have n1 : net.num o ≠ net.num y := fun h => hoy (K.inj o ho y hym h)
    rw [fdict]
    cases hd : net.dict (net.num y) with
    | none => by_cases h : o = x <;> simp [h]
    | some c =>
      by_cases h : o = x
      · subst h; simp [n1]
      · have n2 : net.num o ≠ net.num x := fun h' => h (K.inj o ho x hxm h')
        simp [h, n1, n2]
  have fy : f.dict (net.num y) = none := by
    rw [fdict]
    cases hd : net.dict (net.num y) with
    | none => simpa using hd
    | some c => simp
  have fkeys : ∀ c, f.dict c ≠ none → ∃ o ∈ net.layers.eraseIdx k, f.num o = c := by
    intro c hc
    by_cases h1 : c = net.num y
    · subst h1; exact absurd fy hc
    by_cases h2 : c = net.num x
    · exact ⟨x, (hmem x).2 ⟨hxm, hxy⟩, by rw [fnum, h2]⟩
    have : net.dict c ≠ none := by
      rw [fdict] at hc
      cases hd : net.dict (net.num y) with
      | none => rwa [hd] at hc
      | some _ => rw [hd] at hc; simpa [h1, h2] using hc
    obtain ⟨o, ho, e⟩ := K.keys c this
    exact ⟨o, (hmem o).2 ⟨ho, by rintro rfl; exact h1 e.symm⟩, by rw [fnum, e]⟩
  have finj : ∀ o ∈ net.layers.eraseIdx k, ∀ q ∈ net.layers.eraseIdx k, f.num o = f.num q → o = q := by
    intro o ho q hq h
    rw [fnum] at h
    exact K.inj o ((hmem o).1 ho).1 q ((hmem q).1 hq).1 h
  have fgap : ∀ o ∈ net.layers.eraseIdx k, f.num o > net.num x → f.num o > net.num x + 1 := by
    intro o ho h
    rw [fnum] at h ⊢
    have : net.num o ≠ net.num y := fun h' => ((hmem o).1 ho).2 (K.inj o ((hmem o).1 ho).1 y hym h')
    omega
  have ford' : ∀ o ∈ net.layers.eraseIdx k, ∀ q ∈ net.layers.eraseIdx k, f.dict (f.num o) ≠ none →
      f.num q < f.num o → Bef net.layers q o := by
    intro o ho q hq hk hlt
    rw [fnum] at hk hlt
    rw [fd o ho] at hk
    have ho' := (hmem o).1 ho
    have hq' := (hmem q).1 hq
    by_cases h : o = x
    · subst h
      simp only [if_true] at hk
      cases hd : net.dict (net.num y) with
      | none => rw [hd] at hk; exact K.ord o hxm q hq'.1 (by simpa using hk) hlt
      | some c =>
        have := K.ord y hym q hq'.1 (by rw [hd]; simp) (by omega)
        exact hadj.bef_left hnd this (by rintro rfl; omega)
    · rw [if_neg h] at hk
      exact K.ord o ho'.1 q hq'.1 hk hlt
  have ford : (net.layers.eraseIdx k).Pairwise (fun a b => f.dict (f.num a) ≠ none → f.num a < f.num b) := by
    rw [List.pairwise_iff_getElem]
    intro i j hi hj hij hk
    have h1 : (net.layers.eraseIdx k)[i]? = some (net.layers.eraseIdx k)[i] := List.getElem?_eq_getElem hi
    have h2 : (net.layers.eraseIdx k)[j]? = some (net.layers.eraseIdx k)[j] := List.getElem?_eq_getElem hj
    have hb : Bef (net.layers.eraseIdx k) (net.layers.eraseIdx k)[i] (net.layers.eraseIdx k)[j] :=
      ⟨i, j, hij, h1, h2⟩
    have m1 := List.mem_of_getElem? h1
    have m2 := List.mem_of_getElem? h2
    rcases Nat.lt_trichotomy (f.num (net.layers.eraseIdx k)[i]) (f.num (net.layers.eraseIdx k)[j]) with h | h | h
    · exact h
    · exact absurd (finj _ m1 _ m2 h) (hb.ne hLnd)
    · exact absurd (ford' _ m1 _ m2 hk h) fun hc => ((bef_erase hnd hy).1 hb).1.asymm hnd hc
  obtain ⟨s1, s2⟩ := shift_keyed (net.num x) f _ hLnd finj fgap ford fkeys
  rw [← e] at s1 s2
  have snum : ∀ o ∈ net.layers.eraseIdx k, net'.num o =
      if net.num o > net.num x then net.num o - 1 else net.num o := by
    intro o ho
    rw [e, shift_num _ _ _ hLnd, fnum]; simp [ho]
  have sinj : ∀ o ∈ net.layers.eraseIdx k, ∀ q ∈ net.layers.eraseIdx k,
      (net'.num o < net'.num q ↔ net.num o < net.num q) ∧ (net'.num o = net'.num q → o = q) := by
    intro o ho q hq
    rw [snum o ho, snum q hq]
    have a := fgap o ho
    have b := fgap q hq
    have c := finj o ho q hq
    rw [fnum] at a b c
    constructor
    · constructor <;> intro h
      · split at h <;> split at h <;> omega
      · split <;> split <;> omega
    · intro h
      apply c
      split at h <;> split at h <;> omega
  refine ⟨by rw [hL]; exact hmem, by rw [hL]; exact snum, ?_, ?_, ⟨?_, ?_, ?_⟩⟩
  · rw [hL]; intro o ho; rw [s1 o ho, fnum]; exact fd o ho
  · rw [hL]; intro o q; exact bef_erase hnd hy
  · rw [hL]; intro o ho q hq h; exact (sinj o ho q hq).2 h
  · rw [hL]; intro o ho q hq hk hlt
    rw [s1 o ho] at hk
    have := (sinj q hq o ho).1.1 hlt
    exact (bef_erase hnd hy).2 ⟨ford' o ho q hq hk (by rw [fnum]; exact this), ((hmem q).1 hq).2, ((hmem o).1 ho).2⟩
  · rw [hL]; exact s2

theorem Fused.merged {net net' : Net P} {par' : Nat → P} {p a i i' : Nat} (wf : WF net)
    (h : Fused net net' par' p a i i') (K : Keyed net) (hadj : Adj net.layers p a)
    (hnum : net.num a = net.num p + 1) : Merged net net' p a := by
  obtain ⟨r, hr, e⟩ := h.eq
  obtain ⟨j, h1, h2⟩ := hadj
  have hji := wf.pos_inj h2 h.ha
  subst hji
  have : r = p := by
    rw [show j + 1 - 1 = j by omega, h1] at hr; simpa using hr.symm
  subst this
  exact Opt.merged (f := fuse net par' r a (j + 1)) wf.nodup K h.ha ⟨j, h1, h2⟩ hnum rfl rfl rfl e

theorem Silued.merged {net net' : Net P} {q s m i i' : Nat} (wf : WF net) (h : Silued net net' q s m i i')
    (K : Keyed net) (hadj : Adj3 net.layers q s m) (hnum : net.num m = net.num s + 1) : Merged net net' s m := by
  obtain ⟨r, hr, e⟩ := h.eq
  obtain ⟨j, h1, h2, h3⟩ := hadj
  have ee := erase_eq_eraseIdx wf.nodup h3
  have hji := wf.pos_inj h2 h.hs
  rw [ee] at hr e
  have : r = s := by
    rw [er_get, if_pos (by omega), h.hs] at hr; simpa using hr.symm
  subst this
  exact Opt.merged (f := toSilu net q r m) wf.nodup K h3 ⟨j + 1, h2, h3⟩ hnum rfl (by rw [← ee]; rfl) rfl e

end Verif.Opt

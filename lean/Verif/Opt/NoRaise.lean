import Verif.Opt.Load

/-! # The pass does not raise on the networks it is meant for -/

namespace Verif.Opt
open Verif.Graph
variable {P T : Type}

/-- a layer that is neither an input nor a constant has a producer -/
def Sourced (net : Net P) : Prop := ∀ o ∈ net.layers, Inner net o → net.prev o ≠ []

theorem Fused.sourced {net net' : Net P} {par' : Nat → P} {p a i i' : Nat} (wf : WF net)
    (h : Fused net net' par' p a i i') (hs : Sourced net) : Sourced net' := by
  have F := h.facts wf
  intro o ho hi
  have ho' := ((F.mem o).1 ho).1
  rw [F.prev o ho']
  have := hs o ho' (by unfold Inner at *; rwa [F.cls] at hi)
  simpa using this

theorem Silued.sourced {net net' : Net P} {q s m i i' : Nat} (wf : WF net)
    (h : Silued net net' q s m i i') (hs : Sourced net) : Sourced net' := by
  obtain ⟨k, F⟩ := h.facts wf
  intro o ho hi
  have ho' := ((F.mem o).1 ho).1
  rw [F.prev o ho']
  have := hs o ho' (by unfold Inner at *; rwa [F.cls] at hi)
  simpa using this

theorem dropLayer_some {net : Net P} {i p : Nat} (h2 : 2 ≤ i) (hi : i < net.layers.length)
    (hp : p ∈ net.layers.eraseIdx i) : (dropLayer i p net).isSome := by
  unfold dropLayer updateIndices
  have hlen : i - 1 < (net.layers.eraseIdx i).length := by
    rw [List.length_eraseIdx_of_lt hi]; omega
  rw [List.getElem?_eq_getElem hlen]
  simp only [show ¬ 1 > i - 1 by omega, if_false, Option.bind_some, Option.isSome_map]
  unfold indexOf?
  rw [(shift_same _ 1 _ _).layers]
  simp [hp]

theorem applyFuseAct_some {net : Net P} (wf : WF net) {a i : Nat} (ha : net.layers[i]? = some a)
    (hpat : isFuseAct net a) (h2 : 2 ≤ i) : (applyFuseAct i net).isSome := by
  obtain ⟨hcls, p, hp, hcp, hlin, hlen⟩ := hpat
  have ham := mem_of_pos ha
  have hap : p ∈ net.prev a := by rw [hp]; simp
  have hn : net.next p = [a] := single_of_length hlen (wf.back a ham p hap)
  have hpa : p ≠ a := by rintro rfl; exact wf.irrefl ham hap
  unfold applyFuseAct
  simp only [ha, hp]
  unfold removeNext
  simp only [updateDict, hn, List.mem_singleton, if_true, Option.bind_some]
  apply dropLayer_some h2
  · rw [updateNext_layers]; exact (List.getElem?_eq_some_iff.1 ha).1
  · rw [updateNext_layers]; exact (er_mem wf.nodup ha p).2 ⟨wf.prev_mem ham hap, hpa⟩

theorem applyConvBN_some {fold : P → P → P} {net : Net P} (wf : WF net) {b i : Nat}
    (hb : net.layers[i]? = some b) (hpat : isConvBN net b)
    (hadj : ∀ p ∈ net.prev b, net.layers[i - 1]? = some p) (h2 : 2 ≤ i) :
    (applyConvBN fold i net).isSome := by
  obtain ⟨hcls, p, hp, hcp, hlen, hlin⟩ := hpat
  have hbm := mem_of_pos hb
  have hbp : p ∈ net.prev b := by rw [hp]; simp
  have hn : net.next p = [b] := single_of_length hlen (wf.back b hbm p hbp)
  have hpb : p ≠ b := by rintro rfl; exact wf.irrefl hbm hbp
  unfold applyConvBN
  simp only [hb, hadj p hbp]
  unfold removeNext
  simp only [hn, List.mem_singleton, if_true, Option.bind_some, updateDict]
  apply dropLayer_some h2
  · simp only [updateNext_layers]; exact (List.getElem?_eq_some_iff.1 hb).1
  · simp only [updateNext_layers]; exact (er_mem wf.nodup hb p).2 ⟨wf.prev_mem hbm hbp, hpb⟩

theorem applySilu_some {net : Net P} (wf : WF net) {s i : Nat} (hs : net.layers[i]? = some s)
    (hpat : isSilu net s) : (applySilu i net).isSome := by
  obtain ⟨hcls, hfn, q, hp, hlin, hlq, m, hnm, hcm, hlm, hmq⟩ := hpat
  have hsm := mem_of_pos hs
  have hqs : q ∈ net.prev s := by rw [hp]; simp
  have hqL := wf.prev_mem hsm hqs
  have hsq := wf.back s hsm q hqs
  obtain ⟨hmL, hsm'⟩ := wf.fwd s hsm m (by rw [hnm]; simp)
  have hqm := (wf.fwd q hqL m hmq).2
  have n1 : q ≠ s := by rintro rfl; exact wf.irrefl hsm hqs
  have n2 : s ≠ m := by rintro rfl; exact wf.irrefl hsm hsm'
  have n3 : q ≠ m := by rintro rfl; exact wf.irrefl hqL hqm
  have hnextq := pair_of_length n2 hlq hsq hmq
  obtain ⟨kq, hkq⟩ := pos_of_mem hqL
  obtain ⟨km, hkm⟩ := pos_of_mem hmL
  have b1 := wf.before hs hkq hqs
  have b2 := wf.before hkm hs hsm'
  have hkml : km < net.layers.length := (List.getElem?_eq_some_iff.1 hkm).1
  have ee := erase_eq_eraseIdx wf.nodup hkm
  unfold applySilu
  simp only [hs, hp, hnm]
  have e1 : removeNext q m net = some { net with next := Function.update net.next q [s] } := by
    unfold removeNext
    rw [if_pos hmq]
    rcases hnextq with e | e <;> simp [e, n2]
  rw [e1]
  simp only [Option.bind_some]
  have e2 : removeNext q s { net with next := Function.update net.next q [s] } =
      some { net with next := Function.update net.next q [] } := by
    unfold removeNext
    simp
  rw [e2]
  simp only [Option.bind_some, updateDict, updateNext_layers, hmL, if_true]
  unfold updateIndices
  have hlen : i < (net.layers.erase m).length := by
    rw [ee, List.length_eraseIdx_of_lt hkml]; omega
  simp only [List.getElem?_eq_getElem hlen, show ¬ 1 > i by omega, if_false, Option.bind_some,
    Option.isSome_map]
  unfold indexOf?
  rw [(shift_same _ 1 _ _).layers]
  have : q ∈ net.layers.erase m := by
    rw [ee]; exact (er_mem wf.nodup hkm q).2 ⟨hqL, n3⟩
  simp [this]

/-- One iteration does not raise. -/
theorem patterns_some {fold : P → P → P} {S : Sem P T} (hS : SemOK fold S) {net : Net P} {i o : Nat}
    (I : Inv S net i) (hsrc : Sourced net) (ho : net.layers[i]? = some o) :
    (patterns fold o (net, i)).isSome := by
  have wf := I.wf
  have hom := mem_of_pos ho
  -- a fused layer is at least third
  have two : ∀ p, net.prev o = [p] → net.next p = [o] → Inner net p → 2 ≤ i ∧ net.layers[i - 1]? = some p := by
    intro p hp hn hin
    have hpm := wf.prev_mem hom (by rw [hp]; simp : p ∈ net.prev o)
    obtain ⟨j, e1, e2⟩ := I.pairs p hpm o hin hn hp
    have := wf.pos_inj e2 ho
    subst this
    refine ⟨?_, by simpa using e1⟩
    by_contra hlt
    have h0 : j = 0 := by omega
    subst h0
    have hne := hsrc p hpm hin
    cases hpv : net.prev p with
    | nil => exact hne hpv
    | cons b _ =>
      obtain ⟨k, hk, _⟩ := wf.sorted 0 p e1 b (by rw [hpv]; simp)
      omega
  unfold patterns tryPattern
  by_cases c1 : isFuseAct net o
  · have h2 : 2 ≤ i := by
      obtain ⟨ca, p, hp, hcp, hlin, hlen⟩ := c1
      have hap : p ∈ net.prev o := by rw [hp]; simp
      have hn := single_of_length hlen (wf.back o hom p hap)
      have hap : S.applies (net.cls p) = true := by
        by_contra hc
        exact I.keeps p (wf.prev_mem hom hap) (by simpa using hc) o (by rw [hn]; simp) ca
      exact (two p hp hn (inner_of_applies hS hap)).1
    obtain ⟨⟨n1, i1⟩, h1⟩ := Option.isSome_iff_exists.1 (applyFuseAct_some wf ho c1 h2)
    obtain ⟨p, F, ca, cp⟩ := applyFuseAct_eq wf ho c1 h1
    have FF := F.facts wf
    have e2 : ¬ isConvBN n1 o := by
      rintro ⟨hc, _⟩; rw [FF.cls, ca] at hc; cases hc
    have e3 : ¬ isMatMulAdd n1 o := by
      rintro ⟨hc, _⟩; rw [FF.cls, ca] at hc; cases hc
    have e4 : ¬ isSilu n1 o := by
      rintro ⟨hc, hf, q, hp, hl, _⟩
      rw [FF.prev o hom, F.hp] at hp
      have hpo : p ≠ o := FF.ne
      simp [ren, hpo] at hp
      subst hp
      rw [FF.fn, Function.update_self] at hl
      rw [FF.fn, Function.update_of_ne hpo.symm] at hf
      rw [hl] at hf; cases hf
    simp [c1, h1, e2, e3, e4]
  · by_cases c2 : isConvBN net o
    · have h2 : ∀ p ∈ net.prev o, 2 ≤ i ∧ net.layers[i - 1]? = some p := by
        intro p hpm
        obtain ⟨_, p', hp, hcp, hlen, _⟩ := c2
        rw [hp] at hpm; simp at hpm; subst hpm
        have hap : p ∈ net.prev o := by rw [hp]; simp
        exact two p hp (single_of_length hlen (wf.back o hom p hap)) (by unfold Inner; rw [hcp]; simp)
      have h2' : 2 ≤ i := by
        obtain ⟨_, p, hp, _⟩ := c2
        exact (h2 p (by rw [hp]; simp)).1
      obtain ⟨⟨n1, i1⟩, h1⟩ := Option.isSome_iff_exists.1
        (applyConvBN_some (fold := fold) wf ho c2 (fun p hp => (h2 p hp).2) h2')
      obtain ⟨p, F, ca, cp⟩ := applyConvBN_eq wf ho c2 (fun p hp => (h2 p hp).2) h1
      have FF := F.facts wf
      have e3 : ¬ isMatMulAdd n1 o := by
        rintro ⟨hc, _⟩; rw [FF.cls, ca] at hc; cases hc
      have e4 : ¬ isSilu n1 o := by
        rintro ⟨hc, _⟩; rw [FF.cls, ca] at hc; cases hc
      simp [c1, c2, h1, e3, e4]
    · have e3 : ¬ isMatMulAdd net o := by
        rintro ⟨hc, hl, _⟩; exact wf.matMul o hom hc hl
      by_cases c4 : isSilu net o
      · simpa [c1, c2, e3, c4] using applySilu_some wf ho c4
      · simp [c1, c2, e3, c4]

theorem step_sourced {fold : P → P → P} {net net' : Net P} {i i' o : Nat} (wf : WF net)
    (h : Step fold net i o net' i') (hs : Sourced net) : Sourced net' := by
  cases h with
  | skip => exact hs
  | act F _ _ => exact F.sourced wf hs
  | bn F _ _ => exact F.sourced wf hs
  | silu F => exact F.sourced wf hs

theorem matchLoop_not_raised {fold : P → P → P} {S : Sem P T} (hS : SemOK fold S) (fuel : Nat) :
    ∀ (net : Net P) (i : Nat), Inv S net i → Sourced net → matchLoop fold fuel net i ≠ .raised := by
  induction fuel with
  | zero => intro net i _ _; simp [matchLoop]
  | succ fuel ih =>
    intro net i I hs
    rw [matchLoop]
    split
    · simp
    · rename_i o ho
      obtain ⟨⟨n1, i1⟩, hp⟩ := Option.isSome_iff_exists.1 (patterns_some hS I hs ho)
      rw [hp]
      have st := step_of_patterns I.wf I.pairs ho hp
      exact ih n1 (i1 + 1) (step_inv hS I ho st).1 (step_sourced I.wf st hs)

end Verif.Opt

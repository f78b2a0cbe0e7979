import Verif.Opt.Code

/-! # The buffers of the optimised network -/

namespace Verif.Opt
variable {P T : Type}

/-- What makes the generated code of a network correct — every layer leaves its output where its consumers look
for it (`own`, `multi`), where no layer executed before the last consumer writes (`clob`) — and the conditions on
numbers and buffers that keep it so during the pass. -/
structure Safe (net : Net P) : Prop where
  keyed : Keyed net
  own : ∀ o ∈ net.layers, net.next o ≠ [] →
    net.outS o = .out (net.path o) ∨ ∃ k, net.dict (net.num o) = some k ∧ net.outS o = .cst k
  multi : ∀ o ∈ net.layers, 2 ≤ (net.next o).length → ∃ k, net.dict (net.num o) = some k ∧ net.outS o = .cst k
  clob : ∀ p n c, Bef net.layers p n → Bef net.layers n c → c ∈ net.next p →
    net.outS p ≠ .out (net.path n) ∧ ∀ k, net.dict (net.num n) = some k → net.outS p ≠ .cst k
  pair : ∀ p ∈ net.layers, ∀ c, Inner net p → net.next p = [c] → net.prev c = [p] → net.num c = net.num p + 1
  silu : ∀ s ∈ net.layers, isSilu net s → ∀ q m, net.prev s = [q] → net.next s = [m] →
    net.num s = net.num q + 1 ∧ net.num m = net.num q + 2
  place : ∀ p ∈ net.layers, ∀ c, net.next p = [c] → net.prev c = [p] → net.fn p = .linear →
    ((net.next c).length = 1 ∨ net.fn c = .linear) → net.path c = net.path p
  siluPath : ∀ s ∈ net.layers, isSilu net s → ∀ q m, net.prev s = [q] → net.next s = [m] →
    (net.next m).length = 1 → net.path m = net.path q

theorem Fused.safe {net net' : Net P} {par' : Nat → P} {p a i i' : Nat} (wf : WF net)
    (h : Fused net net' par' p a i i') (hin : Inner net p) (hia : Inner net a) (hcp : net.cls p ≠ .activation)
    (hP : Pairs net) (X : Safe net) : Safe net' := by
  have F := h.facts wf
  have hadj := hP p F.pm a hin h.hn h.hp
  have M := h.merged wf X.keyed hadj (X.pair p F.pm a hin h.hn h.hp)
  have hnum := X.pair p F.pm a hin h.hn h.hp
  have hnd := wf.nodup
  have out : ∀ o, o ≠ p → net'.outS o = net.outS o := fun o ho => by
    rw [F.outS, Function.update_of_ne ho]
  have outp : net'.outS p = net.outS a := by rw [F.outS, Function.update_self]
  have nxt : ∀ o, o ≠ p → net'.next o = net.next o := fun o ho => by
    rw [F.next, Function.update_of_ne ho]
  have nxtp : net'.next p = net.next a := by rw [F.next, Function.update_self]
  have inner : ∀ o, Inner net' o → Inner net o := fun o ho => by unfold Inner at *; rwa [F.cls] at ho
  have hnotp : ∀ c ∈ net'.layers, p ∉ net.prev c := by
    intro c hc hp
    have := wf.back c ((M.mem c).1 hc).1 p hp
    rw [h.hn] at this; simp at this; exact ((M.mem c).1 hc).2 this
  have pm' : p ∈ net'.layers := (M.mem p).2 ⟨F.pm, F.ne⟩
  have dp : ∀ k, net.dict (net.num a) = some k → net'.dict (net'.num p) = some k := by
    intro k hk; rw [M.dict p pm', hk]; simp
  refine ⟨M.keyed, ?_, ?_, ?_, ?_, ?_, ?_, ?_⟩
  · -- own
    intro o ho hne
    have ho' := (M.mem o).1 ho
    by_cases hop : o = p
    · subst hop
      rw [outp, F.path]
      rw [nxtp] at hne
      by_cases h2 : 2 ≤ (net.next a).length
      · obtain ⟨k, e1, e2⟩ := X.multi a F.am h2
        exact Or.inr ⟨k, dp k e1, e2⟩
      · have h1 : (net.next a).length = 1 := by
          have := List.length_pos_iff.2 hne; omega
        rcases X.own a F.am hne with e | ⟨k, e1, e2⟩
        · left
          rw [e, X.place o F.pm a h.hn h.hp h.lin (Or.inl h1)]
        · exact Or.inr ⟨k, dp k e1, e2⟩
    · rw [out o hop, F.path]
      rw [nxt o hop] at hne
      rw [M.dict o ho, if_neg hop]
      exact X.own o ho'.1 hne
  · -- multi
    intro o ho h2
    have ho' := (M.mem o).1 ho
    by_cases hop : o = p
    · subst hop
      rw [nxtp] at h2
      obtain ⟨k, e1, e2⟩ := X.multi a F.am h2
      exact ⟨k, dp k e1, by rw [outp]; exact e2⟩
    · rw [nxt o hop] at h2
      rw [out o hop, M.dict o ho, if_neg hop]
      exact X.multi o ho'.1 h2
  · -- clobber
    intro x n c hxn hnc hc
    obtain ⟨bxn, hxa, hna⟩ := (M.bef x n).1 hxn
    obtain ⟨bnc, _, hca⟩ := (M.bef n c).1 hnc
    have hn' := (M.mem n).2 ⟨bxn.mem.2, hna⟩
    rw [F.path, M.dict n hn']
    -- the layer whose result `x` now holds
    obtain ⟨y, by1, by2, hy⟩ : ∃ y, Bef net.layers y n ∧ net'.outS x = net.outS y ∧ c ∈ net.next y := by
      by_cases hxp : x = p
      · subst hxp
        exact ⟨a, hadj.bef_right hnd bxn hna, outp, by rwa [nxtp] at hc⟩
      · exact ⟨x, bxn, out x hxp, by rwa [nxt x hxp] at hc⟩
    rw [by2]
    obtain ⟨c1, c2⟩ := X.clob y n c by1 bnc hy
    refine ⟨c1, ?_⟩
    intro k hk
    by_cases hnp : n = p
    · subst hnp
      simp only [if_true] at hk
      cases hd : net.dict (net.num a) with
      | none => rw [hd] at hk; exact c2 k (by simpa using hk)
      | some k' =>
        rw [hd] at hk; simp at hk; subst hk
        exact (X.clob y a c (by1.trans hnd hadj.bef) (hadj.bef_right hnd bnc hca) hy).2 k' hd
    · rw [if_neg hnp] at hk; exact c2 k hk
  · -- pair
    intro x hx c hxi hn hp
    have hc : c ∈ net'.layers := ((h.wf wf).fwd x hx c (by rw [hn]; simp)).1
    have hx' := (M.mem x).1 hx
    have hc' := (M.mem c).1 hc
    rw [M.num c hc, M.num x hx]
    rcases h.prev_inv wf hc hp with ⟨rfl, h1⟩ | ⟨h1, h2, h3⟩
    · rw [nxtp] at hn
      have := X.pair a F.am c hia hn h1
      simp only [gt_iff_lt, lt_self_iff_false, if_false]
      rw [if_pos (by omega)]; omega
    · rw [nxt x h2] at hn
      have := X.pair x hx'.1 c (inner x hxi) hn h1
      have ne1 : net.num x ≠ net.num p := fun e => h2 (X.keyed.inj x hx'.1 p F.pm e)
      split <;> split <;> omega
  · -- silu
    intro s hs hS q m hq hm
    obtain ⟨s1, s2, s3⟩ := h.silu_inv wf hcp hs hS
    rw [s2] at hm
    have hs' := (M.mem s).1 hs
    have hmm : m ∈ net'.layers := ((h.wf wf).fwd s hs m (by rw [s2, hm]; simp)).1
    have hqm : q ∈ net'.layers := (h.wf wf).prev_mem hs (by rw [hq]; simp)
    have hq' := (M.mem q).1 hqm
    have hm' := (M.mem m).1 hmm
    rw [M.num s hs, M.num m hmm, M.num q hqm]
    have e3 : net.num s ≠ net.num p := fun e => s3 (X.keyed.inj s hs'.1 p F.pm e)
    rcases h.prev_inv wf hs hq with ⟨rfl, h1⟩ | ⟨h1, h2, h3⟩
    · obtain ⟨n1, n2⟩ := X.silu s hs'.1 s1 a m h1 hm
      simp only [gt_iff_lt, lt_self_iff_false, if_false]
      rw [if_pos (by omega), if_pos (by omega)]; omega
    · obtain ⟨n1, n2⟩ := X.silu s hs'.1 s1 q m h1 hm
      have ne1 : net.num q ≠ net.num p := fun e => h2 (X.keyed.inj q hq'.1 p F.pm e)
      split <;> split <;> split <;> omega
  · -- place
    intro x hx c hn hp hl hor
    have hc : c ∈ net'.layers := ((h.wf wf).fwd x hx c (by rw [hn]; simp)).1
    have hx' := (M.mem x).1 hx
    have hc' := (M.mem c).1 hc
    have hcx : c ≠ x := by
      rintro rfl
      exact (h.wf wf).irrefl hc (by rw [hp]; simp)
    rw [F.path]
    rcases h.prev_inv wf hc hp with ⟨rfl, h1⟩ | ⟨h1, h2, h3⟩
    · rw [nxtp] at hn
      rw [F.fn, Function.update_self] at hl
      have e1 := X.place x F.pm a h.hn h.hp h.lin (Or.inr hl)
      rw [nxt c hcx, F.fn, Function.update_of_ne hcx] at hor
      rw [X.place a F.am c hn h1 hl hor, e1]
    · rw [nxt x h2] at hn
      rw [F.fn, Function.update_of_ne h2] at hl
      by_cases hcp' : c = p
      · subst hcp'
        exact X.place x hx'.1 c hn h1 hl (Or.inl (by rw [h.hn]; rfl))
      · rw [nxt c hcp', F.fn, Function.update_of_ne hcp'] at hor
        exact X.place x hx'.1 c hn h1 hl hor
  · -- siluPath
    intro s hs hS q m hq hm hlen
    obtain ⟨s1, s2, s3⟩ := h.silu_inv wf hcp hs hS
    rw [s2] at hm
    have hs' := (M.mem s).1 hs
    have hlin : net'.fn q = .linear := by
      obtain ⟨_, _, q', e, e', _⟩ := hS
      rw [e] at hq; simp at hq; subst hq; exact e'
    have hlen' : (net.next m).length = 1 := by
      by_cases hmp : m = p
      · subst hmp; rw [h.hn]; rfl
      · rwa [nxt m hmp] at hlen
    rw [F.path]
    rcases h.prev_inv wf hs hq with ⟨rfl, h1⟩ | ⟨h1, h2, h3⟩
    · rw [F.fn, Function.update_self] at hlin
      rw [X.siluPath s hs'.1 s1 a m h1 hm hlen', X.place q F.pm a h.hn h.hp h.lin (Or.inr hlin)]
    · exact X.siluPath s hs'.1 s1 q m h1 hm hlen'

theorem Silued.safe {net net' : Net P} {q s m i i' : Nat} (wf : WF net) (h : Silued net net' q s m i i')
    (hqi : Inner net q) (hT : Triples net) (hQ : Quiet net i) (X : Safe net) : Safe net' := by
  obtain ⟨k, F⟩ := h.facts wf
  have hadj3 := h.adj3 wf hqi hT
  have hsl : isSilu net s := by
    refine ⟨h.cs, h.fs, q, h.hp, h.lin, ?_, m, h.hn, h.cm, ?_, (F.nq m).2 (Or.inr rfl)⟩
    · rcases h.hq with e | e <;> rw [e] <;> rfl
    · rcases h.hm with e | e <;> rw [e] <;> rfl
  obtain ⟨k1, k2⟩ := X.silu s F.sm hsl q m h.hp h.hn
  have M := h.merged wf X.keyed hadj3 (by omega)
  have hnd := wf.nodup
  have hqs : Adj net.layers q s := by obtain ⟨j, e1, e2, _⟩ := hadj3; exact ⟨j, e1, e2⟩
  have hsm : Adj net.layers s m := by obtain ⟨j, _, e2, e3⟩ := hadj3; exact ⟨j + 1, e2, e3⟩
  have out : ∀ o, o ≠ s → net'.outS o = net.outS o := fun o ho => by rw [F.outS, Function.update_of_ne ho]
  have outs : net'.outS s = net.outS m := by rw [F.outS, Function.update_self]
  have pth : ∀ o, o ≠ s → net'.path o = net.path o := fun o ho => by rw [F.path, Function.update_of_ne ho]
  have pths : net'.path s = net.path m := by rw [F.path, Function.update_self]
  have inner : ∀ o, Inner net' o → Inner net o := fun o ho => by unfold Inner at *; rwa [F.cls] at ho
  have him : Inner net m := by unfold Inner; rw [h.cm]; simp
  have sm' : s ∈ net'.layers := (M.mem s).2 ⟨F.sm, F.n2⟩
  have ds : ∀ k, net.dict (net.num m) = some k → net'.dict (net'.num s) = some k := by
    intro k hk; rw [M.dict s sm', hk]; simp
  have hqlen : 2 ≤ (net.next q).length := by rcases h.hq with e | e <;> rw [e] <;> simp
  -- a consumer of `q` after the pass is `s`
  refine ⟨M.keyed, ?_, ?_, ?_, ?_, ?_, ?_, ?_⟩
  · intro o ho hne
    have ho' := (M.mem o).1 ho
    by_cases hos : o = s
    · subst hos
      rw [F.next_s] at hne
      rw [outs, pths]
      rcases X.own m F.mm hne with e | ⟨k, e1, e2⟩
      · exact Or.inl e
      · exact Or.inr ⟨k, ds k e1, e2⟩
    · rw [out o hos, pth o hos, M.dict o ho, if_neg hos]
      by_cases hoq : o = q
      · subst hoq; exact Or.inr (X.multi o ho'.1 hqlen)
      · rw [F.next_of hoq hos] at hne; exact X.own o ho'.1 hne
  · intro o ho h2
    have ho' := (M.mem o).1 ho
    by_cases hos : o = s
    · subst hos
      rw [F.next_s] at h2
      obtain ⟨k, e1, e2⟩ := X.multi m F.mm h2
      exact ⟨k, ds k e1, by rw [outs]; exact e2⟩
    · by_cases hoq : o = q
      · subst hoq; rw [F.next_q] at h2; simp at h2
      · rw [out o hos, M.dict o ho, if_neg hos]
        rw [F.next_of hoq hos] at h2; exact X.multi o ho'.1 h2
  · intro x n c hxn hnc hc
    obtain ⟨bxn, hxm, hnm⟩ := (M.bef x n).1 hxn
    obtain ⟨bnc, _, hcm⟩ := (M.bef n c).1 hnc
    have hn' := (M.mem n).2 ⟨bxn.mem.2, hnm⟩
    have hxq : x ≠ q := by
      rintro rfl
      rw [F.next_q] at hc; simp at hc; subst hc
      exact (hqs.bef_right hnd bxn (bnc.ne hnd)).asymm hnd bnc
    obtain ⟨y, by1, by2, hy, hyx⟩ : ∃ y, Bef net.layers y n ∧ net'.outS x = net.outS y ∧ c ∈ net.next y ∧
        (x ≠ s → y = x) := by
      by_cases hxs : x = s
      · subst hxs
        exact ⟨m, hsm.bef_right hnd bxn hnm, outs, by rwa [F.next_s] at hc, fun e => absurd rfl e⟩
      · exact ⟨x, bxn, out x hxs, by rwa [F.next_of hxq hxs] at hc, fun _ => rfl⟩
    rw [by2, M.dict n hn']
    by_cases hns : n = s
    · subst hns
      have b2 := X.clob y m c (by1.trans hnd hsm.bef) (hsm.bef_right hnd bnc hcm) hy
      have b1 := X.clob y n c by1 bnc hy
      rw [pths]
      refine ⟨b2.1, ?_⟩
      intro k hk
      simp only [if_true] at hk
      cases hd : net.dict (net.num m) with
      | none => rw [hd] at hk; exact b1.2 k (by simpa using hk)
      | some k' => rw [hd] at hk; simp at hk; subst hk; exact b2.2 k' hd
    · rw [pth n hns, if_neg hns]
      exact X.clob y n c by1 bnc hy
  · intro x hx c hxi hn hp
    have hc : c ∈ net'.layers := ((h.wf wf).fwd x hx c (by rw [hn]; simp)).1
    have hx' := (M.mem x).1 hx
    have hc' := (M.mem c).1 hc
    rw [M.num c hc, M.num x hx]
    rcases h.prev_inv wf hc hp with ⟨rfl, h1⟩ | ⟨h1, h2, h3⟩
    · rw [F.next_s] at hn
      have := X.pair m F.mm c him hn h1
      simp only [gt_iff_lt, lt_self_iff_false, if_false]
      rw [if_pos (by omega)]; omega
    · by_cases hxq : x = q
      · subst hxq
        rw [F.next_q] at hn; simp at hn; subst hn
        simp only [gt_iff_lt, lt_self_iff_false, if_false]
        rw [if_neg (by omega)]; omega
      · rw [F.next_of hxq h2] at hn
        have := X.pair x hx'.1 c (inner x hxi) hn h1
        have ne1 : net.num x ≠ net.num s := fun e => h2 (X.keyed.inj x hx'.1 s F.sm e)
        split <;> split <;> omega
  · intro t ht hS x y hx hy
    obtain ⟨s1, s2⟩ := h.silu_inv wf ht hS
    have hts : t ≠ s := by
      rintro rfl
      obtain ⟨_, f, _⟩ := hS
      rw [F.fn, Function.update_self] at f; cases f
    rw [s2] at hy
    have ht' := (M.mem t).1 ht
    have hym : y ∈ net'.layers := ((h.wf wf).fwd t ht y (by rw [s2, hy]; simp)).1
    have hxm : x ∈ net'.layers := (h.wf wf).prev_mem ht (by rw [hx]; simp)
    have hx' := (M.mem x).1 hxm
    have hy' := (M.mem y).1 hym
    have hlin : net'.fn x = .linear := by
      obtain ⟨_, _, q', e, e', _⟩ := hS
      rw [e] at hx; simp at hx; subst hx; exact e'
    have hxs : x ≠ s := by rintro rfl; rw [F.fn, Function.update_self] at hlin; cases hlin
    rw [M.num t ht, M.num y hym, M.num x hxm]
    have e3 : net.num t ≠ net.num s := fun e => hts (X.keyed.inj t ht'.1 s F.sm e)
    have e4 : net.num x ≠ net.num s := fun e => hxs (X.keyed.inj x hx'.1 s F.sm e)
    rcases h.prev_inv wf ht hx with ⟨rfl, h1⟩ | ⟨h1, h2, h3⟩
    · exact absurd rfl hxs
    · obtain ⟨n1, n2⟩ := X.silu t ht'.1 s1 x y h1 hy
      split <;> split <;> split <;> omega
  · intro x hx c hn hp hl hor
    have hc : c ∈ net'.layers := ((h.wf wf).fwd x hx c (by rw [hn]; simp)).1
    have hx' := (M.mem x).1 hx
    have hc' := (M.mem c).1 hc
    have hxs : x ≠ s := by rintro rfl; rw [F.fn, Function.update_self] at hl; cases hl
    rw [F.fn, Function.update_of_ne hxs] at hl
    rw [pth x hxs]
    by_cases hxq : x = q
    · subst hxq
      rw [F.next_q] at hn; simp at hn; subst hn
      rw [pths]
      have : (net.next m).length = 1 := by
        rcases hor with e | e
        · rwa [F.next_s] at e
        · rw [F.fn, Function.update_self] at e; cases e
      exact X.siluPath s F.sm hsl x m h.hp h.hn this
    · rw [F.next_of hxq hxs] at hn
      rcases h.prev_inv wf hc hp with ⟨rfl, h1⟩ | ⟨h1, h2, h3⟩
      · exact absurd rfl hxs
      · have hcs : c ≠ s := by
          rintro rfl
          rw [h.hp] at h1; simp at h1; exact hxq h1.symm
        rw [pth c hcs]
        apply X.place x hx'.1 c hn h1 hl
        rw [F.fn, Function.update_of_ne hcs] at hor
        by_cases hcq : c = q
        · subst hcq; exact Or.inr h.lin
        · rwa [F.next_of hcq hcs] at hor
  · intro t ht hS x y hx hy hlen
    obtain ⟨s1, s2⟩ := h.silu_inv wf ht hS
    have hts : t ≠ s := by
      rintro rfl
      obtain ⟨_, f, _⟩ := hS
      rw [F.fn, Function.update_self] at f; cases f
    have ht' := (M.mem t).1 ht
    have hlin : net'.fn x = .linear := by
      obtain ⟨_, _, q', e, e', _⟩ := hS
      rw [e] at hx; simp at hx; subst hx; exact e'
    have hxs : x ≠ s := by rintro rfl; rw [F.fn, Function.update_self] at hlin; cases hlin
    have hcy : net.cls y = .multiply := by
      obtain ⟨_, _, q', _, _, _, m', e, e', _⟩ := hS
      rw [e] at hy; simp at hy; subst hy; rwa [F.cls] at e'
    have hys : y ≠ s := by rintro rfl; rw [h.cs] at hcy; cases hcy
    rw [s2] at hy
    have hyq : y ≠ q := by
      rintro rfl
      obtain ⟨kt, hkt⟩ := pos_of_mem ht'.1
      have := wf.before (h.pos_lt wf).2 hkt (wf.fwd t ht'.1 y (by rw [hy]; simp)).2
      have := (h.pos_lt wf).1
      exact hQ kt (by omega) t hkt s1
    rw [F.next_of hyq hys] at hlen
    rw [pth x hxs, pth y hys]
    rcases h.prev_inv wf ht hx with ⟨rfl, h1⟩ | ⟨h1, h2, h3⟩
    · exact absurd rfl hxs
    · exact X.siluPath t ht'.1 s1 x y h1 hy hlen

theorem step_safe {fold : P → P → P} {S : Sem P T} (hS : SemOK fold S) {net net' : Net P} {i i' o : Nat}
    (I : Inv S net i) (h : Step fold net i o net' i') (X : Safe net) : Safe net' := by
  cases h with
  | skip => exact X
  | act F ca cp =>
    rename_i p
    have FF := F.facts I.wf
    have hap : S.applies (net.cls p) = true := by
      by_contra hc
      exact I.keeps p FF.pm (by simpa using hc) o (by rw [F.hn]; simp) ca
    exact F.safe I.wf (inner_of_applies hS hap) (by unfold Inner; rw [ca]; simp) cp I.pairs X
  | bn F cb cp =>
    exact F.safe I.wf (by unfold Inner; rw [cp]; simp) (by unfold Inner; rw [cb]; simp) (by rw [cp]; simp)
      I.pairs X
  | silu F =>
    rename_i q m
    obtain ⟨k, FF⟩ := F.facts I.wf
    have haq : S.applies (net.cls q) = true := by
      by_contra hc
      exact I.keeps q FF.qm (by simpa using hc) o ((FF.nq o).2 (Or.inl rfl)) F.cs
    exact F.safe I.wf (inner_of_applies hS haq) I.triples I.quiet X

theorem matchLoop_safe {fold : P → P → P} {S : Sem P T} (hS : SemOK fold S) (fuel : Nat) :
    ∀ (net net' : Net P) (i : Nat), Inv S net i → Safe net → matchLoop fold fuel net i = .done net' →
      Safe net' := by
  induction fuel with
  | zero => intro net net' i _ _ h; simp [matchLoop] at h
  | succ fuel ih =>
    intro net net' i I X h
    rw [matchLoop] at h
    split at h
    · simp at h; subst h; exact X
    · rename_i o ho
      split at h
      · simp at h
      · rename_i n1 i1 hp
        have st := step_of_patterns I.wf I.pairs ho hp
        exact ih n1 net' (i1 + 1) (step_inv hS I ho st).1 (step_safe hS I st X) h

/-- numbers are below the number of layers -/
def Dense (net : Net P) : Prop := ∀ o ∈ net.layers, net.num o < net.layers.length

theorem Merged.dense {net net' : Net P} {x y : Nat} (M : Merged net net' x y) (hx : x ∈ net.layers)
    (hy : y ∈ net.layers) (hnum : net.num y = net.num x + 1) (hlen : net'.layers.length = net.layers.length - 1)
    (D : Dense net) : Dense net' := by
  intro o ho
  have := D o ((M.mem o).1 ho).1
  have := D y hy
  rw [M.num o ho, hlen]
  split <;> omega

theorem step_dense {fold : P → P → P} {S : Sem P T} (hS : SemOK fold S) {net net' : Net P} {i i' o : Nat}
    (I : Inv S net i) (h : Step fold net i o net' i') (X : Safe net) (D : Dense net) : Dense net' := by
  have fus : ∀ {par' : Nat → P} {p : Nat}, Fused net net' par' p o i i' → Inner net p → Dense net' := by
    intro par' p F hin
    have FF := F.facts I.wf
    have hn := X.pair p FF.pm o hin F.hn F.hp
    have M := F.merged I.wf X.keyed (I.pairs p FF.pm o hin F.hn F.hp) hn
    refine M.dense FF.pm FF.am hn ?_ D
    rw [FF.layers, List.length_eraseIdx_of_lt]
    exact (List.getElem?_eq_some_iff.1 F.ha).1
  cases h with
  | skip => exact D
  | act F ca cp =>
    rename_i p
    have FF := F.facts I.wf
    refine fus F (inner_of_applies hS ?_)
    by_contra hc
    exact I.keeps p FF.pm (by simpa using hc) o (by rw [F.hn]; simp) ca
  | bn F cb cp => exact fus F (by unfold Inner; rw [cp]; simp)
  | silu F =>
    rename_i q m
    obtain ⟨k, FF⟩ := F.facts I.wf
    have haq : S.applies (net.cls q) = true := by
      by_contra hc
      exact I.keeps q FF.qm (by simpa using hc) o ((FF.nq o).2 (Or.inl rfl)) F.cs
    have hsl : isSilu net o := by
      refine ⟨F.cs, F.fs, q, F.hp, F.lin, ?_, m, F.hn, F.cm, ?_, (FF.nq m).2 (Or.inr rfl)⟩
      · rcases F.hq with e | e <;> rw [e] <;> rfl
      · rcases F.hm with e | e <;> rw [e] <;> rfl
    obtain ⟨k1, k2⟩ := X.silu o FF.sm hsl q m F.hp F.hn
    have M := F.merged I.wf X.keyed (F.adj3 I.wf (inner_of_applies hS haq) I.triples) (by omega)
    refine M.dense FF.sm FF.mm (by omega) ?_ D
    rw [FF.layers, List.length_eraseIdx_of_lt]
    exact (List.getElem?_eq_some_iff.1 FF.hk).1

theorem matchLoop_dense {fold : P → P → P} {S : Sem P T} (hS : SemOK fold S) (fuel : Nat) :
    ∀ (net net' : Net P) (i : Nat), Inv S net i → Safe net → Dense net → matchLoop fold fuel net i = .done net' →
      Dense net' := by
  induction fuel with
  | zero => intro net net' i _ _ _ h; simp [matchLoop] at h
  | succ fuel ih =>
    intro net net' i I X D h
    rw [matchLoop] at h
    split at h
    · simp at h; subst h; exact D
    · rename_i o ho
      split at h
      · simp at h
      · rename_i n1 i1 hp
        have st := step_of_patterns I.wf I.pairs ho hp
        exact ih n1 net' (i1 + 1) (step_inv hS I ho st).1 (step_safe hS I st X) (step_dense hS I st X D) h

end Verif.Opt

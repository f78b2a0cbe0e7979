import Verif.Opt.Load
import Verif.Opt.NoRaise
import Verif.Opt.Safe
import Verif.Props.Graph

/-! # The buffers of the network the pass receives -/

namespace Verif.Opt
open Verif.Graph
variable {P T : Type}

/-- What the renumbering of the pass silently relies on: the layers it merges have consecutive numbers, a layer
with several consumers runs after all the layers of smaller number, and a `Multiply(x, Sigmoid(x))` with a single
consumer gives `Sigmoid(x)` first. -/
structure Orderly (net : Net P) : Prop where
  pair : ∀ p ∈ net.layers, ∀ c, Inner net p → net.next p = [c] → net.prev c = [p] → net.num c = net.num p + 1
  silu : ∀ s ∈ net.layers, isSilu net s → ∀ q m, net.prev s = [q] → net.next s = [m] →
    net.num s = net.num q + 1 ∧ net.num m = net.num q + 2
  siluArgs : ∀ s ∈ net.layers, isSilu net s → ∀ q m, net.prev s = [q] → net.next s = [m] →
    (net.next m).length = 1 → net.prev m = [s, q]
  ord : ∀ o ∈ net.layers, ∀ q ∈ net.layers, 2 ≤ (net.next o).length → net.num q < net.num o →
    Bef net.layers q o

theorem bef_split {l : List Nat} {x y : Nat} (h : Bef l x y) : ∃ pre post, l = pre ++ y :: post ∧ x ∈ pre := by
  obtain ⟨i, j, hij, h1, h2⟩ := h
  obtain ⟨hj, e⟩ := List.getElem?_eq_some_iff.1 h2
  refine ⟨l.take j, l.drop (j + 1), ?_, ?_⟩
  · conv_lhs => rw [← List.take_append_drop j l]
    rw [← e, ← List.drop_eq_getElem_cons hj]
  · refine List.mem_iff_getElem?.2 ⟨i, ?_⟩
    rw [List.getElem?_take, if_pos hij, h1]

section
variable {dnn : Dnn} {plan : Plan} {cls : Nat → Cls} {fn : Nat → Fn}

theorem cst_iff (I : Imported dnn cls fn) (h : triTopo dnn = some plan) {o : Nat} (ho : o ∈ plan.order) :
    (plan.cst o).isSome ↔ (dnn.nextOf o).length > 1 := by
  obtain ⟨l, hl, rfl⟩ := layer_of_idx ((plan_perm I.unique I.consistent h).mem_iff.1 ho)
  rw [nextOf_mem I.unique hl]
  exact C04_cst_iff_multi_consumer I.unique I.consistent h hl

theorem cst_mem (h : triTopo dnn = some plan) {o : Nat} (ho : plan.cst o ≠ none) :
    o ∈ plan.order ∧ (dnn.nextOf o).length > 1 := by
  obtain ⟨f⟩ := facts h
  rw [f.hcst] at ho
  exact (assignCst_keys (prevOf := dnn.prevOf) (nextOf := dnn.nextOf) plan.order o).1 (Option.ne_none_iff_isSome.1 ho)

theorem load_sourced (I : Imported dnn cls fn) (h : triTopo dnn = some plan) (par : Nat → P) :
    Sourced (load dnn plan cls fn par) := by
  intro o ho hi
  obtain ⟨l, hl, rfl⟩ := layer_of_idx ((plan_perm I.unique I.consistent h).mem_iff.1 ho)
  change dnn.prevOf l.idx ≠ []
  rw [prevOf_mem I.unique hl]
  intro e
  rcases I.sources l hl e with e | e
  · exact hi.1 e
  · exact hi.2 e

theorem load_safe (I : Imported dnn cls fn) (h : triTopo dnn = some plan) (par : Nat → P)
    (O : Orderly (load dnn plan cls fn par)) : Safe (load dnn plan cls fn par) := by
  have hperm := plan_perm I.unique I.consistent h
  have hs := plan_sorted h
  have wf := load_wf I h par
  obtain ⟨f⟩ := facts h
  have get : ∀ o ∈ plan.order, f.live.get? o = some (plan.path o) := fun o ho => path_get f ho
  refine ⟨⟨?_, ?_, ?_⟩, ?_, ?_, ?_, O.pair, O.silu, ?_, ?_⟩
  · intro o _ q _ e; exact e
  · intro o ho q hq hk hlt
    exact O.ord o ho q hq (cst_mem h hk).2 hlt
  · intro k hk
    exact ⟨k, (cst_mem h hk).1, rfl⟩
  · intro o _ _
    change outStr plan o = .out (plan.path o) ∨ ∃ k, plan.cst o = some k ∧ outStr plan o = .cst k
    unfold outStr
    cases plan.cst o with
    | none => exact Or.inl rfl
    | some k => exact Or.inr ⟨k, rfl, rfl⟩
  · intro o ho h2
    obtain ⟨k, hk⟩ := Option.isSome_iff_exists.1 ((cst_iff I h ho).2 h2)
    refine ⟨k, hk, ?_⟩
    change outStr plan o = .cst k
    simp [outStr, hk]
  · intro p n c hpn hnc hc
    change Bef plan.order p n at hpn
    change Bef plan.order n c at hnc
    change c ∈ dnn.nextOf p at hc
    change outStr plan p ≠ .out (plan.path n) ∧ ∀ k, plan.cst n = some k → outStr plan p ≠ .cst k
    obtain ⟨pre, post, e, hp⟩ := bef_split hpn
    have hnd := hs.nodup
    have e' : plan.order = (pre ++ [n]) ++ post := by rw [e]; simp
    have hpne : p ≠ n := hpn.ne hnd
    -- layers still to run are not in the prefix
    have later : ∀ d, Bef plan.order n d → d ∉ pre ++ [n] := by
      intro d hd hm
      obtain ⟨pre2, post2, e2, hn2⟩ := bef_split hd
      rw [e2] at e'
      have : d ∈ post ∨ d = n := by
        rcases List.mem_append.1 hm with h1 | h1
        · exfalso
          obtain ⟨A, B, hAB⟩ := List.append_of_mem h1
          have : Bef plan.order d n := by
            rw [e, hAB]
            exact ⟨A.length, (A ++ d :: B).length, by simp, by simp, by simp⟩
          exact this.asymm hnd hd
        · exact Or.inr (by simpa using h1)
      rcases this with h1 | h1
      · rw [e] at hnd
        rcases List.mem_append.1 hm with h2 | h2
        · exact (List.nodup_append.1 hnd).2.2 d h2 d (by simp [h1]) rfl
        · simp at h2; subst h2; exact hd.ne hs.nodup rfl
      · subst h1; exact hd.ne hs.nodup rfl
    have nextLater : ∀ d ∈ dnn.nextOf n, d ∉ pre ++ [n] := by
      intro d hd
      apply later
      obtain ⟨kn, hkn⟩ := List.mem_iff_getElem?.1 hpn.mem.2
      have hdm : d ∈ plan.order := (wf.fwd n hpn.mem.2 d hd).1
      obtain ⟨kd, hkd⟩ := List.mem_iff_getElem?.1 hdm
      have := wf.before hkd hkn ((links I.unique I.consistent n d).2 hd)
      exact ⟨kn, kd, this, hkn, hkd⟩
    have cout : c ∉ pre ++ [n] := later c hnc
    have hh : Held dnn.nextOf (pre ++ [n]) p := ⟨by simp [hp], Or.inr ⟨c, hc, cout⟩⟩
    have hn : Held dnn.nextOf (pre ++ [n]) n := by
      refine ⟨by simp, ?_⟩
      cases hx : dnn.nextOf n with
      | nil => exact Or.inl rfl
      | cons d t => exact Or.inr ⟨d, by simp, nextLater d (by rw [hx]; simp)⟩
    have np := plan_noalias I.unique I.consistent I.simple h e' hpne hh hn
    unfold outStr
    cases hk : plan.cst p with
    | none =>
      refine ⟨by simpa using np, by simp⟩
    | some k =>
      refine ⟨by simp, ?_⟩
      intro k' hk' heq
      simp only [Buf.cst.injEq] at heq
      subst heq
      have m1 := cst_mem (o := p) h (by rw [hk]; simp)
      have m2 := cst_mem (o := n) h (by rw [hk']; simp)
      have c1 : CHeld dnn.nextOf (pre ++ [n]) p := ⟨by simp [hp], m1.2, c, hc, cout⟩
      have c2 : CHeld dnn.nextOf (pre ++ [n]) n := by
        refine ⟨by simp, m2.2, ?_⟩
        cases hx : dnn.nextOf n with
        | nil => rw [hx] at m2; simp at m2
        | cons d t => exact ⟨d, by simp, nextLater d (by rw [hx]; simp)⟩
      have := assignCst_noalias (prevOf := dnn.prevOf) hs.nodup (links I.unique I.consistent)
        (simple_prev I.unique I.simple) e' hpne c1 c2
      rw [f.hcst] at hk hk'
      rw [hk, hk'] at this
      exact this rfl
  · intro p hp c hn hc _ _
    have hcm := (wf.fwd p hp c (by rw [hn]; simp)).1
    have := assignLive_inplace f.hlive hcm hc hn
    rw [get c hcm, get p hp] at this
    exact Option.some.inj this
  · intro s hs' hS q m hq hm hlen
    have hargs := O.siluArgs s hs' hS q m hq hm hlen
    have hmm := (wf.fwd s hs' m (by rw [hm]; simp)).1
    have hqm := wf.prev_mem hs' (p := q) (by rw [hq]; simp)
    obtain ⟨_, _, q', e1, _, e2, m', e3, _, _, e4⟩ := hS
    rw [hq] at e1; simp at e1; subst e1
    rw [hm] at e3; simp at e3; subst e3
    have hsq : s ∈ (load dnn plan cls fn par).next q := wf.back s hs' q (by rw [hq]; simp)
    have hsm : s ≠ m := by
      rintro rfl
      exact wf.irrefl hs' (by rw [hargs]; simp)
    have := assignLive_inplace2 f.hlive hmm hargs (by
      intro c hc
      change c ∈ (load dnn plan cls fn par).next q at hc
      match hx : (load dnn plan cls fn par).next q, e2 with
      | [a, b], _ =>
        rw [hx] at hc hsq e4
        simp at hc hsq e4
        rcases hc with rfl | rfl <;> rcases hsq with rfl | rfl <;> rcases e4 with rfl | rfl <;> simp_all)
    rw [get m hmm, get q hqm] at this
    exact Option.some.inj this

end
end Verif.Opt

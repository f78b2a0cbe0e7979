import Verif.Opt.NoRaise

/-! # Renumbering and saved copies -/

namespace Verif.Opt
variable {P : Type}

/-- Renumbering keeps each layer attached to its saved copy when numbers are distinct, the number after `ref` is
free, the dictionary only has keys of layers of the list, and every layer with a smaller number than a layer that
has a saved copy comes before it. -/
theorem shift_keyed (ref : Nat) (s : Net P) (L : List Nat) (hnd : L.Nodup)
    (hinj : ∀ o ∈ L, ∀ q ∈ L, s.num o = s.num q → o = q)
    (hgap : ∀ o ∈ L, s.num o > ref → s.num o > ref + 1)
    (hord : L.Pairwise (fun a b => s.dict (s.num a) ≠ none → s.num a < s.num b))
    (hkeys : ∀ k, s.dict k ≠ none → ∃ o ∈ L, s.num o = k) :
    (∀ o ∈ L, (L.foldl (shiftOne ref 1) s).dict ((L.foldl (shiftOne ref 1) s).num o) = s.dict (s.num o)) ∧
    (∀ k, (L.foldl (shiftOne ref 1) s).dict k ≠ none → ∃ o ∈ L, (L.foldl (shiftOne ref 1) s).num o = k) := by
  have key : ∀ L2 L1, L = L1 ++ L2 → ∀ t : Net P,
      (∀ o, t.num o = if o ∈ L1 ∧ s.num o > ref then s.num o - 1 else s.num o) →
      (∀ o ∈ L, ∀ c, s.dict (s.num o) = some c → t.dict (t.num o) = some c) →
      (∀ k c, t.dict k = some c → ∃ o ∈ L, s.dict (s.num o) = some c ∧ t.num o = k) →
      (∀ o ∈ L, ∀ c, s.dict (s.num o) = some c →
        (L2.foldl (shiftOne ref 1) t).dict ((L2.foldl (shiftOne ref 1) t).num o) = some c) ∧
      (∀ k c, (L2.foldl (shiftOne ref 1) t).dict k = some c →
        ∃ o ∈ L, s.dict (s.num o) = some c ∧ (L2.foldl (shiftOne ref 1) t).num o = k) := by
    intro L2
    induction L2 with
    | nil => intro L1 _ t _ h2 h3; exact ⟨h2, h3⟩
    | cons o L2 ih =>
      intro L1 he t h1 h2 h3
      rw [List.foldl_cons]
      have hoL : o ∈ L := by rw [he]; simp
      have hnd' := hnd
      rw [he, List.nodup_append] at hnd'
      obtain ⟨_, hnd2, hdisj⟩ := hnd'
      have ho1 : o ∉ L1 := fun h => hdisj o h o (by simp) rfl
      have hord' := hord
      rw [he, List.pairwise_append] at hord'
      obtain ⟨_, hord2, hord12⟩ := hord'
      rw [List.pairwise_cons] at hord2
      have hto : t.num o = s.num o := by rw [h1]; simp [ho1]
      have hnum : ∀ q, (shiftOne ref 1 t o).num q =
          if q ∈ L1 ++ [o] ∧ s.num q > ref then s.num q - 1 else s.num q := by
        intro q
        rw [shiftOne_num, hto]
        by_cases hq : q = o
        · subst hq
          by_cases hg : s.num q > ref
          · simp [hg]
          · simp [hg, h1]
        · simp [hq, h1]
      by_cases hg : s.num o > ref
      swap
      · have e : shiftOne ref 1 t o = t := by unfold shiftOne; rw [hto, if_neg hg]
        refine ih (L1 ++ [o]) (by simp [he]) _ hnum ?_ ?_ <;> rw [e] <;> assumption
      have hgo := hgap o hoL hg
      -- another layer with a saved copy does not have the number of `o`
      have A : ∀ q ∈ L, q ≠ o → s.dict (s.num q) ≠ none → t.num q ≠ s.num o := by
        intro q hq hqo hk
        rw [h1 q]
        have hne : s.num q ≠ s.num o := fun h => hqo (hinj q hq o hoL h)
        rw [he] at hq
        rcases List.mem_append.1 hq with hq1 | hq2
        · have := hord12 q hq1 o (by simp) hk
          split <;> omega
        · have hq2' : q ∈ L2 := by simpa [hqo] using hq2
          have hq1 : q ∉ L1 := fun h => hdisj q h q (by simp [hq2']) rfl
          simp [hq1, hne]
      cases hd : s.dict (s.num o) with
      | none =>
        have hn : t.dict (s.num o) = none := by
          cases hx : t.dict (s.num o) with
          | none => rfl
          | some c =>
            obtain ⟨q, hq, e1, e2⟩ := h3 _ _ hx
            have hqo : q ≠ o := by rintro rfl; rw [hd] at e1; cases e1
            exact absurd e2 (A q hq hqo (by rw [e1]; simp))
        have hdict : (shiftOne ref 1 t o).dict = t.dict := by
          unfold shiftOne; rw [hto, if_pos hg, hn]
        refine ih (L1 ++ [o]) (by simp [he]) _ hnum ?_ ?_
        · intro q hq c hc
          have hqo : q ≠ o := by rintro rfl; rw [hd] at hc; cases hc
          rw [hdict, shiftOne_num]; simp only [hqo, false_and, if_false]
          exact h2 q hq c hc
        · intro k c hk
          rw [hdict] at hk
          obtain ⟨q, hq, e1, e2⟩ := h3 k c hk
          have hqo : q ≠ o := by rintro rfl; rw [hd] at e1; cases e1
          exact ⟨q, hq, e1, by rw [shiftOne_num]; simpa [hqo] using e2⟩
      | some c0 =>
        -- nor its new number
        have B : ∀ q ∈ L, q ≠ o → t.num q ≠ s.num o - 1 := by
          intro q hq hqo
          rw [h1 q]
          have hne : s.num q ≠ s.num o := fun h => hqo (hinj q hq o hoL h)
          have hgq := hgap q hq
          rw [he] at hq
          rcases List.mem_append.1 hq with hq1 | hq2
          · simp only [hq1, true_and]; split <;> omega
          · have hq2' : q ∈ L2 := by simpa [hqo] using hq2
            have hq1 : q ∉ L1 := fun h => hdisj q h q (by simp [hq2']) rfl
            have := hord2.1 q hq2' (by rw [hd]; simp)
            simp only [hq1, false_and, if_false]; omega
        have hto' : t.dict (s.num o) = some c0 := by have := h2 o hoL c0 hd; rwa [hto] at this
        have hdict : ∀ k, (shiftOne ref 1 t o).dict k =
            if k = s.num o - 1 then some c0 else if k = s.num o then none else t.dict k := by
          intro k
          unfold shiftOne
          rw [hto, if_pos hg, hto']
          by_cases hk : k = s.num o - 1
          · subst hk; simp
          · by_cases hk2 : k = s.num o
            · subst hk2; simp [hk]
            · simp [hk, hk2]
        refine ih (L1 ++ [o]) (by simp [he]) _ hnum ?_ ?_
        · intro q hq c hc
          by_cases hqo : q = o
          · subst hqo
            rw [hd] at hc; cases hc
            rw [hnum q, hdict]; simp [hg]
          · rw [shiftOne_num]; simp only [hqo, false_and, if_false]
            rw [hdict, if_neg (B q hq hqo), if_neg (A q hq hqo (by rw [hc]; simp))]
            exact h2 q hq c hc
        · intro k c hk
          rw [hdict] at hk
          split at hk
          · rename_i hk1
            cases hk
            exact ⟨o, hoL, hd, by rw [hnum o]; simp [hg, hk1]⟩
          · split at hk
            · cases hk
            · rename_i hk2
              obtain ⟨q, hq, e1, e2⟩ := h3 k c hk
              have hqo : q ≠ o := by rintro rfl; exact hk2 (by rw [← e2, hto])
              exact ⟨q, hq, e1, by rw [shiftOne_num]; simpa [hqo] using e2⟩
  obtain ⟨k1, k2⟩ := key L [] rfl s (by simp) (fun _ _ _ h => h) (by
    intro k c h
    obtain ⟨o, ho, e⟩ := hkeys k (by rw [h]; simp)
    exact ⟨o, ho, by rw [e]; exact h, e⟩)
  have hfin : ∀ o ∈ L, ∀ q ∈ L, (L.foldl (shiftOne ref 1) s).num o = (L.foldl (shiftOne ref 1) s).num q → o = q := by
    intro o ho q hq h
    rw [shift_num _ _ _ hnd, shift_num _ _ _ hnd] at h
    simp only [ho, hq, true_and] at h
    have a := hgap o ho
    have b := hgap q hq
    apply hinj o ho q hq
    split at h <;> split at h <;> omega
  refine ⟨?_, ?_⟩
  · intro o ho
    cases hd : s.dict (s.num o) with
    | some c => exact k1 o ho c hd
    | none =>
      cases hx : (L.foldl (shiftOne ref 1) s).dict ((L.foldl (shiftOne ref 1) s).num o) with
      | none => rfl
      | some c =>
        obtain ⟨q, hq, e1, e2⟩ := k2 _ _ hx
        have := hfin q hq o ho e2
        subst this
        rw [hd] at e1; cases e1
  · intro k hk
    obtain ⟨c, hc⟩ := Option.ne_none_iff_exists'.1 hk
    obtain ⟨q, hq, _, e⟩ := k2 _ _ hc
    exact ⟨q, hq, e⟩

end Verif.Opt

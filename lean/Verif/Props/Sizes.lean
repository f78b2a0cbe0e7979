import Verif.Gen.Sizes
import Verif.Props.Graph

/-!
# C32: the arrays of the context are large enough
-/

namespace Verif.Gen
open Verif.Graph

theorem foldl_max_ge {β : Type} (f : Nat → β → Nat) (hf : ∀ a b, a ≤ f a b) (l : List β) (a : Nat) : a ≤ l.foldl f a := by
  induction l generalizing a with
  | nil => exact Nat.le_refl _
  | cons b l ih => exact Nat.le_trans (hf a b) (ih _)

theorem foldl_max_mem {β : Type} (f : Nat → β → Nat) (hf : ∀ a b, a ≤ f a b) (g : β → Nat) (hg : ∀ a b, g b ≤ f a b)
    (l : List β) (a : Nat) (b : β) (hb : b ∈ l) : g b ≤ l.foldl f a := by
  induction l generalizing a with
  | nil => simp at hb
  | cons c l ih =>
    rcases List.mem_cons.1 hb with rfl | h
    · exact Nat.le_trans (hg a b) (foldl_max_ge f hf l _)
    · exact ih _ h

theorem size_le_lSizeMax {ls : List LayerInfo} {l : LayerInfo} (hl : l ∈ ls) : l.size ≤ lSizeMax ls := by
  cases ls with
  | nil => simp at hl
  | cons c ls =>
    unfold lSizeMax
    rcases List.mem_cons.1 hl with rfl | h
    · exact foldl_max_ge _ (fun _ _ => Nat.le_max_left _ _) _ _
    · exact foldl_max_mem _ (fun _ _ => Nat.le_max_left _ _) LayerInfo.size (fun _ _ => Nat.le_max_right _ _) _ _ _ h

theorem patches_le {ls : List LayerInfo} {l : LayerInfo} (hl : l ∈ ls) {p : Nat} (hp : l.patches = some p) :
    p ≤ patchesSizeMax ls := by
  have h := foldl_max_mem (fun a (l : LayerInfo) =>
    let a := match l.patches with
      | some p => if p > a then p else a
      | none => a
    if l.concat then max a l.size else a) (by
      intro a b
      dsimp only
      cases b.patches with
      | none => dsimp only; split <;> omega
      | some q => dsimp only; split <;> split <;> omega) (fun l => l.patches.getD 0) (by
      intro a b
      cases hb : b.patches with
      | none => simp
      | some q => simp only [Option.getD_some]; split <;> split <;> omega) ls 1 l hl
  simp only [hp, Option.getD_some] at h
  exact h

/-- sizes already recorded never shrink -/
theorem cstSizes_mono {ls : List LayerInfo} : ∀ (dict : List (Nat × Nat)) (layer : Option LayerInfo)
    (w w' : Nat → Option Nat), cstSizes ls dict layer w = some w' → ∀ k s, w k = some s → ∃ s', w' k = some s' ∧ s ≤ s' := by
  intro dict
  induction dict with
  | nil => intro layer w w' h k s hk; obtain rfl := Option.some.inj h; exact ⟨s, hk, Nat.le_refl _⟩
  | cons e dict ih =>
    intro layer w w' h k s hk
    obtain ⟨idx, k0⟩ := e
    unfold cstSizes at h
    split at h
    · cases h
    · next l _ =>
      by_cases hkk : k = k0
      · subst hkk
        have := ih _ _ _ h k (max s l.size) (by simp [hk])
        obtain ⟨s', h1, h2⟩ := this
        exact ⟨s', h1, by omega⟩
      · exact ih _ _ _ h k s (by simp [hkk, hk])

theorem cstSizes_ge {ls : List LayerInfo} (hu : (ls.map LayerInfo.idx).Nodup) : ∀ (dict : List (Nat × Nat))
    (layer : Option LayerInfo) (w w' : Nat → Option Nat), cstSizes ls dict layer w = some w' →
    ∀ l ∈ ls, ∀ k, (l.idx, k) ∈ dict → l.size ≤ (w' k).getD 0 := by
  intro dict
  induction dict with
  | nil => intro _ _ _ _ l _ k hk; simp at hk
  | cons e dict ih =>
    intro layer w w' h l hl k hk
    obtain ⟨idx, k0⟩ := e
    unfold cstSizes at h
    split at h
    · cases h
    · next l' hl' =>
      rcases List.mem_cons.1 hk with heq | hmem
      · obtain ⟨rfl, rfl⟩ := Prod.mk.inj heq
        have hfind : ls.find? (fun l0 => l0.idx == l.idx) = some l := by
          clear hl' h ih hk
          induction ls with
          | nil => simp at hl
          | cons c ls ihl =>
            rw [List.find?_cons]
            by_cases hc : c.idx = l.idx
            · have : c = l := by
                rcases List.mem_cons.1 hl with e | h
                · exact e.symm
                · simp only [List.map_cons, List.nodup_cons] at hu
                  exact absurd (List.mem_map.2 ⟨l, h, hc.symm⟩) hu.1
              simp [this]
            · have hne : l ≠ c := fun e => hc (by rw [e])
              simp only [List.map_cons, List.nodup_cons] at hu
              have : (c.idx == l.idx) = false := by simpa using hc
              rw [this]
              exact ihl hu.2 ((List.mem_cons.1 hl).resolve_left hne)
        rw [hfind] at hl'
        obtain rfl := Option.some.inj hl'
        obtain ⟨s', h1, h2⟩ := cstSizes_mono _ _ _ _ h k
          (match w k with | none => l.size | some s => max s l.size) (by rw [if_pos rfl]; cases w k <;> rfl)
        rw [h1, Option.getD_some]
        cases hw : w k with
        | none => rw [hw] at h2; exact h2
        | some s => rw [hw] at h2; dsimp only at h2; omega
      · exact ih _ _ _ h l hl k hmem

theorem cstSizes_defined {ls : List LayerInfo} : ∀ (dict : List (Nat × Nat)) (layer : Option LayerInfo)
    (w : Nat → Option Nat), (∀ e ∈ dict, ∃ l ∈ ls, l.idx = e.1) → ∃ w', cstSizes ls dict layer w = some w' := by
  intro dict
  induction dict with
  | nil => intro _ w _; exact ⟨w, rfl⟩
  | cons e dict ih =>
    intro layer w h
    obtain ⟨idx, k0⟩ := e
    obtain ⟨l, hl, hidx⟩ := h (idx, k0) (by simp)
    unfold cstSizes
    cases hf : (ls.find? fun l => l.idx == idx).or layer with
    | none =>
      have : ls.find? (fun l => l.idx == idx) = none := by
        cases hq : ls.find? (fun l => l.idx == idx) with
        | none => rfl
        | some v => rw [hq] at hf; simp at hf
      exact absurd (List.find?_eq_none.1 this l hl) (by simp [hidx])
    | some l' => exact ih _ _ fun e he => h e (by simp [he])

/-- **C32.** For every network for which an execution plan is found, the declarations of the header exist and each layer
has room: its output array, the scratch array, its saved copy if it has one, and its matrix of patches both in its output
array and in the scratch array if it is a gemm convolution.  `dict` is `dict_cst` as a list of items. -/
theorem C32_arrays_large_enough {dnn : Dnn} {plan : Plan} (hu : UniqueIdx dnn) (hc : Consistent dnn)
    (h : triTopo dnn = some plan) (ls : List LayerInfo) (hls : ls.map LayerInfo.idx = plan.order)
    (dict : List (Nat × Nat)) (hd : ∀ n k, (n, k) ∈ dict ↔ n ∈ plan.order ∧ plan.cst n = some k) (other : Buf → Nat) :
    ∃ sizes, declared ls plan.maxPath dict other = some sizes ∧ ∀ l ∈ ls,
      l.size ≤ sizes (.out (plan.path l.idx)) ∧ l.size ≤ sizes .temp ∧
      (∀ k, plan.cst l.idx = some k → l.size ≤ sizes (.cst k)) ∧
      (∀ p, l.patches = some p → p ≤ sizes (.out (plan.path l.idx)) ∧ p ≤ sizes .temp) := by
  obtain ⟨hperm, hnd, -⟩ := C01_order_respects_dataflow hu hc h
  obtain ⟨w', hw'⟩ := cstSizes_defined (ls := ls) dict none (fun _ => none) (by
    intro e he
    have := ((hd e.1 e.2).1 he).1
    rw [← hls] at this
    obtain ⟨l, hl, hi⟩ := List.mem_map.1 this
    exact ⟨l, hl, hi⟩)
  refine ⟨_, by unfold declared; rw [hw'], ?_⟩
  intro l hl
  have hmem : l.idx ∈ plan.order := by rw [← hls]; exact List.mem_map_of_mem hl
  obtain ⟨q, hq, hqi⟩ := layer_of_idx (hperm.mem_iff.1 hmem)
  have hpath : plan.path l.idx < plan.maxPath := by
    have := (C05_buffers_declared hu hc h).1 q hq
    rw [hqi] at this; exact this
  dsimp only
  rw [if_pos hpath]
  have h1 := size_le_lSizeMax hl
  have hps : lSizeMax ls ≤ pathSize ls := by unfold pathSize; split <;> omega
  refine ⟨by omega, by unfold tempSize; omega, ?_, ?_⟩
  · intro k hk
    exact cstSizes_ge (by rw [hls]; exact hnd) dict none _ _ hw' l hl k ((hd _ _).2 ⟨hmem, hk⟩)
  · intro p hp
    have h2 := patches_le hl hp
    have : pathSize ls = max (lSizeMax ls) (patchesSizeMax ls) := by
      unfold pathSize
      rw [if_pos (List.any_eq_true.2 ⟨l, hl, by simp [hp]⟩)]
    rw [this]
    unfold tempSize
    omega

/-- hypotheses met: the diamond network, a gemm convolution with patches of 90 elements as layer 1 -/
example : ∃ plan, triTopo diamond = some plan ∧
    declared [⟨0, 30, none, false⟩, ⟨5, 4, none, false⟩, ⟨2, 40, none, false⟩, ⟨1, 40, some 90, false⟩,
      ⟨3, 40, none, false⟩, ⟨4, 40, none, false⟩] plan.maxPath [(0, 0)] (fun _ => 0) ≠ none ∧
    pathSize [⟨0, 30, none, false⟩, ⟨5, 4, none, false⟩, ⟨2, 40, none, false⟩, ⟨1, 40, some 90, false⟩,
      ⟨3, 40, none, false⟩, ⟨4, 40, none, false⟩] = 90 := ⟨_, rfl, by simp [declared, cstSizes], by decide⟩

/-- The arrays are not larger than needed either: the size declared for the paths is the size of some layer's tensor or
patches, or 1. -/
theorem C32_path_size_attained (ls : List LayerInfo) : pathSize ls = 1 ∨
    (∃ l ∈ ls, pathSize ls = l.size) ∨ ∃ l ∈ ls, l.patches = some (pathSize ls) := by
  have hmax : lSizeMax ls = 1 ∨ ∃ l ∈ ls, lSizeMax ls = l.size := by
    cases ls with
    | nil => left; rfl
    | cons c ls =>
      right
      unfold lSizeMax
      have : ∀ (l : List LayerInfo) a, (∃ c' ∈ c :: ls, a = c'.size) → (∀ x ∈ l, x ∈ c :: ls) →
          ∃ c' ∈ c :: ls, l.foldl (fun a l => max a l.size) a = c'.size := by
        intro l
        induction l with
        | nil => intro a h _; exact h
        | cons d l ih =>
          intro a h hsub
          refine ih _ ?_ fun x hx => hsub x (by simp [hx])
          dsimp only
          rcases Nat.le_total a d.size with hle | hle
          · exact ⟨d, hsub d (by simp), by omega⟩
          · obtain ⟨c', h1, h2⟩ := h; exact ⟨c', h1, by omega⟩
      exact this ls c.size ⟨c, by simp, rfl⟩ fun x hx => by simp [hx]
  have hpat : patchesSizeMax ls = 1 ∨ (∃ l ∈ ls, patchesSizeMax ls = l.size) ∨ ∃ l ∈ ls, l.patches = some (patchesSizeMax ls) := by
    unfold patchesSizeMax
    have : ∀ (l : List LayerInfo) a, (a = 1 ∨ (∃ l ∈ ls, a = l.size) ∨ ∃ l ∈ ls, l.patches = some a) → (∀ x ∈ l, x ∈ ls) →
        (fun a => a = 1 ∨ (∃ l ∈ ls, a = l.size) ∨ ∃ l ∈ ls, l.patches = some a) (l.foldl (fun a l =>
          let a := match l.patches with
            | some p => if p > a then p else a
            | none => a
          if l.concat then max a l.size else a) a) := by
      intro l
      induction l with
      | nil => intro a h _; exact h
      | cons d l ih =>
        intro a h hsub
        refine ih _ ?_ fun x hx => hsub x (by simp [hx])
        have hd := hsub d (by simp)
        have key : ∀ b, (b = 1 ∨ (∃ l ∈ ls, b = l.size) ∨ ∃ l ∈ ls, l.patches = some b) →
            (let c := if d.concat then max b d.size else b; c = 1 ∨ (∃ l ∈ ls, c = l.size) ∨ ∃ l ∈ ls, l.patches = some c) := by
          intro b hb
          dsimp only
          split
          · rcases Nat.le_total b d.size with hle | hle
            · rw [Nat.max_eq_right hle]; exact Or.inr (Or.inl ⟨d, hd, rfl⟩)
            · rw [Nat.max_eq_left hle]; exact hb
          · exact hb
        dsimp only
        cases hp : d.patches with
        | none => exact key a h
        | some p =>
          refine key (if p > a then p else a) ?_
          split
          · exact Or.inr (Or.inr ⟨d, hd, hp⟩)
          · exact h
    exact this ls 1 (Or.inl rfl) fun x hx => hx
  unfold pathSize
  split
  · rcases Nat.le_total (lSizeMax ls) (patchesSizeMax ls) with hle | hle
    · rw [Nat.max_eq_right hle]; exact hpat
    · rw [Nat.max_eq_left hle]; exact hmax.imp id Or.inl
  · exact hmax.imp id Or.inl

end Verif.Gen

import Verif.Torch.Flow
import Verif.Graph.Adjacent

/-!
# Layers listed several times

`load_pytorch` gives `tri_topo` a list in which a layer occurs once for each of its names.  The result is that for the list of the layers.
-/

namespace Verif.Torch
open Graph

/-- a list in which the numbers `0`, `1`, .., `n - 1` occur, for the first time in this order -/
inductive Covers : List Nat → Nat → Prop
  | nil : Covers [] 0
  | new {ks : List Nat} {n : Nat} : Covers ks n → Covers (ks ++ [n]) (n + 1)
  | old {ks : List Nat} {n k : Nat} : Covers ks n → k < n → Covers (ks ++ [k]) n

theorem Covers.mem {ks : List Nat} {n : Nat} (h : Covers ks n) (k : Nat) : k ∈ ks ↔ k < n := by
  induction h with
  | nil => simp
  | new _ ih => simp only [List.mem_append, List.mem_singleton, ih]; omega
  | old _ hk ih => simp only [List.mem_append, List.mem_singleton, ih]; omega

theorem Covers.le {ks : List Nat} {n : Nat} (h : Covers ks n) : n ≤ ks.length := by
  induction h with
  | nil => simp
  | new _ ih => simpa using ih
  | old _ _ ih => simp; omega

theorem todo_range (n : Nat) (V : List Nat) : todo (List.range n) V ≤ n := by
  unfold todo
  exact (List.length_filter_le _ _).trans (by simp)

/-- with enough fuel the depth-first search does not depend on it -/
theorem visit_fuel {succ : Nat → List Nat} {U : List Nat} (hU : ∀ x ∈ U, ∀ y ∈ succ x, y ∈ U) (f : Nat) : ∀ (g : Nat) (S V : List Nat) (i : Nat), i ∈ U → i ∉ V →
    todo U V ≤ f → todo U V ≤ g → visit succ f (S, V) i = visit succ g (S, V) i := by
  induction f with
  | zero =>
    intro g S V i hi hv hf _
    have := todo_cons hi hv
    omega
  | succ f ih =>
    intro g S V i hi hv hf hg
    have hlt := todo_cons hi hv
    cases g with
    | zero => omega
    | succ g =>
      simp only [visit]
      have key : ∀ (js : List Nat), (∀ j ∈ js, j ∈ U) → ∀ S' V', (∀ x ∈ i :: V, x ∈ V') →
          js.foldl (fun st j => if j ∈ st.2 then st else visit succ f st j) (S', V') = js.foldl (fun st j => if j ∈ st.2 then st else visit succ g st j) (S', V') := by
        intro js
        induction js with
        | nil => intro _ _ _ _; rfl
        | cons j js ihj =>
          intro hjs S' V' hV
          simp only [List.foldl_cons]
          by_cases hj : j ∈ V'
          · simp only [hj, if_true]
            exact ihj (fun k hk => hjs k (by simp [hk])) S' V' hV
          · simp only [hj, if_false]
            have hm := todo_mono (U := U) hV
            rw [ih g S' V' j (hjs j (by simp)) hj (by omega) (by omega)]
            obtain ⟨⟨n, _, _, m, _⟩, _⟩ := visit_adds hU g S' V' j (hjs j (by simp)) hj (by omega)
            exact ihj (fun k hk => hjs k (by simp [hk])) _ _ fun x hx => (m x).2 (.inr (hV x hx))
      rw [key _ (fun j hj => hU i hi j hj) S (i :: V) fun x hx => hx]

theorem sort_step {succ : Nat → List Nat} {n : Nat} (hU : ∀ x ∈ List.range n, ∀ y ∈ succ x, y ∈ List.range n) {f : Nat} (hf : n ≤ f) (js : List Nat)
    (hjs : ∀ j ∈ js, j < n) : ∀ j ∈ js, j ∈ (sortAll succ f js).2 := by
  have := fold_adds (succ := succ) (U := List.range n) (visit succ f) [] (fun S V j _ hj hv => visit_adds hU f S V j hj hv ((todo_range n V).trans hf)) js
    (fun j hj => List.mem_range.mpr (hjs j hj)) [] [] (by simp)
  exact this.2

/-- names of a layer after the first do not change the order -/
theorem sort_covers {succ : Nat → List Nat} {N : Nat} (hU : ∀ x ∈ List.range N, ∀ y ∈ succ x, y ∈ List.range N) {f : Nat} (hf : N ≤ f) {ks : List Nat} {n : Nat}
    (h : Covers ks n) (hn : n ≤ N) : sortAll succ f ks = sortAll succ f (List.range n) := by
  induction h with
  | nil => rfl
  | new h ih =>
    rw [List.range_succ]
    unfold sortAll at ih ⊢
    rw [List.foldl_append, List.foldl_append, ih (by omega)]
  | @old ks n k h hk ih =>
    rw [← ih hn]
    have hm := sort_step hU hf ks (fun j hj => by have := (h.mem j).mp hj; omega) k ((h.mem k).mpr hk)
    unfold sortAll at hm ⊢
    rw [List.foldl_append]
    simp only [List.foldl_cons, List.foldl_nil]
    rw [if_pos hm]

theorem sort_fuel {succ : Nat → List Nat} {N : Nat} (hU : ∀ x ∈ List.range N, ∀ y ∈ succ x, y ∈ List.range N) {f g : Nat} (hf : N ≤ f) (hg : N ≤ g) (js : List Nat)
    (hjs : ∀ j ∈ js, j < N) : sortAll succ f js = sortAll succ g js := by
  have key : ∀ (js : List Nat), (∀ j ∈ js, j < N) → ∀ S' V',
      js.foldl (fun st j => if j ∈ st.2 then st else visit succ f st j) (S', V') = js.foldl (fun st j => if j ∈ st.2 then st else visit succ g st j) (S', V') := by
    intro js
    induction js with
    | nil => intro _ _ _; rfl
    | cons j js ihj =>
      intro hjs S' V'
      simp only [List.foldl_cons]
      by_cases hj : j ∈ V'
      · simp only [hj, if_true]
        exact ihj (fun k hk => hjs k (by simp [hk])) S' V'
      · simp only [hj, if_false]
        rw [visit_fuel hU f g S' V' j (List.mem_range.mpr (hjs j (by simp))) hj ((todo_range N _).trans hf) ((todo_range N _).trans hg)]
        exact ihj (fun k hk => hjs k (by simp [hk])) _ _
  exact key js hjs [] []

theorem get_map {ks : List Nat} {lay : Nat → Layer} (hl : ∀ k, (lay k).idx = k) (i : Nat) : Dnn.get? (ks.map lay) i = if i ∈ ks then some (lay i) else none := by
  unfold Dnn.get?
  induction ks with
  | nil => simp
  | cons k ks ih =>
    rw [List.map_cons, List.find?_cons]
    by_cases h : k = i
    · subst h; simp [hl]
    · have : ((lay k).idx == i) = false := by rw [hl]; simpa using h
      rw [this]
      simp only
      rw [ih]
      have h' : i ≠ k := fun e => h e.symm
      simp [h']

/-- `tri_topo` of the layers listed by their names -/
theorem triTopo_covers {lay : Nat → Layer} (hl : ∀ k, (lay k).idx = k) {ks : List Nat} {n : Nat} (h : Covers ks n) (hnext : ∀ k < n, ∀ s ∈ (lay k).next, s < n) :
    triTopo (ks.map lay) = triTopo ((List.range n).map lay) := by
  have hget : ∀ i, Dnn.get? (ks.map lay) i = Dnn.get? ((List.range n).map lay) i := by
    intro i
    rw [get_map hl, get_map hl]
    simp only [h.mem, List.mem_range]
  have h1 : Dnn.nextOf (ks.map lay) = Dnn.nextOf ((List.range n).map lay) := by funext i; simp only [Dnn.nextOf, hget]
  have h2 : Dnn.prevOf (ks.map lay) = Dnn.prevOf ((List.range n).map lay) := by funext i; simp only [Dnn.prevOf, hget]
  have h3 : Dnn.constOf (ks.map lay) = Dnn.constOf ((List.range n).map lay) := by funext i; simp only [Dnn.constOf, hget]
  have hU : ∀ x ∈ List.range n, ∀ y ∈ Dnn.nextOf ((List.range n).map lay) x, y ∈ List.range n := by
    intro x hx y hy
    rw [List.mem_range] at hx ⊢
    unfold Dnn.nextOf at hy
    rw [get_map hl, if_pos (List.mem_range.mpr hx)] at hy
    exact hnext x hx y hy
  have hid : ∀ js : List Nat, Dnn.idxs (js.map lay) = js := by
    intro js; unfold Dnn.idxs; rw [List.map_map]
    exact (List.map_congr_left fun a _ => hl a).trans (List.map_id js)
  have hs : sortAll (Dnn.nextOf (ks.map lay)) (ks.map lay).length (Dnn.idxs (ks.map lay)) =
      sortAll (Dnn.nextOf ((List.range n).map lay)) ((List.range n).map lay).length (Dnn.idxs ((List.range n).map lay)) := by
    rw [h1, hid, hid, sort_covers hU (by simpa using h.le) h (le_refl _)]
    exact sort_fuel hU (by simpa using h.le) (by simp) _ (by simp)
  unfold triTopo
  rw [hs, h1, h2, h3]

/-- the list given to `tri_topo` and the list of the layers -/
theorem listed_triTopo {st : State} (hg : st.net.Good) (hc : Covers (st.dic.map fun e => e.2.1) st.net.layers.length) : triTopo st.listed = triTopo st.net.graph := by
  let lay : Nat → Layer := fun k => ⟨k, (st.net.links.filter fun e => e.2 = k).map (·.1), (st.net.links.filter fun e => e.1 = k).map (·.2), false⟩
  have h1 : st.listed = (st.dic.map fun e => e.2.1).map lay := by unfold State.listed; rw [List.map_map]; rfl
  have h2 : st.net.graph = (List.range st.net.layers.length).map lay := by
    rw [← hg.idxs, List.map_map]; rfl
  rw [h1, h2]
  refine triTopo_covers (fun _ => rfl) hc ?_
  intro k hk s hs
  obtain ⟨e, he, rfl⟩ := List.mem_map.mp hs
  exact (hg.links e (List.mem_filter.mp he).1).2

end Verif.Torch

import Verif.Graph.Spec
import Mathlib.Tactic.Tauto
import Mathlib.Tactic.ByContra
import Mathlib.Data.List.Basic

/-! # Correctness of the depth-first ordering -/

namespace Verif.Graph

/-- In a list built by inserting at the front: every successor of an element comes later. -/
def Topo (succ : Nat → List Nat) : List Nat → Prop
  | [] => True
  | x :: t => (∀ y ∈ succ x, y ∈ t) ∧ Topo succ t

/-- what one call adds to the state -/
structure Adds (succ : Nat → List Nat) (U : List Nat) (S V S' V' : List Nat) : Prop where
  new : ∃ new, S' = new ++ S ∧ new.Nodup ∧ (∀ x, x ∈ V' ↔ x ∈ new ∨ x ∈ V) ∧
    (∀ x ∈ new, x ∉ V) ∧ (∀ x ∈ new, x ∈ U)

theorem Adds.refl {succ U S V} : Adds succ U S V S V := ⟨[], by simp⟩

theorem Adds.trans {succ U S V S1 V1 S2 V2} (h1 : Adds succ U S V S1 V1)
    (h2 : Adds succ U S1 V1 S2 V2) : Adds succ U S V S2 V2 := by
  obtain ⟨n1, e1, d1, m1, f1, u1⟩ := h1
  obtain ⟨n2, e2, d2, m2, f2, u2⟩ := h2
  refine ⟨n2 ++ n1, by simp [e2, e1], ?_, ?_, ?_, ?_⟩
  · rw [List.nodup_append]
    refine ⟨d2, d1, ?_⟩
    intro a ha b hb hab
    subst hab
    exact f2 a ha ((m1 a).2 (Or.inl hb))
  · intro x; rw [m2, m1]; simp only [List.mem_append]; tauto
  · intro x hx
    rcases List.mem_append.1 hx with h | h
    · intro hv; exact f2 x h ((m1 x).2 (Or.inr hv))
    · exact f1 x h
  · intro x hx
    rcases List.mem_append.1 hx with h | h
    · exact u2 x h
    · exact u1 x h

/-- number of layers not visited yet -/
def todo (U V : List Nat) : Nat := (U.filter (fun x => x ∉ V)).length

theorem todo_mono {U V V' : List Nat} (h : ∀ x ∈ V, x ∈ V') : todo U V' ≤ todo U V := by
  unfold todo
  induction U with
  | nil => simp
  | cons a U ih =>
    by_cases h1 : a ∈ V'
    · by_cases h2 : a ∈ V
      · simp [h1, h2] at *; exact ih
      · simp [h1, h2] at *; omega
    · have h2 : a ∉ V := fun hh => h1 (h a hh)
      simp [h1, h2] at *; exact ih

theorem todo_cons {U V : List Nat} {i : Nat} (hi : i ∈ U) (hv : i ∉ V) :
    todo U (i :: V) < todo U V := by
  unfold todo
  induction U with
  | nil => simp at hi
  | cons a U ih =>
    by_cases hai : a = i
    · subst hai
      have := todo_mono (U := U) (V := V) (V' := a :: V) (fun x hx => by simp [hx])
      unfold todo at this
      simp [hv] at *; omega
    · have hi' : i ∈ U := by
        rcases List.mem_cons.1 hi with h | h
        · exact absurd h.symm hai
        · exact h
      have := ih hi'
      by_cases h2 : a ∈ V
      · simp [h2] at *; exact this
      · simp [h2, hai] at *; exact this

/-- The fold over successors, given the specification of the recursive call. -/
theorem fold_adds {succ : Nat → List Nat} {U : List Nat}
    (f : List Nat × List Nat → Nat → List Nat × List Nat) (V0 : List Nat)
    (hf : ∀ S V j, (∀ x ∈ V0, x ∈ V) → j ∈ U → j ∉ V →
      Adds succ U S V (f (S, V) j).1 (f (S, V) j).2 ∧ j ∈ (f (S, V) j).2)
    (js : List Nat) (hjs : ∀ j ∈ js, j ∈ U) (S V : List Nat) (hV : ∀ x ∈ V0, x ∈ V) :
    let st := js.foldl (fun st j => if j ∈ st.2 then st else f st j) (S, V)
    Adds succ U S V st.1 st.2 ∧ ∀ j ∈ js, j ∈ st.2 := by
  induction js generalizing S V with
  | nil => exact ⟨Adds.refl, by simp⟩
  | cons j js ih =>
    simp only [List.foldl_cons]
    by_cases hj : j ∈ V
    · simp only [hj, if_true]
      have := ih (fun k hk => hjs k (by simp [hk])) S V hV
      refine ⟨this.1, ?_⟩
      intro k hk
      rcases List.mem_cons.1 hk with rfl | h
      · obtain ⟨n, _, _, m, _⟩ := this.1.new
        exact (m k).2 (Or.inr hj)
      · exact this.2 k h
    · simp only [hj, if_false]
      obtain ⟨a1, j1⟩ := hf S V j hV (hjs j (by simp)) hj
      obtain ⟨n, _, _, m, _⟩ := a1.new
      have := ih (fun k hk => hjs k (by simp [hk])) (f (S, V) j).1 (f (S, V) j).2
        (fun x hx => (m x).2 (Or.inr (hV x hx)))
      refine ⟨a1.trans this.1, ?_⟩
      intro k hk
      rcases List.mem_cons.1 hk with rfl | h
      · obtain ⟨n', _, _, m', _⟩ := this.1.new
        exact (m' k).2 (Or.inr j1)
      · exact this.2 k h

/-- One call of the depth-first search, in any graph: with enough fuel it visits `i`, and puts
each newly visited layer once in the sorted list. -/
theorem visit_adds {succ : Nat → List Nat} {U : List Nat} (hU : ∀ x ∈ U, ∀ y ∈ succ x, y ∈ U)
    (fuel : Nat) : ∀ (S V : List Nat) (i : Nat), i ∈ U → i ∉ V → todo U V ≤ fuel →
      Adds succ U S V (visit succ fuel (S, V) i).1 (visit succ fuel (S, V) i).2 ∧
      i ∈ (visit succ fuel (S, V) i).2 := by
  induction fuel with
  | zero =>
    intro S V i hi hv h
    have := todo_cons hi hv
    omega
  | succ fuel ih =>
    intro S V i hi hv h
    have hlt := todo_cons hi hv
    have hfold := fold_adds (succ := succ) (U := U) (visit succ fuel) (i :: V)
      (fun S' V' j hV hj hjv => ih S' V' j hj hjv (by have := todo_mono (U := U) hV; omega))
      (succ i) (fun j hj => hU i hi j hj) S (i :: V) (fun x hx => hx)
    simp only [visit]
    obtain ⟨⟨new, e, d, m, f, u⟩, _⟩ := hfold
    generalize (succ i).foldl (fun st j => if j ∈ st.2 then st else visit succ fuel st j)
      (S, i :: V) = st at *
    refine ⟨⟨i :: new, by simp [e], ?_, ?_, ?_, ?_⟩, ?_⟩
    · rw [List.nodup_cons]; exact ⟨fun hh => f i hh (by simp), d⟩
    · intro x; rw [m]; simp only [List.mem_cons]; tauto
    · intro x hx
      rcases List.mem_cons.1 hx with rfl | h
      · exact hv
      · intro hh; exact f x h (by simp [hh])
    · intro x hx
      rcases List.mem_cons.1 hx with rfl | h
      · exact hi
      · exact u x h
    · rw [m]; simp

/-- In an acyclic graph the sorted list stays topologically ordered. -/
theorem visit_topo {succ : Nat → List Nat} {U : List Nat} (hU : ∀ x ∈ U, ∀ y ∈ succ x, y ∈ U)
    (rank : Nat → Nat) (hr : ∀ x ∈ U, ∀ y ∈ succ x, rank x < rank y)
    (fuel : Nat) : ∀ (S V : List Nat) (i : Nat), i ∈ U → i ∉ V → todo U V ≤ fuel →
      Topo succ S → (∀ x ∈ V, x ∉ S → rank x < rank i) →
      Topo succ (visit succ fuel (S, V) i).1 := by
  induction fuel with
  | zero =>
    intro S V i hi hv h
    have := todo_cons hi hv
    omega
  | succ fuel ih =>
    intro S V i hi hv h ht hst
    have hlt := todo_cons hi hv
    -- the fold keeps: topological order, and unfinished visited layers have rank ≤ rank i
    have key : ∀ (js : List Nat), (∀ j ∈ js, j ∈ succ i) → ∀ S' V', Topo succ S' →
        (∀ x ∈ i :: V, x ∈ V') → (∀ x ∈ V', x ∉ S' → rank x ≤ rank i) →
        let st := js.foldl (fun st j => if j ∈ st.2 then st else visit succ fuel st j) (S', V')
        Topo succ st.1 ∧ (∀ x ∈ st.2, x ∉ st.1 → rank x ≤ rank i) ∧ (∀ j ∈ js, j ∈ st.2) ∧
          (∀ x ∈ V', x ∈ st.2) := by
      intro js
      induction js with
      | nil => intro _ S' V' a b c; exact ⟨a, c, by simp, by simp⟩
      | cons j js ihj =>
        intro hjs S' V' a b c
        simp only [List.foldl_cons]
        by_cases hj : j ∈ V'
        · simp only [hj, if_true]
          obtain ⟨r1, r2, r3, r4⟩ := ihj (fun k hk => hjs k (by simp [hk])) S' V' a b c
          refine ⟨r1, r2, ?_, r4⟩
          intro k hk
          rcases List.mem_cons.1 hk with rfl | h
          · exact r4 k hj
          · exact r3 k h
        · simp only [hj, if_false]
          have hji : j ∈ succ i := hjs j (by simp)
          have hjU := hU i hi j hji
          have hlt' : todo U V' ≤ fuel := by have := todo_mono (U := U) b; omega
          have hrk := hr i hi j hji
          have t1 := ih S' V' j hjU hj hlt' a (fun x hx hxs => by have := c x hx hxs; omega)
          obtain ⟨⟨new, e, d, m, f, u⟩, hjm⟩ := visit_adds hU fuel S' V' j hjU hj hlt'
          obtain ⟨r1, r2, r3, r4⟩ := ihj (fun k hk => hjs k (by simp [hk]))
            (visit succ fuel (S', V') j).1 (visit succ fuel (S', V') j).2 t1
            (fun x hx => (m x).2 (Or.inr (b x hx)))
            (fun x hx hxs => by
              rcases (m x).1 hx with h | h
              · exact absurd (by rw [e]; simp [h]) hxs
              · exact c x h (fun hh => hxs (by rw [e]; simp [hh])))
          refine ⟨r1, r2, ?_, ?_⟩
          · intro k hk
            rcases List.mem_cons.1 hk with rfl | h
            · exact r4 k hjm
            · exact r3 k h
          · intro x hx; exact r4 x ((m x).2 (Or.inr hx))
    obtain ⟨r1, r2, r3, _⟩ := key (succ i) (fun j hj => hj) S (i :: V) ht (fun x hx => hx)
      (fun x hx hxs => by
        rcases List.mem_cons.1 hx with rfl | h
        · exact Nat.le_refl _
        · exact Nat.le_of_lt (hst x h hxs))
    simp only [visit]
    refine ⟨?_, r1⟩
    intro y hy
    have hm := r3 y hy
    have hrk := hr i hi y hy
    by_contra hns
    have := r2 y hm hns
    omega

/-- `sortAll` visits every layer exactly once, in any graph. -/
theorem sortAll_perm {succ : Nat → List Nat} {U : List Nat} (hU : ∀ x ∈ U, ∀ y ∈ succ x, y ∈ U)
    (hnd : U.Nodup) : (sortAll succ U.length U).1.Perm U := by
  have h := fold_adds (succ := succ) (U := U) (visit succ U.length) []
      (fun S' V' j _ hj hjv => visit_adds hU U.length S' V' j hj hjv (by
        unfold todo; exact List.length_filter_le _ _))
      U (fun j hj => hj) [] [] (by simp)
  simp only [sortAll]
  generalize U.foldl (fun st j => if j ∈ st.2 then st else visit succ U.length st j) ([], []) = st at *
  obtain ⟨⟨new, e, d, m, f, u⟩, hm⟩ := h
  simp only [List.append_nil] at e
  rw [e]
  rw [List.perm_ext_iff_of_nodup d hnd]
  intro a
  constructor
  · exact u a
  · intro ha
    have := (m a).1 (hm a ha)
    simpa using this

theorem sortAll_topo {succ : Nat → List Nat} {U : List Nat} (hU : ∀ x ∈ U, ∀ y ∈ succ x, y ∈ U)
    (rank : Nat → Nat) (hr : ∀ x ∈ U, ∀ y ∈ succ x, rank x < rank y) :
    Topo succ (sortAll succ U.length U).1 := by
  have key : ∀ (js : List Nat), (∀ j ∈ js, j ∈ U) → ∀ S V, Topo succ S → (∀ x ∈ V, x ∈ S) →
      Topo succ (js.foldl (fun st j => if j ∈ st.2 then st else visit succ U.length st j) (S, V)).1 := by
    intro js
    induction js with
    | nil => intro _ S V a b; exact a
    | cons j js ih =>
      intro hjs S V a b
      simp only [List.foldl_cons]
      have hlt : todo U V ≤ U.length := List.length_filter_le _ _
      by_cases hj : j ∈ V
      · simp only [hj, if_true]
        exact ih (fun k hk => hjs k (by simp [hk])) S V a b
      · simp only [hj, if_false]
        have hjU := hjs j (by simp)
        have t := visit_topo hU rank hr U.length S V j hjU hj hlt a (fun x hx hxs => absurd (b x hx) hxs)
        obtain ⟨⟨new, e, d, m, f, u⟩, hjm⟩ := visit_adds hU U.length S V j hjU hj hlt
        exact ih (fun k hk => hjs k (by simp [hk])) _ _ t (fun x hx => by
          rw [e]
          rcases (m x).1 hx with h | h
          · simp [h]
          · simp [b x h])
  exact key U (fun j hj => hj) [] [] trivial (by simp)

end Verif.Graph

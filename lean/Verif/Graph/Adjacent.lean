import Verif.Graph.Facts

/-! # Neighbours in the depth-first order -/

namespace Verif.Graph

/-- `b` follows `a` immediately -/
def Follows (l : List Nat) (a b : Nat) : Prop := ∃ A B, l = A ++ a :: b :: B

def Follows3 (l : List Nat) (a b c : Nat) : Prop := ∃ A B, l = A ++ a :: b :: c :: B

theorem Follows.cons {l : List Nat} {a b : Nat} (x : Nat) (h : Follows l a b) : Follows (x :: l) a b := by
  obtain ⟨A, B, rfl⟩ := h; exact ⟨x :: A, B, rfl⟩

theorem Follows3.cons {l : List Nat} {a b c : Nat} (x : Nat) (h : Follows3 l a b c) :
    Follows3 (x :: l) a b c := by
  obtain ⟨A, B, rfl⟩ := h; exact ⟨x :: A, B, rfl⟩

variable {succ : Nat → List Nat} {U : List Nat}

/-- the state of the search just before a layer is put at the front -/
def children (succ : Nat → List Nat) (fuel : Nat) (st : List Nat × List Nat) (js : List Nat) :
    List Nat × List Nat :=
  js.foldl (fun st j => if j ∈ st.2 then st else visit succ fuel st j) st

theorem visit_succ (fuel : Nat) (S V : List Nat) (i : Nat) :
    visit succ (fuel + 1) (S, V) i =
      (i :: (children succ fuel (S, i :: V) (succ i)).1, (children succ fuel (S, i :: V) (succ i)).2) := rfl

theorem children_cons (fuel : Nat) (S V : List Nat) (j : Nat) (js : List Nat) :
    children succ fuel (S, V) (j :: js) =
      children succ fuel (if j ∈ V then (S, V) else visit succ fuel (S, V) j) js := rfl

theorem children_nil (fuel : Nat) (st : List Nat × List Nat) : children succ fuel st [] = st := rfl

theorem visit_ok (hU : ∀ x ∈ U, ∀ y ∈ succ x, y ∈ U) {fuel : Nat} {S V : List Nat} {i : Nat}
    (hi : i ∈ U) (hv : i ∉ V) (hf : todo U V ≤ fuel) :
    (∀ x, x ∈ V → x ∈ (visit succ fuel (S, V) i).2) ∧ i ∈ (visit succ fuel (S, V) i).2 ∧
    (∀ x, x ∈ (visit succ fuel (S, V) i).1 → x ∈ S ∨ (x ∈ (visit succ fuel (S, V) i).2 ∧ x ∉ V)) ∧
    (∀ x, x ∈ (visit succ fuel (S, V) i).2 → x ∈ V ∨ x ∈ (visit succ fuel (S, V) i).1) ∧
    (∀ x, x ∈ S → x ∈ (visit succ fuel (S, V) i).1) ∧
    ∃ R, (visit succ fuel (S, V) i).1 = i :: R := by
  obtain ⟨⟨new, e, d, m, f, u⟩, hm⟩ := visit_adds (succ := succ) hU fuel S V i hi hv hf
  refine ⟨fun x hx => (m x).2 (Or.inr hx), hm, ?_, ?_, ?_, ?_⟩
  · intro x hx
    rw [e] at hx
    rcases List.mem_append.1 hx with h | h
    · exact Or.inr ⟨(m x).2 (Or.inl h), f x h⟩
    · exact Or.inl h
  · intro x hx
    rcases (m x).1 hx with h | h
    · right; rw [e]; simp [h]
    · exact Or.inl h
  · intro x hx; rw [e]; simp [hx]
  · have := todo_cons hi hv
    obtain ⟨f', rfl⟩ : ∃ f', fuel = f' + 1 := ⟨fuel - 1, by omega⟩
    exact ⟨_, rfl⟩

/-! ### a layer and its only consumer -/

structure Good2 (p c : Nat) (S V : List Nat) : Prop where
  sub : ∀ x ∈ S, x ∈ V
  par : c ∈ V → p ∈ V
  adj : p ∈ S → Follows S p c

theorem visit_good2 (hU : ∀ x ∈ U, ∀ y ∈ succ x, y ∈ U) {p c : Nat} (hp : succ p = [c]) (hcp : c ≠ p)
    (hc : ∀ x ∈ U, c ∈ succ x → x = p) (fuel : Nat) :
    ∀ (S V : List Nat) (i : Nat), i ∈ U → i ∉ V → todo U V ≤ fuel → i ≠ c → Good2 p c S V →
      Good2 p c (visit succ fuel (S, V) i).1 (visit succ fuel (S, V) i).2 := by
  induction fuel with
  | zero => intro S V i hi hv h; have := todo_cons hi hv; omega
  | succ fuel ih =>
    intro S V i hi hv hf hic G
    have hlt := todo_cons hi hv
    have hcU : p ∈ U → c ∈ U := fun h => hU p h c (by rw [hp]; simp)
    rw [visit_succ]
    by_cases hip : i = p
    · subst hip
      have hcv : c ∉ i :: V := by
        intro h
        rcases List.mem_cons.1 h with h | h
        · exact hcp h
        · exact hv (G.par h)
      rw [hp, children_cons, if_neg hcv, children_nil]
      obtain ⟨k1, k2, k3, k4, k5, R, k6⟩ := visit_ok (S := S) hU (hcU hi) hcv (by omega : todo U (i :: V) ≤ fuel)
      refine ⟨?_, ?_, ?_⟩
      · intro x hx
        rcases List.mem_cons.1 hx with rfl | h
        · exact k1 x (by simp)
        · rcases k3 x h with h | h
          · exact k1 x (by simp [G.sub x h])
          · exact h.1
      · intro _; exact k1 i (by simp)
      · intro _; exact ⟨[], R, by rw [k6]; rfl⟩
    · -- another layer: the consumers are visited one by one
      have key : ∀ (js : List Nat), (∀ j ∈ js, j ∈ succ i) → ∀ S' V', (∀ x ∈ i :: V, x ∈ V') →
          Good2 p c S' V' → (∀ x, x ∈ S' → x ≠ i) →
          Good2 p c (children succ fuel (S', V') js).1 (children succ fuel (S', V') js).2 ∧
          (∀ x ∈ V', x ∈ (children succ fuel (S', V') js).2) := by
        intro js
        induction js with
        | nil => intro _ S' V' hV' G' _; exact ⟨G', fun x hx => hx⟩
        | cons j js ihj =>
          intro hjs S' V' hV' G' hne
          rw [children_cons]
          by_cases hj : j ∈ V'
          · rw [if_pos hj]
            exact ihj (fun k hk => hjs k (by simp [hk])) S' V' hV' G' hne
          · rw [if_neg hj]
            have hjs' := hjs j (by simp)
            have hjU := hU i hi j hjs'
            have hjc : j ≠ c := by rintro rfl; exact hip (hc i hi hjs')
            have htodo : todo U V' ≤ fuel := by have := todo_mono (U := U) hV'; omega
            obtain ⟨k1, k2, k3, k4, k5, R, k6⟩ := visit_ok (S := S') hU hjU hj htodo
            have G1 := ih S' V' j hjU hj htodo hjc G'
            obtain ⟨a, b⟩ := ihj (fun k hk => hjs k (by simp [hk])) _ _ (fun x hx => k1 x (hV' x hx)) G1
              (by
                intro x hx he
                subst he
                rcases k3 _ hx with h | h
                · exact hne _ h rfl
                · exact h.2 (hV' _ (by simp)))
            exact ⟨a, fun x hx => b x (k1 x hx)⟩
      obtain ⟨a, b⟩ := key (succ i) (fun j hj => hj) S (i :: V) (fun x hx => hx)
        ⟨fun x hx => by simp [G.sub x hx], fun h => by
          rcases List.mem_cons.1 h with h | h
          · exact absurd h.symm hic
          · simp [G.par h], G.adj⟩
        (by rintro x hx rfl; exact hv (G.sub x hx))
      refine ⟨?_, a.par, ?_⟩
      · intro x hx
        rcases List.mem_cons.1 hx with rfl | h
        · exact b x (by simp)
        · exact a.sub x h
      · intro h
        rcases List.mem_cons.1 h with h | h
        · exact absurd h.symm hip
        · exact (a.adj h).cons i

/-- The order returned by the search puts the only consumer `c` of `p` right after `p`, when `p` is
the only producer of `c` and precedes it in the given list. -/
theorem sortAll_follows (hU : ∀ x ∈ U, ∀ y ∈ succ x, y ∈ U) {p c : Nat} (hp : succ p = [c])
    (hcp : c ≠ p) (hc : ∀ x ∈ U, c ∈ succ x → x = p) (hpU : p ∈ U)
    (hlist : ∀ pre post, U = pre ++ c :: post → p ∈ pre) :
    Follows (sortAll succ U.length U).1 p c := by
  have key : ∀ post pre, U = pre ++ post → ∀ S V, (∀ x ∈ pre, x ∈ V) → (∀ x ∈ V, x ∈ S) →
      Good2 p c S V →
      Good2 p c (children succ U.length (S, V) post).1 (children succ U.length (S, V) post).2 ∧
      (∀ x ∈ V, x ∈ (children succ U.length (S, V) post).1) ∧
      (∀ x ∈ post, x ∈ (children succ U.length (S, V) post).1) := by
    intro post
    induction post with
    | nil => intro pre he S V h1 h2 G; exact ⟨G, h2, by simp⟩
    | cons j post ih =>
      intro pre he S V h1 h2 G
      have hjU : j ∈ U := by rw [he]; simp
      have hlt : todo U V ≤ U.length := List.length_filter_le _ _
      rw [children_cons]
      by_cases hj : j ∈ V
      · rw [if_pos hj]
        obtain ⟨a, b, c'⟩ := ih (pre ++ [j]) (by simp [he]) S V (by
          intro x hx
          rcases List.mem_append.1 hx with h | h
          · exact h1 x h
          · simp at h; rw [h]; exact hj) h2 G
        refine ⟨a, b, ?_⟩
        intro x hx
        rcases List.mem_cons.1 hx with rfl | h
        · exact b x hj
        · exact c' x h
      · rw [if_neg hj]
        have hjc : j ≠ c := by
          rintro rfl
          have hpV := h1 p (hlist pre post he)
          obtain ⟨A, B, e⟩ := G.adj (h2 p hpV)
          exact hj (G.sub j (by rw [e]; simp))
        obtain ⟨k1, k2, k3, k4, k5, R, k6⟩ := visit_ok (S := S) hU hjU hj hlt
        have G1 := visit_good2 hU hp hcp hc U.length S V j hjU hj hlt hjc G
        have hfin : ∀ x ∈ (visit succ U.length (S, V) j).2, x ∈ (visit succ U.length (S, V) j).1 := by
          intro x hx
          rcases k4 x hx with h | h
          · exact k5 x (h2 x h)
          · exact h
        obtain ⟨a, b, c'⟩ := ih (pre ++ [j]) (by simp [he]) _ _ (by
          intro x hx
          rcases List.mem_append.1 hx with h | h
          · exact k1 x (h1 x h)
          · simp at h; rw [h]; exact k2) hfin G1
        refine ⟨a, fun x hx => b x (k1 x hx), ?_⟩
        intro x hx
        rcases List.mem_cons.1 hx with rfl | h
        · exact b x k2
        · exact c' x h
  obtain ⟨a, _, b⟩ := key U [] rfl [] [] (by simp) (by simp) ⟨by simp, by simp, by simp⟩
  exact a.adj (b p hpU)

/-! ### `x`, a layer on `x` and a layer consuming both -/

structure Good3 (q s m : Nat) (S V : List Nat) : Prop where
  sub : ∀ x ∈ S, x ∈ V
  pars : s ∈ V → q ∈ V
  parm : m ∈ V → q ∈ V
  adj : q ∈ S → Follows3 S q s m

/-- a layer whose only producer is already being visited is not reached from elsewhere -/
theorem visit_avoids (hU : ∀ x ∈ U, ∀ y ∈ succ x, y ∈ U) {q s : Nat} (hs : ∀ x ∈ U, s ∈ succ x → x = q)
    (fuel : Nat) : ∀ (S V : List Nat) (i : Nat), i ∈ U → i ∉ V → q ∈ V → s ∉ V → i ≠ s →
      s ∉ (visit succ fuel (S, V) i).2 := by
  induction fuel with
  | zero => intro S V i _ _ _ h _; exact h
  | succ fuel ih =>
    intro S V i hi hv hq hsv his
    rw [visit_succ]
    have hiq : i ≠ q := by rintro rfl; exact hv hq
    have key : ∀ (js : List Nat), (∀ j ∈ js, j ∈ succ i) → ∀ st : List Nat × List Nat, s ∉ st.2 → q ∈ st.2 →
        s ∉ (children succ fuel st js).2 := by
      intro js
      induction js with
      | nil => intro _ st h _; exact h
      | cons j js ihj =>
        intro hjs st h hq'
        obtain ⟨S', V'⟩ := st
        rw [children_cons]
        have hjs' := hjs j (by simp)
        have hj : j ≠ s := by rintro rfl; exact hiq (hs i hi hjs')
        apply ihj (fun k hk => hjs k (by simp [hk]))
        · split
          · exact h
          · rename_i hjv
            exact ih S' V' j (hU i hi j hjs') hjv hq' h hj
        · split
          · exact hq'
          · -- visited layers stay visited
            have mono : ∀ fuel (S V : List Nat) i x, x ∈ V → x ∈ (visit succ fuel (S, V) i).2 := by
              intro fuel
              induction fuel with
              | zero => intro S V i x hx; exact hx
              | succ fuel ihf =>
                intro S V i x hx
                rw [visit_succ]
                have : ∀ (js : List Nat) (st : List Nat × List Nat), x ∈ st.2 →
                    x ∈ (children succ fuel st js).2 := by
                  intro js
                  induction js with
                  | nil => intro st h; exact h
                  | cons j js ihj =>
                    intro st h
                    obtain ⟨S'', V''⟩ := st
                    rw [children_cons]
                    apply ihj
                    split
                    · exact h
                    · exact ihf _ _ _ _ h
                exact this _ _ (by simp [hx])
            exact mono _ _ _ _ _ hq'
    exact key (succ i) (fun j hj => hj) _ (by simp [hsv, Ne.symm his]) (by simp [hq])

theorem visit_good3 (hU : ∀ x ∈ U, ∀ y ∈ succ x, y ∈ U) {q s m : Nat}
    (hq : succ q = [s, m] ∨ succ q = [m, s]) (hs : succ s = [m]) (n1 : s ≠ q) (n2 : m ≠ q) (n3 : m ≠ s)
    (hps : ∀ x ∈ U, s ∈ succ x → x = q) (hpm : ∀ x ∈ U, m ∈ succ x → x = q ∨ x = s) (fuel : Nat) :
    ∀ (S V : List Nat) (i : Nat), i ∈ U → i ∉ V → todo U V ≤ fuel → i ≠ s → i ≠ m → Good3 q s m S V →
      Good3 q s m (visit succ fuel (S, V) i).1 (visit succ fuel (S, V) i).2 := by
  induction fuel with
  | zero => intro S V i hi hv h; have := todo_cons hi hv; omega
  | succ fuel ih =>
    intro S V i hi hv hf his him G
    have hlt := todo_cons hi hv
    rw [visit_succ]
    by_cases hip : i = q
    · subst hip
      have hsU : s ∈ U := hU i hi s (by rcases hq with e | e <;> rw [e] <;> simp)
      have hmU : m ∈ U := hU i hi m (by rcases hq with e | e <;> rw [e] <;> simp)
      have hsv : s ∉ i :: V := by
        intro h
        rcases List.mem_cons.1 h with h | h
        · exact n1 h
        · exact hv (G.pars h)
      have hmv : m ∉ i :: V := by
        intro h
        rcases List.mem_cons.1 h with h | h
        · exact n2 h
        · exact hv (G.parm h)
      have ht1 : todo U (i :: V) ≤ fuel := by omega
      rcases hq with e | e
      · rw [e, children_cons, if_neg hsv]
        obtain ⟨k1, k2, k3, k4, k5, R, k6⟩ := visit_ok (S := S) hU hsU hsv ht1
        have hlt2 := todo_cons hsU hsv
        obtain ⟨f', rfl⟩ : ∃ f', fuel = f' + 1 := ⟨fuel - 1, by omega⟩
        have hmv2 : m ∉ s :: i :: V := by
          intro h
          rcases List.mem_cons.1 h with h | h
          · exact n3 h
          · exact hmv h
        obtain ⟨l1, l2, l3, l4, l5, R', l6⟩ := visit_ok (S := S) hU hmU hmv2
          (by omega : todo U (s :: i :: V) ≤ f')
        have ev : visit succ (f' + 1) (S, i :: V) s =
            (s :: (visit succ f' (S, s :: i :: V) m).1, (visit succ f' (S, s :: i :: V) m).2) := by
          rw [visit_succ, hs, children_cons, if_neg hmv2, children_nil]
        rw [children_cons]
        have hmin : m ∈ (visit succ (f' + 1) (S, i :: V) s).2 := by rw [ev]; exact l2
        rw [if_pos hmin, children_nil]
        refine ⟨?_, ?_, ?_, ?_⟩
        · intro x hx
          rcases List.mem_cons.1 hx with rfl | h
          · exact k1 x (by simp)
          · rcases k3 x h with h | h
            · exact k1 x (by simp [G.sub x h])
            · exact h.1
        · intro _; exact k1 i (by simp)
        · intro _; exact k1 i (by simp)
        · intro _; exact ⟨[], R', by rw [ev, l6]; rfl⟩
      · rw [e, children_cons, if_neg hmv]
        obtain ⟨k1, k2, k3, k4, k5, R, k6⟩ := visit_ok (S := S) hU hmU hmv ht1
        have hav := visit_avoids hU hps fuel S (i :: V) m hmU hmv (by simp) hsv n3
        rw [children_cons]
        have hs2 : s ∉ (visit succ fuel (S, i :: V) m).2 := hav
        rw [if_neg hs2, children_nil]
        generalize hst : visit succ fuel (S, i :: V) m = st at *
        obtain ⟨S1, V1⟩ := st
        simp only at *
        have ht2 : todo U V1 ≤ fuel := by
          have := todo_mono (U := U) (V := i :: V) (V' := V1) (fun x hx => k1 x hx)
          omega
        obtain ⟨l1, l2, l3, l4, l5, R', l6⟩ := visit_ok (S := S1) hU hsU hs2 ht2
        have hlt2 := todo_cons hsU hs2
        obtain ⟨f', rfl⟩ : ∃ f', fuel = f' + 1 := ⟨fuel - 1, by omega⟩
        have ev : visit succ (f' + 1) (S1, V1) s = (s :: S1, s :: V1) := by
          rw [visit_succ, hs, children_cons, if_pos (by simp [k2]), children_nil]
        refine ⟨?_, ?_, ?_, ?_⟩
        · intro x hx
          rcases List.mem_cons.1 hx with rfl | h
          · exact l1 x (k1 x (by simp))
          · rw [ev] at h ⊢
            rcases List.mem_cons.1 h with rfl | h
            · simp
            · rcases k3 x h with h | h
              · simp [k1 x (by simp [G.sub x h])]
              · simp [h.1]
        · intro _; exact l1 i (k1 i (by simp))
        · intro _; exact l1 i (k1 i (by simp))
        · intro _; exact ⟨[], R, by rw [ev, k6]; rfl⟩
    · have key : ∀ (js : List Nat), (∀ j ∈ js, j ∈ succ i) → ∀ S' V', (∀ x ∈ i :: V, x ∈ V') →
          Good3 q s m S' V' → (∀ x, x ∈ S' → x ≠ i) →
          Good3 q s m (children succ fuel (S', V') js).1 (children succ fuel (S', V') js).2 ∧
          (∀ x ∈ V', x ∈ (children succ fuel (S', V') js).2) := by
        intro js
        induction js with
        | nil => intro _ S' V' hV' G' _; exact ⟨G', fun x hx => hx⟩
        | cons j js ihj =>
          intro hjs S' V' hV' G' hne
          rw [children_cons]
          by_cases hj : j ∈ V'
          · rw [if_pos hj]
            exact ihj (fun k hk => hjs k (by simp [hk])) S' V' hV' G' hne
          · rw [if_neg hj]
            have hjs' := hjs j (by simp)
            have hjU := hU i hi j hjs'
            have hjs2 : j ≠ s := by rintro rfl; exact hip (hps i hi hjs')
            have hjm : j ≠ m := by
              rintro rfl
              rcases hpm i hi hjs' with h | h
              · exact hip h
              · exact his h
            have htodo : todo U V' ≤ fuel := by have := todo_mono (U := U) hV'; omega
            obtain ⟨k1, k2, k3, k4, k5, R, k6⟩ := visit_ok (S := S') hU hjU hj htodo
            have G1 := ih S' V' j hjU hj htodo hjs2 hjm G'
            obtain ⟨a, b⟩ := ihj (fun k hk => hjs k (by simp [hk])) _ _ (fun x hx => k1 x (hV' x hx)) G1
              (by
                intro x hx he
                subst he
                rcases k3 _ hx with h | h
                · exact hne _ h rfl
                · exact h.2 (hV' _ (by simp)))
            exact ⟨a, fun x hx => b x (k1 x hx)⟩
      obtain ⟨a, b⟩ := key (succ i) (fun j hj => hj) S (i :: V) (fun x hx => hx)
        ⟨fun x hx => by simp [G.sub x hx], fun h => by
          rcases List.mem_cons.1 h with h | h
          · exact absurd h.symm his
          · simp [G.pars h], fun h => by
          rcases List.mem_cons.1 h with h | h
          · exact absurd h.symm him
          · simp [G.parm h], G.adj⟩
        (by rintro x hx rfl; exact hv (G.sub x hx))
      refine ⟨?_, a.pars, a.parm, ?_⟩
      · intro x hx
        rcases List.mem_cons.1 hx with rfl | h
        · exact b x (by simp)
        · exact a.sub x h
      · intro h
        rcases List.mem_cons.1 h with h | h
        · exact absurd h.symm hip
        · exact (a.adj h).cons i

theorem sortAll_follows3 (hU : ∀ x ∈ U, ∀ y ∈ succ x, y ∈ U) {q s m : Nat}
    (hq : succ q = [s, m] ∨ succ q = [m, s]) (hs : succ s = [m]) (n1 : s ≠ q) (n2 : m ≠ q) (n3 : m ≠ s)
    (hps : ∀ x ∈ U, s ∈ succ x → x = q) (hpm : ∀ x ∈ U, m ∈ succ x → x = q ∨ x = s) (hqU : q ∈ U)
    (hls : ∀ pre post, U = pre ++ s :: post → q ∈ pre)
    (hlm : ∀ pre post, U = pre ++ m :: post → q ∈ pre) :
    Follows3 (sortAll succ U.length U).1 q s m := by
  have key : ∀ post pre, U = pre ++ post → ∀ S V, (∀ x ∈ pre, x ∈ V) → (∀ x ∈ V, x ∈ S) →
      Good3 q s m S V →
      Good3 q s m (children succ U.length (S, V) post).1 (children succ U.length (S, V) post).2 ∧
      (∀ x ∈ V, x ∈ (children succ U.length (S, V) post).1) ∧
      (∀ x ∈ post, x ∈ (children succ U.length (S, V) post).1) := by
    intro post
    induction post with
    | nil => intro pre he S V h1 h2 G; exact ⟨G, h2, by simp⟩
    | cons j post ih =>
      intro pre he S V h1 h2 G
      have hjU : j ∈ U := by rw [he]; simp
      have hlt : todo U V ≤ U.length := List.length_filter_le _ _
      rw [children_cons]
      by_cases hj : j ∈ V
      · rw [if_pos hj]
        obtain ⟨a, b, c'⟩ := ih (pre ++ [j]) (by simp [he]) S V (by
          intro x hx
          rcases List.mem_append.1 hx with h | h
          · exact h1 x h
          · simp at h; rw [h]; exact hj) h2 G
        refine ⟨a, b, ?_⟩
        intro x hx
        rcases List.mem_cons.1 hx with rfl | h
        · exact b x hj
        · exact c' x h
      · rw [if_neg hj]
        have hjs : j ≠ s := by
          rintro rfl
          obtain ⟨A, B, e⟩ := G.adj (h2 q (h1 q (hls pre post he)))
          exact hj (G.sub j (by rw [e]; simp))
        have hjm : j ≠ m := by
          rintro rfl
          obtain ⟨A, B, e⟩ := G.adj (h2 q (h1 q (hlm pre post he)))
          exact hj (G.sub j (by rw [e]; simp))
        obtain ⟨k1, k2, k3, k4, k5, R, k6⟩ := visit_ok (S := S) hU hjU hj hlt
        have G1 := visit_good3 hU hq hs n1 n2 n3 hps hpm U.length S V j hjU hj hlt hjs hjm G
        have hfin : ∀ x ∈ (visit succ U.length (S, V) j).2, x ∈ (visit succ U.length (S, V) j).1 := by
          intro x hx
          rcases k4 x hx with h | h
          · exact k5 x (h2 x h)
          · exact h
        obtain ⟨a, b, c'⟩ := ih (pre ++ [j]) (by simp [he]) _ _ (by
          intro x hx
          rcases List.mem_append.1 hx with h | h
          · exact k1 x (h1 x h)
          · simp at h; rw [h]; exact k2) hfin G1
        refine ⟨a, fun x hx => b x (k1 x hx), ?_⟩
        intro x hx
        rcases List.mem_cons.1 hx with rfl | h
        · exact b x k2
        · exact c' x h
  obtain ⟨a, _, b⟩ := key U [] rfl [] [] (by simp) (by simp) ⟨by simp, by simp, by simp, by simp⟩
  exact a.adj (b q hqU)

/-! ### after the constants have been moved -/

theorem moveConsts_follows {isConst : Nat → Bool} {l l' : List Nat} (h : moveConsts isConst l = some l')
    {p c : Nat} (hp : isConst p = false) (hc : isConst c = false) (hf : Follows l p c)
    (hfst : l'.head? ≠ some p) : Follows l' p c := by
  obtain ⟨A, B, rfl⟩ := hf
  unfold moveConsts at h
  split at h
  · simp at h
  · rename_i o os ho
    simp only [Option.some.injEq] at h
    subst h
    rw [List.filter_append, List.filter_cons_of_pos (by simp [hp]), List.filter_cons_of_pos (by simp [hc])] at ho
    cases hA : A.filter (fun i => !isConst i) with
    | nil => rw [hA] at ho; simp at ho; exact absurd (by simp [ho.1]) hfst
    | cons a A' =>
      rw [hA] at ho
      simp only [List.cons_append, List.cons.injEq] at ho
      rw [← ho.2]
      exact ⟨o :: (List.filter isConst (A ++ p :: c :: B) ++ A'), B.filter (fun i => !isConst i), by simp⟩

theorem moveConsts_follows3 {isConst : Nat → Bool} {l l' : List Nat} (h : moveConsts isConst l = some l')
    {p s c : Nat} (hp : isConst p = false) (hs : isConst s = false) (hc : isConst c = false)
    (hf : Follows3 l p s c) (hfst : l'.head? ≠ some p) : Follows3 l' p s c := by
  obtain ⟨A, B, rfl⟩ := hf
  unfold moveConsts at h
  split at h
  · simp at h
  · rename_i o os ho
    simp only [Option.some.injEq] at h
    subst h
    rw [List.filter_append, List.filter_cons_of_pos (by simp [hp]), List.filter_cons_of_pos (by simp [hs]),
      List.filter_cons_of_pos (by simp [hc])] at ho
    cases hA : A.filter (fun i => !isConst i) with
    | nil => rw [hA] at ho; simp at ho; exact absurd (by simp [ho.1]) hfst
    | cons a A' =>
      rw [hA] at ho
      simp only [List.cons_append, List.cons.injEq] at ho
      rw [← ho.2]
      exact ⟨o :: (List.filter isConst (A ++ p :: s :: c :: B) ++ A'), B.filter (fun i => !isConst i), by simp⟩

end Verif.Graph

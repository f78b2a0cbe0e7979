import Verif.CText.Parse
import Verif.CText.Arrays

/-!
# The reading of a text does not depend on what follows

A text that is read as statements is read as the same statements when another text, not starting with `else`, follows.
This is what the generator relies on when it writes the texts of the layers one after the other.
-/

namespace Verif.CText
set_option linter.unusedSectionVars false

variable {K : Type}

/-- `expr` and `chain` only look at the first token of what they leave -/
def ExprStable (K : Type) (n : Nat) : Prop :=
  (∀ l ts (e : Expr K) t r, expr n l ts = some (e, t :: r) → t ≠ .punct .arrow →
    ∃ pre, ts = pre ++ t :: r ∧ ∀ u n', n ≤ n' → expr n' l (pre ++ t :: u) = some (e, t :: u)) ∧
  (∀ l e₀ ts (e : Expr K) t r, chain n l e₀ ts = some (e, t :: r) → t ≠ .punct .arrow →
    ∃ pre, ts = pre ++ t :: r ∧ (∀ u n', n ≤ n' → chain n' l e₀ (pre ++ t :: u) = some (e, t :: u)))

/-- a chain that is left before a token starts before a token other than `->` -/
theorem chain_start {n l : Nat} {e₀ e : Expr K} {ts r : List (CTok K)} {t : CTok K} (h : chain n l e₀ ts = some (e, t :: r))
    (ht : t ≠ .punct .arrow) : ∃ t₀ r₀, ts = t₀ :: r₀ ∧ t₀ ≠ .punct .arrow := by
  cases n with
  | zero => simp [chain] at h
  | succ n =>
    cases ts with
    | nil => simp [chain] at h
    | cons t₀ r₀ =>
      refine ⟨t₀, r₀, rfl, ?_⟩
      rintro rfl
      simp only [chain, binOf, Option.some.injEq, Prod.mk.injEq, List.cons.injEq] at h
      exact ht h.2.1.symm

theorem expr_stable (n : Nat) : ExprStable K n := by
  induction n with
  | zero => exact ⟨fun l ts e t r h => by simp [expr] at h, fun l e₀ ts e t r h => by simp [chain] at h⟩
  | succ n ih =>
    obtain ⟨ihe, ihc⟩ := ih
    -- an expression between two signs
    have inner : ∀ (p : Punct) (ts : List (CTok K)) e r, p ≠ .arrow → expr n 0 ts = some (e, .punct p :: r) →
        ∃ pre, ts = pre ++ .punct p :: r ∧ ∀ u n', n ≤ n' → expr n' 0 (pre ++ .punct p :: u) = some (e, .punct p :: u) :=
      fun p ts e r hp h => ihe 0 ts e _ r h (by simpa using hp)
    have seven : ∀ ts (e : Expr K) t r, expr (n + 1) 7 ts = some (e, t :: r) → t ≠ .punct .arrow →
        ∃ pre, ts = pre ++ t :: r ∧ ∀ u n', n + 1 ≤ n' → expr n' 7 (pre ++ t :: u) = some (e, t :: u) := by
        intro ts e t r h ht
        have idx : ∀ (hd : List (CTok K)) (mk : Expr K → Expr K) (p : Punct) (ts : List (CTok K)), p ≠ .arrow →
            (∀ k v, expr (k + 1) 7 (hd ++ v) = (match expr k 0 v with | some (e, .punct q :: r') => if q = p then some (mk e, r') else none | _ => none)) →
            expr (n + 1) 7 (hd ++ ts) = some (e, t :: r) →
            ∃ pre, hd ++ ts = pre ++ t :: r ∧ ∀ u n', n + 1 ≤ n' → expr n' 7 (pre ++ t :: u) = some (e, t :: u) := by
          intro hd mk p ts hp heq h
          rw [heq] at h
          split at h
          · rename_i e' q r' h'
            split at h
            · rename_i hq
              subst hq
              simp only [Option.some.injEq, Prod.mk.injEq] at h
              obtain ⟨rfl, rfl⟩ := h
              obtain ⟨p₁, rfl, g₁⟩ := inner _ _ _ _ hp h'
              refine ⟨hd ++ (p₁ ++ [.punct q]), by simp, fun u n' hn => ?_⟩
              obtain ⟨n', rfl⟩ : ∃ k, n' = k + 1 := ⟨n' - 1, by omega⟩
              simp only [List.append_assoc, List.cons_append, List.nil_append]
              rw [heq, g₁ _ _ (by omega)]
              simp
            · cases h
          · cases h
        unfold expr at h
        split at h
        · cases h
        · rename_i h7; cases h7
        · rename_i ts _ _ _ k hk _
          obtain rfl : n = k := Nat.succ.inj hk
          split at h
          · rename_i r₁
            split at h
            · rename_i e' r' h'
              simp only [Option.some.injEq, Prod.mk.injEq] at h
              obtain ⟨rfl, rfl⟩ := h
              obtain ⟨p₁, rfl, g₁⟩ := ihe 7 _ _ _ _ h' ht
              refine ⟨.punct .minus :: p₁, by simp, fun u n' hn => ?_⟩
              obtain ⟨n', rfl⟩ : ∃ k, n' = k + 1 := ⟨n' - 1, by omega⟩
              simp only [List.cons_append]
              rw [expr, g₁ _ _ (by omega)]
            · cases h
          · rename_i x r₁
            refine idx [.punct .amp, .id (.ctx, none), .punct .arrow, .id x, .punct .lbrk] (.addr true x) .rbrk r₁ (by simp) (fun k v => ?_) ?_
            · simp only [List.cons_append, List.nil_append]
              rw [expr]
              rcases expr k 0 v with _ | ⟨e, _ | ⟨tok, r⟩⟩ <;> try rfl
              cases tok <;> try rfl
              rename_i p; cases p <;> rfl
            · simp only [List.cons_append, List.nil_append]
              rw [expr]; exact h
          · rename_i x r₁
            refine idx [.punct .amp, .id x, .punct .lbrk] (.addr false x) .rbrk r₁ (by simp) (fun k v => ?_) ?_
            · simp only [List.cons_append, List.nil_append]
              rw [expr]
              rcases expr k 0 v with _ | ⟨e, _ | ⟨tok, r⟩⟩ <;> try rfl
              cases tok <;> try rfl
              rename_i p; cases p <;> rfl
            · simp only [List.cons_append, List.nil_append]
              rw [expr]; exact h
          · simp only [Option.some.injEq, Prod.mk.injEq] at h
            obtain ⟨rfl, rfl⟩ := h
            refine ⟨[_], rfl, fun u n' hn => ?_⟩
            obtain ⟨n', rfl⟩ : ∃ k, n' = k + 1 := ⟨n' - 1, by omega⟩
            simp only [List.cons_append, List.nil_append]
            rw [expr]
          · simp only [Option.some.injEq, Prod.mk.injEq] at h
            obtain ⟨rfl, rfl⟩ := h
            refine ⟨[_], rfl, fun u n' hn => ?_⟩
            obtain ⟨n', rfl⟩ : ∃ k, n' = k + 1 := ⟨n' - 1, by omega⟩
            simp only [List.cons_append, List.nil_append]
            rw [expr]
          · rename_i r₁
            refine idx [.punct .lpar] id .rpar r₁ (by simp) (fun k v => ?_) ?_
            · simp only [List.cons_append, List.nil_append]
              rw [expr]
              rcases expr k 0 v with _ | ⟨e, _ | ⟨tok, r⟩⟩ <;> try rfl
              cases tok <;> try rfl
              rename_i p; cases p <;> rfl
            · simp only [List.cons_append, List.nil_append]
              rw [expr]; exact h
          · rename_i x r₁
            refine idx [.id (.ctx, none), .punct .arrow, .id x, .punct .lbrk] (.idx true x) .rbrk r₁ (by simp) (fun k v => ?_) ?_
            · simp only [List.cons_append, List.nil_append]
              rw [expr]
              rcases expr k 0 v with _ | ⟨e, _ | ⟨tok, r⟩⟩ <;> try rfl
              cases tok <;> try rfl
              rename_i p; cases p <;> rfl
            · simp only [List.cons_append, List.nil_append]
              rw [expr]; exact h
          · rename_i x r₁
            refine idx [.id x, .punct .lbrk] (.idx false x) .rbrk r₁ (by simp) (fun k v => ?_) ?_
            · simp only [List.cons_append, List.nil_append]
              rw [expr]
              rcases expr k 0 v with _ | ⟨e, _ | ⟨tok, r⟩⟩ <;> try rfl
              cases tok <;> try rfl
              rename_i p; cases p <;> rfl
            · simp only [List.cons_append, List.nil_append]
              rw [expr]; exact h
          · rename_i x r₁
            split at h
            · rename_i e' r' h'
              simp only [Option.some.injEq, Prod.mk.injEq] at h
              obtain ⟨rfl, rfl⟩ := h
              obtain ⟨p₁, rfl, g₁⟩ := inner _ _ _ _ (by simp) h'
              refine ⟨.id x :: .punct .lpar :: (p₁ ++ [.punct .rpar]), by simp, fun u n' hn => ?_⟩
              obtain ⟨n', rfl⟩ : ∃ k, n' = k + 1 := ⟨n' - 1, by omega⟩
              simp only [List.append_assoc, List.cons_append, List.nil_append]
              rw [expr, g₁ _ _ (by omega)]
            · rename_i e' r' h'
              obtain ⟨p₁, rfl, g₁⟩ := inner _ _ _ _ (by simp) h'
              split at h
              · rename_i e'' r'' h''
                simp only [Option.some.injEq, Prod.mk.injEq] at h
                obtain ⟨rfl, rfl⟩ := h
                obtain ⟨p₂, rfl, g₂⟩ := inner _ _ _ _ (by simp) h''
                refine ⟨.id x :: .punct .lpar :: (p₁ ++ .punct .comma :: (p₂ ++ [.punct .rpar])), by simp, fun u n' hn => ?_⟩
                obtain ⟨n', rfl⟩ : ∃ k, n' = k + 1 := ⟨n' - 1, by omega⟩
                simp only [List.append_assoc, List.cons_append, List.nil_append]
                rw [expr, g₁ _ _ (by omega)]
                simp only []
                rw [g₂ _ _ (by omega)]
              · cases h
            · cases h
          · rename_i x r₁ n1 n2 n3
            simp only [Option.some.injEq, Prod.mk.injEq] at h
            obtain ⟨rfl, rfl⟩ := h
            refine ⟨[.id x], rfl, fun u n' hn => ?_⟩
            obtain ⟨n', rfl⟩ : ∃ k, n' = k + 1 := ⟨n' - 1, by omega⟩
            simp only [List.cons_append, List.nil_append]
            cases t with
            | punct p => cases p <;> first | exact absurd rfl ht | exact absurd rfl (n2 _) | exact absurd rfl (n3 _) | (rw [expr] <;> simp)
            | _ => all_goals (rw [expr] <;> simp)
          · cases h
        · rename_i h7 _ h'; exact absurd (by omega) h7
    refine ⟨?_, ?_⟩
    · intro l ts e t r h ht
      match l with
      | 0 =>
        rw [expr] at h
        split at h
        · rename_i c r₁ h₁
          obtain ⟨p₁, rfl, g₁⟩ := ihe 1 ts c _ _ h₁ (by simp)
          split at h
          · rename_i a r₂ h₂
            obtain ⟨p₂, rfl, g₂⟩ := inner _ _ _ _ (by simp) h₂
            split at h
            · rename_i b r₃ h₃
              simp only [Option.some.injEq, Prod.mk.injEq] at h
              obtain ⟨rfl, rfl⟩ := h
              obtain ⟨p₃, rfl, g₃⟩ := ihe 0 _ _ _ _ h₃ ht
              refine ⟨p₁ ++ .punct .quest :: (p₂ ++ .punct .colon :: p₃), by simp, fun u n' hn => ?_⟩
              obtain ⟨n', rfl⟩ : ∃ k, n' = k + 1 := ⟨n' - 1, by omega⟩
              have hn' : n ≤ n' := by omega
              simp only [List.append_assoc, List.cons_append]
              rw [expr, g₁ _ _ hn']
              simp only []
              rw [g₂ _ _ hn']
              simp only []
              rw [g₃ _ _ hn']
            · cases h
          · cases h
        · rename_i hne
          obtain ⟨p₁, rfl, g₁⟩ := ihe 1 ts e _ _ h ht
          refine ⟨p₁, rfl, fun u n' hn => ?_⟩
          obtain ⟨n', rfl⟩ : ∃ k, n' = k + 1 := ⟨n' - 1, by omega⟩
          rw [expr, g₁ _ _ (by omega)]
          split
          · rename_i h'
            simp only [Option.some.injEq, Prod.mk.injEq, List.cons.injEq] at h'
            obtain ⟨rfl, rfl, rfl⟩ := h'
            exact absurd h (hne _ _)
          · rfl
      | l + 1 =>
        by_cases h7 : l = 6
        · subst h7; exact seven ts e t r h ht
        rw [expr] at h
        · split at h
          · rename_i e₁ r₁ h₁
            obtain ⟨t₀, r₀, rfl, ht₀⟩ := chain_start h ht
            obtain ⟨p₁, rfl, g₁⟩ := ihe _ _ _ _ _ h₁ ht₀
            obtain ⟨p₂, h₂, g₂⟩ := ihc _ _ _ _ _ _ h ht
            refine ⟨p₁ ++ p₂, by rw [h₂]; simp, fun u n' hn => ?_⟩
            obtain ⟨n', rfl⟩ : ∃ k, n' = k + 1 := ⟨n' - 1, by omega⟩
            have hu : ∃ u₀, p₂ ++ t :: u = t₀ :: u₀ := by
              cases p₂ with
              | nil => simp only [List.nil_append, List.cons.injEq] at h₂ ⊢; exact ⟨u, h₂.1.symm, rfl⟩
              | cons a p => simp only [List.cons_append, List.cons.injEq] at h₂ ⊢; exact ⟨p ++ t :: u, h₂.1.symm, rfl⟩
            obtain ⟨u₀, hu⟩ := hu
            rw [List.append_assoc, hu, expr]
            · rw [g₁ _ _ (by omega)]
              simp only []
              rw [← hu, g₂ _ _ (by omega)]
            · exact h7
          · cases h
        · exact h7
    · intro l e₀ ts e t r h ht
      have stop : ∀ (t₀ : CTok K) r₀, (∀ k v, chain (k + 1) l e₀ (t₀ :: v) = some (e₀, t₀ :: v)) → ts = t₀ :: r₀ →
          ∃ pre, ts = pre ++ t :: r ∧ (∀ u n', n + 1 ≤ n' → chain n' l e₀ (pre ++ t :: u) = some (e, t :: u)) := by
        rintro t₀ r₀ hk rfl
        rw [hk] at h
        simp only [Option.some.injEq, Prod.mk.injEq, List.cons.injEq] at h
        obtain ⟨rfl, rfl, rfl⟩ := h
        refine ⟨[], rfl, fun u n' hn => ?_⟩
        obtain ⟨n', rfl⟩ : ∃ k, n' = k + 1 := ⟨n' - 1, by omega⟩
        exact hk _ _
      have go : ∀ (p : Punct) r₀ (mk : Expr K → Expr K → Expr K) (l' : Nat), ts = .punct p :: r₀ →
          (∀ k v, chain (k + 1) l e₀ (.punct p :: v) = match expr k l' v with | some (e', r') => chain k l (mk e₀ e') r' | none => none) →
          ∃ pre, ts = pre ++ t :: r ∧ (∀ u n', n + 1 ≤ n' → chain n' l e₀ (pre ++ t :: u) = some (e, t :: u)) := by
        rintro p r₀ mk l' rfl hk
        rw [hk] at h
        split at h
        · rename_i e₁ r₁ h₁
          obtain ⟨t₀, r₀', rfl, ht₀⟩ := chain_start h ht
          obtain ⟨p₁, rfl, g₁⟩ := ihe _ _ _ _ _ h₁ ht₀
          obtain ⟨p₂, h₂, g₂⟩ := ihc _ _ _ _ _ _ h ht
          refine ⟨.punct p :: (p₁ ++ p₂), by rw [h₂]; simp, fun u n' hn => ?_⟩
          obtain ⟨n', rfl⟩ : ∃ k, n' = k + 1 := ⟨n' - 1, by omega⟩
          have hu : ∃ u₀, p₂ ++ t :: u = t₀ :: u₀ := by
            cases p₂ with
            | nil => simp only [List.nil_append, List.cons.injEq] at h₂ ⊢; exact ⟨u, h₂.1.symm, rfl⟩
            | cons a p => simp only [List.cons_append, List.cons.injEq] at h₂ ⊢; exact ⟨p ++ t :: u, h₂.1.symm, rfl⟩
          obtain ⟨u₀, hu⟩ := hu
          rw [List.cons_append, List.append_assoc, hu, hk, g₁ _ _ (by omega)]
          simp only []
          rw [← hu, g₂ _ _ (by omega)]
        · cases h
      cases ts with
      | nil => simp [chain] at h
      | cons t₀ r₀ =>
        cases t₀ with
        | punct p =>
          by_cases h1 : p = .oror
          · subst h1
            by_cases hl : l = 1
            · exact go _ r₀ .lor 2 rfl fun k v => by rw [chain, if_pos hl]; rcases expr k _ v with _ | ⟨_, _⟩ <;> rfl
            · exact stop _ r₀ (fun k v => by rw [chain, if_neg hl]) rfl
          · by_cases h2 : p = .andand
            · subst h2
              by_cases hl : l = 2
              · exact go _ r₀ .land 3 rfl fun k v => by rw [chain, if_pos hl]; rcases expr k _ v with _ | ⟨_, _⟩ <;> rfl
              · exact stop _ r₀ (fun k v => by rw [chain, if_neg hl]) rfl
            · cases hb : binOf p with
              | none => exact stop _ r₀ (fun k v => by rw [chain.eq_4 _ _ _ _ _ h1 h2, hb]) rfl
              | some q =>
                obtain ⟨o, l'⟩ := q
                by_cases hl : l = l'
                · exact go _ r₀ (.bin o) (l + 1) rfl fun k v => by
                    rw [chain.eq_4 _ _ _ _ _ h1 h2, hb]; simp only [if_pos hl]; rcases expr k _ v with _ | ⟨_, _⟩ <;> rfl
                · exact stop _ r₀ (fun k v => by rw [chain.eq_4 _ _ _ _ _ h1 h2, hb]; simp only [if_neg hl]) rfl
        | _ => all_goals exact stop _ r₀ (fun k v => by rw [chain] <;> simp) rfl

theorem typ_stable (ts : List (CTok K)) : ∀ (ty : Ty) (x : Ident) (r : List (CTok K)), typ ts = some (ty, x, r) →
    ∃ pre, ts = pre ++ r ∧ pre ≠ [] ∧ ∀ u, typ (pre ++ u) = some (ty, x, u) := by
  fun_induction typ ts with
  | case1 ts ih =>
    intro ty x r h
    obtain ⟨pre, rfl, hp, g⟩ := ih ty x r h
    exact ⟨.kw .register_ :: pre, rfl, by simp, fun u => g u⟩
  | case2 ts ih =>
    intro ty x r h
    obtain ⟨pre, rfl, hp, g⟩ := ih ty x r h
    exact ⟨.kw .const_ :: pre, rfl, by simp, fun u => g u⟩
  | case3 y ts =>
    intro ty x r h
    simp only [Option.some.injEq, Prod.mk.injEq] at h
    obtain ⟨rfl, rfl, rfl⟩ := h
    exact ⟨[.kw .int_, .id _], rfl, by simp, fun u => rfl⟩
  | case4 y ts =>
    intro ty x r h
    simp only [Option.some.injEq, Prod.mk.injEq] at h
    obtain ⟨rfl, rfl, rfl⟩ := h
    exact ⟨[.kw .float_, .kw .register_, .id _], rfl, by simp, fun u => rfl⟩
  | case5 y ts =>
    intro ty x r h
    simp only [Option.some.injEq, Prod.mk.injEq] at h
    obtain ⟨rfl, rfl, rfl⟩ := h
    exact ⟨[.kw .float_, .punct .star, .kw .restrict_, .id _], rfl, by simp, fun u => rfl⟩
  | case6 y ts =>
    intro ty x r h
    simp only [Option.some.injEq, Prod.mk.injEq] at h
    obtain ⟨rfl, rfl, rfl⟩ := h
    exact ⟨[.kw .float_, .id _], rfl, by simp, fun u => rfl⟩
  | case7 => intro ty x r h; cases h

theorem simple_stable {n : Nat} {ts r : List (CTok K)} {s : Stmt K} {t : CTok K} (h : simple n ts = some (s, t :: r))
    (ht : t ≠ .punct .arrow) :
    ∃ pre, ts = pre ++ t :: r ∧ ∀ u n', n ≤ n' → simple n' (pre ++ t :: u) = some (s, t :: u) := by
  unfold simple at h
  split at h
  · rename_i x r₁
    simp only [Option.some.injEq, Prod.mk.injEq] at h
    obtain ⟨rfl, rfl⟩ := h
    exact ⟨[.punct .inc, .id x], rfl, fun u n' _ => rfl⟩
  · rename_i x r₁
    simp only [Option.some.injEq, Prod.mk.injEq] at h
    obtain ⟨rfl, rfl⟩ := h
    exact ⟨[.id x, .punct .inc], rfl, fun u n' _ => rfl⟩
  · rename_i k r₁
    split at h
    · rename_i ty x r₂ h₂
      split at h
      · rename_i e r₃ h₃
        simp only [Option.some.injEq, Prod.mk.injEq] at h
        obtain ⟨rfl, rfl⟩ := h
        obtain ⟨p₁, e₁, hp, g₁⟩ := typ_stable _ _ _ _ h₂
        obtain ⟨p₂, rfl, g₂⟩ := (expr_stable n).1 _ _ _ _ _ h₃ ht
        refine ⟨p₁ ++ .punct .assign :: p₂, by rw [e₁]; simp, fun u n' hn => ?_⟩
        cases p₁ with
        | nil => exact absurd rfl hp
        | cons a p₁ =>
          simp only [List.cons_append, List.cons.injEq] at e₁
          obtain ⟨rfl, rfl⟩ := e₁
          simp only [List.cons_append, List.append_assoc]
          unfold simple
          simp only []
          have := g₁ (.punct .assign :: (p₂ ++ t :: u))
          simp only [List.cons_append] at this
          rw [this]
          simp only []
          rw [g₂ _ _ hn]
      · cases h
    · cases h
  · rename_i n1 n2 n3
    split at h
    · rename_i l o r₁ h₁
      simp only [] at h
      split at h
      · rename_i op lv e r₂ hop hlv he
        simp only [Option.some.injEq, Prod.mk.injEq] at h
        obtain ⟨rfl, rfl⟩ := h
        have ho : o ≠ .arrow := by rintro rfl; cases hop
        have ho' : o ≠ .inc := by rintro rfl; cases hop
        obtain ⟨p₁, rfl, g₁⟩ := (expr_stable n).1 _ _ _ _ _ h₁ (by simpa using ho)
        obtain ⟨p₂, rfl, g₂⟩ := (expr_stable n).1 _ _ _ _ _ he ht
        refine ⟨p₁ ++ .punct o :: p₂, by simp, fun u n' hn => ?_⟩
        simp only [List.cons_append, List.append_assoc]
        unfold simple
        split
        · rename_i x r' e'
          rcases p₁ with _ | ⟨a, _ | ⟨b, p⟩⟩ <;> simp only [List.nil_append, List.cons_append, List.cons.injEq, CTok.punct.injEq] at e'
          · exact absurd e'.1 ho'
          · exact absurd e'.2.1 (by simp)
          · obtain ⟨rfl, rfl, _⟩ := e'
            exact absurd rfl (n1 _ _)
        · rename_i x r' e'
          rcases p₁ with _ | ⟨a, _ | ⟨b, p⟩⟩ <;> simp only [List.nil_append, List.cons_append, List.cons.injEq, CTok.punct.injEq] at e'
          · exact absurd e'.1 (by simp)
          · exact absurd e'.2.1 ho'
          · obtain ⟨rfl, rfl, _⟩ := e'
            exact absurd rfl (n2 _ _)
        · rename_i x r' e'
          rcases p₁ with _ | ⟨a, p⟩ <;> simp only [List.nil_append, List.cons_append, List.cons.injEq] at e'
          · exact absurd e'.1 (by simp)
          · obtain ⟨rfl, _⟩ := e'
            exact absurd rfl (n3 _ _)
        · rw [g₁ _ _ hn]
          simp only [hop, hlv, g₂ _ _ hn]
      · cases h
    · cases h


/-- does a text start with `else` -/
def startsElse : List (CTok K) → Bool
  | .kw .else_ :: _ => true
  | _ => false

/-- does a text end there or continue with a closing brace -/
def atEnd : List (CTok K) → Bool
  | [] => true
  | .punct .rbrc :: _ => true
  | _ => false

theorem stmt_stable (n : Nat) :
    (∀ (ts : List (CTok K)) s r, stmt n ts = some (s, r) → ∃ pre, ts = pre ++ r ∧ atEnd ts = false ∧ startsElse ts = false ∧ pre ≠ [] ∧
      ∀ u n', n ≤ n' → (startsElse u = true → startsElse r = true) → stmt n' (pre ++ u) = some (s, u)) ∧
    (∀ (ts : List (CTok K)) s r, stmts n ts = some (s, r) → atEnd r = true ∧ ∃ pre, ts = pre ++ r ∧
      ∀ u n', n ≤ n' → atEnd u = true → stmts n' (pre ++ u) = some (s, u)) := by
  induction n with
  | zero => exact ⟨fun ts s r h => by simp [stmt] at h, fun ts s r h => by simp [stmts] at h⟩
  | succ n ih =>
    obtain ⟨ih1, ih2⟩ := ih
    refine ⟨?_, ?_⟩
    · intro ts s r h
      unfold stmt at h
      split at h
      · rename_i r₁
        split at h
        · rename_i s₁ r₂ h₁
          simp only [Option.some.injEq, Prod.mk.injEq] at h
          obtain ⟨rfl, rfl⟩ := h
          obtain ⟨_, p₁, rfl, g₁⟩ := ih2 _ _ _ h₁
          refine ⟨.punct .lbrc :: (p₁ ++ [.punct .rbrc]), by simp, rfl, rfl, by simp, fun u n' hn hu => ?_⟩
          obtain ⟨n', rfl⟩ : ∃ k, n' = k + 1 := ⟨n' - 1, by omega⟩
          simp only [List.append_assoc, List.cons_append, List.nil_append]
          rw [stmt, g₁ _ _ (by omega) rfl]
        · cases h
      · rename_i r₀
        split at h
        · rename_i i r₁ h₁
          obtain ⟨p₁, rfl, g₁⟩ := simple_stable h₁ (by simp)
          split at h
          · rename_i c r₂ h₂
            obtain ⟨p₂, rfl, g₂⟩ := (expr_stable n).1 _ _ _ _ _ h₂ (by simp)
            split at h
            · rename_i st r₃ h₃
              obtain ⟨p₃, rfl, g₃⟩ := simple_stable h₃ (by simp)
              split at h
              · rename_i b r₄ h₄
                simp only [Option.some.injEq, Prod.mk.injEq] at h
                obtain ⟨rfl, rfl⟩ := h
                obtain ⟨p₄, rfl, _, _, _, g₄⟩ := ih1 _ _ _ h₄
                refine ⟨.kw .for_ :: .punct .lpar :: (p₁ ++ .punct .semi :: (p₂ ++ .punct .semi :: (p₃ ++ .punct .rpar :: p₄))), by simp, rfl, rfl, by simp, fun u n' hn hu => ?_⟩
                obtain ⟨n', rfl⟩ : ∃ k, n' = k + 1 := ⟨n' - 1, by omega⟩
                have hn' : n ≤ n' := by omega
                simp only [List.append_assoc, List.cons_append]
                rw [stmt, g₁ _ _ hn']
                simp only []
                rw [g₂ _ _ hn']
                simp only []
                rw [g₃ _ _ hn']
                simp only []
                rw [g₄ _ _ hn' hu]
              · cases h
            · cases h
          · cases h
        · cases h
      · rename_i r₀
        split at h
        · rename_i c r₁ h₁
          obtain ⟨p₁, rfl, g₁⟩ := (expr_stable n).1 _ _ _ _ _ h₁ (by simp)
          split at h
          · rename_i a r₂ h₂
            obtain ⟨p₂, rfl, _, _, _, g₂⟩ := ih1 _ _ _ h₂
            split at h
            · rename_i b r₃ h₃
              simp only [Option.some.injEq, Prod.mk.injEq] at h
              obtain ⟨rfl, rfl⟩ := h
              obtain ⟨p₃, rfl, _, _, _, g₃⟩ := ih1 _ _ _ h₃
              refine ⟨.kw .if_ :: .punct .lpar :: (p₁ ++ .punct .rpar :: (p₂ ++ .kw .else_ :: p₃)), by simp, rfl, rfl, by simp, fun u n' hn hu => ?_⟩
              obtain ⟨n', rfl⟩ : ∃ k, n' = k + 1 := ⟨n' - 1, by omega⟩
              have hn' : n ≤ n' := by omega
              simp only [List.append_assoc, List.cons_append]
              rw [stmt, g₁ _ _ hn']
              simp only []
              rw [g₂ _ _ hn' (fun _ => rfl)]
              simp only []
              rw [g₃ _ _ hn' hu]
            · cases h
          · rename_i a r₂ hne h₂
            simp only [Option.some.injEq, Prod.mk.injEq] at h
            obtain ⟨rfl, rfl⟩ := h
            obtain ⟨p₂, rfl, _, _, _, g₂⟩ := ih1 _ _ _ h₂
            refine ⟨.kw .if_ :: .punct .lpar :: (p₁ ++ .punct .rpar :: p₂), by simp, rfl, rfl, by simp, fun u n' hn hu => ?_⟩
            obtain ⟨n', rfl⟩ : ∃ k, n' = k + 1 := ⟨n' - 1, by omega⟩
            have hn' : n ≤ n' := by omega
            simp only [List.append_assoc, List.cons_append]
            rw [stmt, g₁ _ _ hn']
            simp only []
            rw [g₂ _ _ hn' hu]
            have hr : startsElse r₂ = false := by
              unfold startsElse
              split
              · exact absurd rfl (hne _)
              · rfl
            have hu' : startsElse u = false := by
              cases h' : startsElse u with
              | false => rfl
              | true => rw [hu h'] at hr; cases hr
            split
            · rename_i e'
              simp only [Option.some.injEq, Prod.mk.injEq] at e'
              obtain ⟨_, rfl⟩ := e'
              cases hu'
            · rename_i e'
              simp only [Option.some.injEq, Prod.mk.injEq] at e'
              obtain ⟨rfl, rfl⟩ := e'
              rfl
            · rename_i e'; cases e'
          · cases h
        · cases h
      · rename_i n1 n2 n3
        split at h
        · rename_i s₁ r₁ h₁
          simp only [Option.some.injEq, Prod.mk.injEq] at h
          obtain ⟨rfl, rfl⟩ := h
          obtain ⟨p₁, e₁, g₁⟩ := simple_stable h₁ (by simp)
          subst e₁
          refine ⟨p₁ ++ [.punct .semi], by simp, ?_, ?_, by simp, fun u n' hn hu => ?_⟩
          · rcases p₁ with _ | ⟨a, p⟩
            · rfl
            · unfold atEnd
              split
              · rename_i h'; cases h'
              · rename_i h'
                rw [h'] at h₁
                cases n <;> simp [simple, expr] at h₁
              · rfl
          · unfold startsElse
            split
            · rename_i h'
              rw [h'] at h₁
              simp [simple, typ] at h₁
            · rfl
          · obtain ⟨n', rfl⟩ : ∃ k, n' = k + 1 := ⟨n' - 1, by omega⟩
            simp only [List.append_assoc, List.cons_append, List.nil_append]
            rw [stmt]
            · rw [g₁ _ _ (by omega)]
            · intro r' e'
              rcases p₁ with _ | ⟨a, p⟩ <;> simp only [List.nil_append, List.cons_append, List.cons.injEq] at e'
              · exact absurd e'.1 (by simp)
              · obtain ⟨rfl, _⟩ := e'
                exact absurd rfl (n1 _)
            · intro r' e'
              rcases p₁ with _ | ⟨a, _ | ⟨b, p⟩⟩ <;> simp only [List.nil_append, List.cons_append, List.cons.injEq] at e'
              · exact absurd e'.1 (by simp)
              · exact absurd e'.2.1 (by simp)
              · obtain ⟨rfl, rfl, _⟩ := e'
                exact absurd rfl (n2 _)
            · intro r' e'
              rcases p₁ with _ | ⟨a, _ | ⟨b, p⟩⟩ <;> simp only [List.nil_append, List.cons_append, List.cons.injEq] at e'
              · exact absurd e'.1 (by simp)
              · exact absurd e'.2.1 (by simp)
              · obtain ⟨rfl, rfl, _⟩ := e'
                exact absurd rfl (n3 _)
        · cases h
    · intro ts s r h
      have fin : ∀ u : List (CTok K), atEnd u = true → ∀ n', n + 1 ≤ n' → stmts n' u = some (.skip, u) := by
        intro u hu n' hn
        obtain ⟨n', rfl⟩ : ∃ k, n' = k + 1 := ⟨n' - 1, by omega⟩
        unfold atEnd at hu
        split at hu
        · rfl
        · rfl
        · cases hu
      unfold stmts at h
      split at h
      · simp only [Option.some.injEq, Prod.mk.injEq] at h
        obtain ⟨rfl, rfl⟩ := h
        exact ⟨rfl, [], rfl, fun u n' hn hu => fin u hu n' hn⟩
      · simp only [Option.some.injEq, Prod.mk.injEq] at h
        obtain ⟨rfl, rfl⟩ := h
        exact ⟨rfl, [], rfl, fun u n' hn hu => fin u hu n' hn⟩
      · split at h
        · rename_i a r₁ h₁
          obtain ⟨p₁, rfl, he, _, hp, g₁⟩ := ih1 _ _ _ h₁
          have key : ∀ b, stmts n r₁ = some (b, r) → atEnd r = true ∧ ∃ pre, p₁ ++ r₁ = pre ++ r ∧ ∀ u n', n + 1 ≤ n' → atEnd u = true →
              ∃ k v, n' = k + 1 ∧ pre ++ u = p₁ ++ v ∧ stmt k (p₁ ++ v) = some (a, v) ∧ stmts k v = some (b, u) := by
            intro b h₂
            obtain ⟨hr, p₂, rfl, g₂⟩ := ih2 _ _ _ h₂
            refine ⟨hr, p₁ ++ p₂, by simp, fun u n' hn hu => ?_⟩
            obtain ⟨k, rfl⟩ : ∃ k, n' = k + 1 := ⟨n' - 1, by omega⟩
            refine ⟨k, p₂ ++ u, rfl, by simp, g₁ _ _ (by omega) ?_, g₂ _ _ (by omega) hu⟩
            intro hs
            cases p₂ with
            | nil =>
              exfalso
              simp only [List.nil_append] at hs
              unfold startsElse at hs
              split at hs
              · cases hu
              · cases hs
            | cons t p =>
              cases t with
              | kw k => cases k <;> exact hs
              | _ => exact hs
          have step : ∀ k v, stmts (k + 1) (p₁ ++ v) = (match stmt k (p₁ ++ v) with
              | some (a, r) =>
                match stmts k r with
                | some (.skip, r') => some (a, r')
                | some (b, r') => some (.seq a b, r')
                | none => none
              | none => none) := by
            intro k v
            cases p₁ with
            | nil => exact absurd rfl hp
            | cons t p =>
              cases t with
              | punct q => cases q <;> first | rfl | cases he
              | _ => rfl
          split at h
          · rename_i r₂ h₂
            simp only [Option.some.injEq, Prod.mk.injEq] at h
            obtain ⟨rfl, rfl⟩ := h
            obtain ⟨hr, pre, e, g⟩ := key _ h₂
            refine ⟨hr, pre, e, fun u n' hn hu => ?_⟩
            obtain ⟨k, v, rfl, e', h3, h4⟩ := g u n' hn hu
            rw [e', step, h3]
            simp only []
            rw [h4]
          · rename_i b r₂ hb h₂
            simp only [Option.some.injEq, Prod.mk.injEq] at h
            obtain ⟨rfl, rfl⟩ := h
            obtain ⟨hr, pre, e, g⟩ := key _ h₂
            refine ⟨hr, pre, e, fun u n' hn hu => ?_⟩
            obtain ⟨k, v, rfl, e', h3, h4⟩ := g u n' hn hu
            rw [e', step, h3]
            simp only []
            rw [h4]
            cases b <;> first | rfl | exact absurd rfl (hb)
          · cases h
        · cases h

/-! ## Texts one after the other -/

section
variable [Field K] [LinearOrder K] [FloorRing K]

/-- the statement `S` is `a` followed by `b` -/
structure Then (a b S : Stmt K) : Prop where
  run : ∀ (G : Globals K) F e, S.run G F e = (a.run G F e >>= fun e' => b.run G F e')
  decls : decls S = decls a ++ decls b
  redecl : noRedecl S = (noRedecl a && noRedecl b)
  arrays : S.arrays = a.arrays ++ b.arrays

theorem Then.skip (b : Stmt K) : Then .skip b b := ⟨fun _ _ _ => rfl, rfl, rfl, rfl⟩

/-- `a` followed by `b`, as `stmts` writes it -/
def glue (a : Stmt K) : Stmt K → Stmt K
  | .skip => a
  | b => .seq a b

omit [Field K] [LinearOrder K] [FloorRing K] in
theorem andThen_ret' {β : Type} (p : Prog K β) : Prog.andThen p (fun b => Prog.ret b) = p := by
  funext m
  simp only [Prog.andThen, Prog.ret]
  cases p m <;> rfl

theorem glue_then (a b : Stmt K) : Then a b (glue a b) := by
  cases b with
  | skip =>
    refine ⟨fun G F e => ?_, by simp [glue, CText.decls], by simp [glue, noRedecl], by simp [glue, Stmt.arrays]⟩
    show a.run G F e = Prog.andThen (a.run G F e) fun e' => Prog.ret e'
    rw [andThen_ret']
  | _ => exact ⟨fun G F e => rfl, rfl, rfl, rfl⟩

theorem Then.assoc {a b c S T : Stmt K} (h : Then b c S) (h' : Then a S T) {ab : Stmt K} (hab : Then a b ab) : Then ab c T where
  run G F e := by
    rw [h'.run, hab.run]
    show Prog.andThen _ _ = Prog.andThen (Prog.andThen _ _) _
    rw [andThen_assoc]
    congr 1
    funext e'
    exact h.run G F e'
  decls := by rw [h'.decls, h.decls, hab.decls, List.append_assoc]
  redecl := by rw [h'.redecl, h.redecl, hab.redecl, Bool.and_assoc]
  arrays := by rw [h'.arrays, h.arrays, hab.arrays, List.append_assoc]

/-- The text `ts` is the statements `s`. -/
def IsBody (ts : List (CTok K)) (s : Stmt K) : Prop := ∃ n, stmts n ts = some (s, [])

/-- the statements of a text are determined -/
theorem IsBody.unique {ts : List (CTok K)} {s s' : Stmt K} (h : IsBody ts s) (h' : IsBody ts s') : s = s' := by
  obtain ⟨n, h⟩ := h
  obtain ⟨n', h'⟩ := h'
  obtain ⟨_, p, e, g⟩ := (stmt_stable n).2 _ _ _ h
  obtain ⟨_, p', e', g'⟩ := (stmt_stable n').2 _ _ _ h'
  have a := g [] (n + n') (by omega) rfl
  have b := g' [] (n + n') (by omega) rfl
  rw [← e] at a
  rw [← e', a] at b
  simpa using b

theorem IsBody.nil : IsBody ([] : List (CTok K)) .skip := ⟨1, rfl⟩

theorem IsBody.of_program {ts : List (CTok K)} {s : Stmt K} (h : program ts = some s) : IsBody ts s := by
  unfold program at h
  split at h
  · rename_i h'
    simp only [Option.some.injEq] at h
    subst h
    exact ⟨_, h'⟩
  · cases h

theorem stmts_concat (n : Nat) : ∀ (ts : List (CTok K)) s, stmts n ts = some (s, []) → ∀ n' u s', stmts n' u = some (s', []) →
    startsElse u = false → ∃ S, stmts (n + n') (ts ++ u) = some (S, []) ∧ Then s s' S := by
  induction n with
  | zero => intro ts s h; simp [stmts] at h
  | succ n ih =>
    intro ts s h n' u s' hu he
    have full : ∀ k, n' ≤ k → stmts k u = some (s', []) := by
      intro k hk
      obtain ⟨_, p, e, g⟩ := (stmt_stable n').2 _ _ _ hu
      have := g [] k hk rfl
      rwa [← e] at this
    unfold stmts at h
    split at h
    · simp only [Option.some.injEq, Prod.mk.injEq, and_true] at h
      subst h
      exact ⟨s', full _ (by omega), Then.skip _⟩
    · cases h
    · split at h
      · rename_i a r₁ h₁
        obtain ⟨p₁, rfl, hend, _, hp, g₁⟩ := (stmt_stable n).1 _ _ _ h₁
        have step : ∀ k v, stmts (k + 1) (p₁ ++ v) = (match stmt k (p₁ ++ v) with
            | some (a, r) =>
              match stmts k r with
              | some (.skip, r') => some (a, r')
              | some (b, r') => some (.seq a b, r')
              | none => none
            | none => none) := by
          intro k v
          cases p₁ with
          | nil => exact absurd rfl hp
          | cons t p =>
            cases t with
            | punct q => cases q <;> first | rfl | cases hend
            | _ => rfl
        have key : ∀ b, stmts n r₁ = some (b, []) → (∀ S₁, Then b s' S₁ → Then s s' (glue a S₁)) →
            ∃ S, stmts (n + 1 + n') (p₁ ++ r₁ ++ u) = some (S, []) ∧ Then s s' S := by
          intro b hb hS
          obtain ⟨S₁, h2, h3⟩ := ih _ _ hb n' u s' hu he
          refine ⟨_, ?_, hS S₁ h3⟩
          have e1 : n + 1 + n' = (n + n') + 1 := by omega
          rw [e1, List.append_assoc, step, g₁ (r₁ ++ u) (n + n') (by omega)]
          · simp only []
            rw [h2]
            cases S₁ <;> rfl
          · intro hs
            cases r₁ with
            | nil => simp only [List.nil_append] at hs; rw [he] at hs; cases hs
            | cons t r =>
              cases t with
              | kw k => cases k <;> exact hs
              | _ => exact hs
        split at h
        · rename_i r₂ h₂
          simp only [Option.some.injEq, Prod.mk.injEq] at h
          obtain ⟨rfl, rfl⟩ := h
          refine key _ h₂ fun S₁ hS => hS.assoc (glue_then _ _) (glue_then _ .skip)
        · rename_i b r₂ hb h₂
          simp only [Option.some.injEq, Prod.mk.injEq] at h
          obtain ⟨rfl, rfl⟩ := h
          refine key _ h₂ fun S₁ hS => hS.assoc (glue_then _ _) ⟨fun _ _ _ => rfl, rfl, rfl, rfl⟩
        · cases h
      · cases h

/-- **Concatenation.**  If two texts are statements and the second one does not start with `else`, their concatenation is
the first statements followed by the second ones. -/
theorem IsBody.append {ts u : List (CTok K)} {s s' : Stmt K} (h : IsBody ts s) (h' : IsBody u s') (he : startsElse u = false) :
    ∃ S, IsBody (ts ++ u) S ∧ Then s s' S := by
  obtain ⟨n, h⟩ := h
  obtain ⟨n', h'⟩ := h'
  obtain ⟨S, hS, hT⟩ := stmts_concat n ts s h n' u s' h' he
  exact ⟨S, ⟨_, hS⟩, hT⟩

/-- a text that is statements does not start with `else` -/
theorem IsBody.startsElse {ts : List (CTok K)} {s : Stmt K} (h : IsBody ts s) : startsElse ts = false := by
  obtain ⟨n, h⟩ := h
  cases n with
  | zero => simp [stmts] at h
  | succ n =>
    unfold stmts at h
    split at h
    · rfl
    · rfl
    · split at h
      · rename_i a r h₁
        obtain ⟨_, _, _, h2, _⟩ := (stmt_stable n).1 _ _ _ h₁
        exact h2
      · cases h

end

end Verif.CText

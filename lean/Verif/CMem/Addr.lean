import Verif.CMem.Eval

/-!
# Triple loops storing at an arbitrary injective address
-/

namespace Verif
open Prog
variable {α : Type}

/-- A triple loop whose iteration `(f, i, j)` stores `v f i j` at address `addr f i j` of array `b`, no address
being used twice. -/
theorem loop3_fill_at {m : Mem α} (b : Buf) (C H W : Nat) (body : Nat → Nat → Nat → Prog α Unit)
    (addr : Nat → Nat → Nat → Nat) (v : Nat → Nat → Nat → α)
    (hinj : ∀ f i j f' i' j', f < C → i < H → j < W → f' < C → i' < H → j' < W →
      addr f i j = addr f' i' j' → f = f' ∧ i = i' ∧ j = j')
    (h : ∀ f i j, f < C → i < H → j < W → Stores b m (body f i j) (addr f i j) (v f i j)) :
    ∃ w, loop3 C H W body m = some ((), m.upd b w) ∧
      (∀ f i j, f < C → i < H → j < W → w (addr f i j) = some (v f i j)) ∧
      ∀ a, (∀ f i j, f < C → i < H → j < W → addr f i j ≠ a) → w a = none := by
  refine ⟨_, forN_upd C _ m b
    (fun f => joinW H fun i => joinW W fun j => single (addr f i j) (v f i j)) ?_, ?_, ?_⟩
  · intro f u hf
    refine forN_upd' H _ m b u (fun i => joinW W fun j => single (addr f i j) (v f i j)) ?_
    intro i u hi
    exact forN_upd' W _ m b u (fun j => single (addr f i j) (v f i j))
      (fun j u hj => h f i j hf hi hj u)
  · intro f i j hf hi hj
    have hne : ∀ f' i' j', f' < C → i' < H → j' < W → (f', i', j') ≠ (f, i, j) →
        single (addr f' i' j') (v f' i' j') (addr f i j) = none := by
      intro f' i' j' hf' hi' hj' hne
      simp only [single]
      rw [if_neg]
      intro he
      obtain ⟨a, b, c⟩ := hinj _ _ _ _ _ _ hf hi hj hf' hi' hj' he
      exact hne (by rw [a, b, c])
    apply joinW_some hf
    · apply joinW_some hi
      · apply joinW_some hj
        · simp [single]
        · intro j' h1 h2; left; exact hne f i j' hf hi h2 (by simp; omega)
      · intro i' h1 h2; left
        apply joinW_none; intro j' hj'; exact hne f i' j' hf h2 hj' (by simp; omega)
    · intro f' h1 h2; left
      apply joinW_none; intro i' hi'
      apply joinW_none; intro j' hj'; exact hne f' i' j' h2 hi' hj' (by simp; omega)
  · intro a ha
    apply joinW_none; intro f hf
    apply joinW_none; intro i hi
    apply joinW_none; intro j hj
    simp only [single]; rw [if_neg]
    exact fun he => ha f i j hf hi hj he.symm

/-- A triple loop over channels, rows, columns storing in channels-last order. -/
theorem loop3_hwc {m : Mem α} (b : Buf) (C H W : Nat) (body : Nat → Nat → Nat → Prog α Unit)
    (v : Nat → Nat → Nat → α) (hsz : C * H * W ≤ m.size b)
    (h : ∀ f i j, f < C → i < H → j < W → at3 W C i j f < m.size b →
      Stores b m (body f i j) (at3 W C i j f) (v f i j)) :
    ∃ m', loop3 C H W body m = some ((), m') ∧ Holds m' b (tensor3 H W C fun i j f => v f i j) ∧
      OnlyChanges [b] m m' := by
  have hsz' : H * W * C ≤ m.size b := by
    calc H * W * C = C * H * W := by ring
      _ ≤ _ := hsz
  obtain ⟨w, e, hw, _⟩ := loop3_fill_at b C H W body (fun f i j => at3 W C i j f) v
    (fun f i j f' i' j' hf hi hj hf' hi' hj' he => by
      obtain ⟨a, b, c⟩ := at3_inj hj hf hj' hf' he
      exact ⟨c, a, b⟩)
    (fun f i j hf hi hj => h f i j hf hi hj (Nat.lt_of_lt_of_le (at3_lt hi hj hf) hsz'))
  refine ⟨_, e, holds_tensor3.2 ⟨hsz', fun i j f hi hj hf => ?_⟩, OnlyChanges.upd m (by simp) w⟩
  rw [Mem.upd_val_same, hw f i j hf hi hj]; rfl

/-- A triple loop over channels, rows, columns storing in channels-first order. -/
theorem loop3_chw {m : Mem α} (b : Buf) (C H W : Nat) (body : Nat → Nat → Nat → Prog α Unit)
    (v : Nat → Nat → Nat → α) (hsz : C * H * W ≤ m.size b)
    (h : ∀ f i j, f < C → i < H → j < W → at3 H W f i j < m.size b →
      Stores b m (body f i j) (at3 H W f i j) (v f i j)) :
    ∃ m', loop3 C H W body m = some ((), m') ∧ Holds m' b (tensor3 C H W v) ∧ OnlyChanges [b] m m' :=
  loop3_holds b C H W body v hsz fun f i j u hf hi hj =>
    h f i j hf hi hj (Nat.lt_of_lt_of_le (at3_lt hf hi hj) hsz) u

theorem OnlyChanges.mono {bs bs' : List Buf} {m m' : Mem α} (h : OnlyChanges bs m m') (hb : ∀ b ∈ bs, b ∈ bs') :
    OnlyChanges bs' m m' := ⟨h.1, fun b hn => h.2 b fun hh => hn (hb b hh)⟩

end Verif

import Verif.CMem.Rows

/-!
# Code that writes a set of cells of one array
-/

namespace Verif
open Prog
variable {α β : Type}

/-- The code `p` writes the cells `w` of `b` (values depending only on memory outside `b`), and nothing else. -/
def Writes (b : Buf) (m : Mem α) (p : Prog α Unit) (w : Nat → Option α) : Prop :=
  ∀ u, p (m.upd b u) = some ((), (m.upd b u).upd b w)

theorem Writes.seq {b : Buf} {m : Mem α} {p q : Prog α Unit} {w w' : Nat → Option α}
    (hp : Writes b m p w) (hq : Writes b m q w') : Writes b m (p >>= fun _ => q) (overW w w') := fun u => by
  refine (andThen_run (hp u)).trans ?_
  rw [Mem.upd_upd, hq, ← Mem.upd_upd, Mem.upd_upd _ _ w]

theorem Writes.bind {b : Buf} {m : Mem α} {p : Prog α β} {q : β → Prog α Unit} {v : β} {w : Nat → Option α}
    (hp : Evals b m p v) (hq : Writes b m (q v) w) : Writes b m (p >>= q) w := fun u =>
  (andThen_run (hp u)).trans (hq u)

theorem Writes.forN {b : Buf} {m : Mem α} {n : Nat} {body : Nat → Prog α Unit} {w : Nat → Nat → Option α}
    (h : ∀ i, i < n → Writes b m (body i) (w i)) : Writes b m (Prog.forN n body) (joinW n w) := fun u =>
  forN_upd' n body m b u w fun i u hi => h i hi u

/-- the row of cells `base, …, base + n - 1` -/
def rowW (base n : Nat) (r : Nat → α) : Nat → Option α := overRow base n r noW

theorem rowW_at {base n j : Nat} {r : Nat → α} (hj : j < n) : rowW base n r (base + j) = some (r j) := overRow_at hj

theorem rowW_none {base n a : Nat} {r : Nat → α} (h : a < base ∨ base + n ≤ a) : rowW base n r a = none := by
  unfold rowW overRow
  rw [if_neg (by omega)]; rfl

theorem overW_rowW (base n : Nat) (r : Nat → α) (u : Nat → Option α) :
    overW u (rowW base n r) = overRow base n r u := by
  funext a
  simp only [overW, rowW, overRow, noW]
  split <;> simp

/-- `for (k = 0; k < n; ++k) b[base + k] = r(k);` -/
theorem Writes.row {b : Buf} {m : Mem α} {base n : Nat} {body : Nat → Prog α Unit} {r : Nat → α}
    (h : ∀ k, k < n → Stores b m (body k) (base + k) (r k)) : Writes b m (Prog.forN n body) (rowW base n r) := by
  have hw : joinW n (fun k => single (base + k) (r k)) = rowW base n r := by
    funext a
    by_cases ha : base ≤ a ∧ a < base + n
    · obtain ⟨k, rfl⟩ : ∃ k, a = base + k := ⟨a - base, by omega⟩
      rw [rowW_at (by omega)]
      refine joinW_some (i := k) (by omega) (by simp [single]) ?_
      intro k' h1 h2; left; simp only [single]; rw [if_neg (by omega)]
    · rw [rowW_none (by omega)]
      apply joinW_none
      intro k hk
      simp only [single]; rw [if_neg (by omega)]
  rw [← hw]
  exact Writes.forN fun k hk => h k hk

/-- The code `p` adds `g k` to every cell `base + k` of a row whose contents are known. -/
def RowAdd [Add α] (b : Buf) (m : Mem α) (base n : Nat) (p : Prog α Unit) (g : Nat → α) : Prop :=
  ∀ r w, p (m.upd b (overRow base n r w)) = some ((), m.upd b (overRow base n (fun k => r k + g k) w))

theorem RowAdd.bind [Add α] {b : Buf} {m : Mem α} {base n : Nat} {p : Prog α β} {q : β → Prog α Unit} {v : β}
    {g : Nat → α} (hp : Evals b m p v) (hq : RowAdd b m base n (q v) g) : RowAdd b m base n (p >>= q) g := fun r w =>
  (andThen_run (hp _)).trans (hq r w)

theorem RowAdd.forN [AddCommMonoid α] {b : Buf} {m : Mem α} {base n N : Nat} {body : Nat → Prog α Unit}
    {g : Nat → Nat → α} (h : ∀ i, i < N → RowAdd b m base n (body i) (g i)) :
    RowAdd b m base n (Prog.forN N body) fun k => ∑ i ∈ Finset.range N, g i k := fun r w => by
  induction N with
  | zero => simp [Prog.forN, foldN, ret]
  | succ N ih =>
    have ih := ih fun i hi => h i (by omega)
    unfold Prog.forN at ih ⊢
    rw [foldN_succ, andThen_run ih, h N (by omega)]
    congr 4
    funext k
    dsimp only
    rw [Finset.sum_range_succ, add_assoc]

/-- `for (k = 0; k < n; ++k) b[base + k] += e(k);` -/
theorem RowAdd.leaf [Add α] {b : Buf} {m : Mem α} {base n : Nat} {e : Nat → Prog α α} {z z' : Nat → Int} {g : Nat → α}
    (hz : ∀ k, z k = ((base + k : Nat) : Int)) (hz' : ∀ k, z' k = ((base + k : Nat) : Int))
    (hs : base + n ≤ m.size b) (he : ∀ k, k < n → Evals b m (e k) (g k)) :
    RowAdd b m base n (Prog.forN n fun k => do
      let t ← load b (z k)
      let x ← e k
      store b (z' k) (t + x)) g := fun r w => by
  refine row_loop (step := fun k t => t + g k) ?_
  intro k u t hk hu
  have hl : load b (z k) (m.upd b u) = some (t, m.upd b u) := by
    rw [hz k, load_nat (by simp; omega), Mem.upd_val_same, hu]; rfl
  refine (andThen_run hl).trans ?_
  refine (andThen_run (he k hk u)).trans ?_
  rw [hz' k]
  exact store_upd (by omega)

/-- initialisation of a row followed by additions to it -/
theorem Writes.rowAdd [Add α] {b : Buf} {m : Mem α} {base n : Nat} {p q : Prog α Unit} {r g : Nat → α}
    (hp : Writes b m p (rowW base n r)) (hq : RowAdd b m base n q g) :
    Writes b m (p >>= fun _ => q) (rowW base n fun k => r k + g k) := fun u => by
  refine (andThen_run (hp u)).trans ?_
  rw [Mem.upd_upd, Mem.upd_upd, overW_rowW, overW_rowW, hq]

/-- A triple loop whose iterations write disjoint sets of cells. -/
theorem loop3_writes {m : Mem α} {b : Buf} {C H W : Nat} {body : Nat → Nat → Nat → Prog α Unit}
    {w : Nat → Nat → Nat → Nat → Option α}
    (h : ∀ f i j, f < C → i < H → j < W → Writes b m (body f i j) (w f i j))
    (hd : ∀ f i j f' i' j' a v v', f < C → i < H → j < W → f' < C → i' < H → j' < W →
      w f i j a = some v → w f' i' j' a = some v' → f = f' ∧ i = i' ∧ j = j') :
    ∃ W', loop3 C H W body m = some ((), m.upd b W') ∧
      (∀ f i j a v, f < C → i < H → j < W → w f i j a = some v → W' a = some v) ∧
      ∀ a, (∀ f i j, f < C → i < H → j < W → w f i j a = none) → W' a = none := by
  refine ⟨_, forN_upd C _ m b (fun f => joinW H fun i => joinW W fun j => w f i j) ?_, ?_, ?_⟩
  · intro f u hf
    refine forN_upd' H _ m b u (fun i => joinW W fun j => w f i j) ?_
    intro i u hi
    exact forN_upd' W _ m b u (fun j => w f i j) (fun j u hj => h f i j hf hi hj u)
  · intro f i j a v hf hi hj hv
    have hne : ∀ f' i' j', f' < C → i' < H → j' < W → (f', i', j') ≠ (f, i, j) → w f' i' j' a = none := by
      intro f' i' j' hf' hi' hj' hne
      cases hc : w f' i' j' a with
      | none => rfl
      | some v' =>
        obtain ⟨e1, e2, e3⟩ := hd _ _ _ _ _ _ a _ _ hf' hi' hj' hf hi hj hc hv
        exact absurd (by rw [e1, e2, e3]) hne
    apply joinW_some hf
    · apply joinW_some hi
      · apply joinW_some hj hv
        intro j' h1 h2; left; exact hne f i j' hf hi h2 (by simp; omega)
      · intro i' h1 h2; left
        apply joinW_none; intro j' hj'; exact hne f i' j' hf h2 hj' (by simp; omega)
    · intro f' h1 h2; left
      apply joinW_none; intro i' hi'
      apply joinW_none; intro j' hj'; exact hne f' i' j' h2 hi' hj' (by simp; omega)
  · intro a ha
    apply joinW_none; intro f hf
    apply joinW_none; intro i hi
    apply joinW_none; intro j hj
    exact ha f i j hf hi hj

end Verif

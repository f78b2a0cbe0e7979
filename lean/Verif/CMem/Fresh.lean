import Verif.CMem.Cell

/-!
# Loops that may run in place

A loop visiting every cell of the array it writes once, where the iteration of a cell reads of that
array only this cell.  Such a loop may have the same array as source and destination.
-/

namespace Verif
open Prog
variable {α β : Type}

/-- the cells `0 .. n-1` -/
def firstN (n : Nat) (v : Nat → α) : Nat → Option α := fun a => if a < n then some (v a) else none

theorem forN_fresh {m : Mem α} {b : Buf} (n : Nat) (body : Nat → Prog α Unit) (v : Nat → α)
    (h : ∀ k u, k < n → u k = none → body k (m.upd b u) = some ((), (m.upd b u).upd b (single k (v k)))) :
    forN n body m = some ((), m.upd b (firstN n v)) := by
  unfold forN
  induction n with
  | zero =>
    have : firstN 0 v = noW := by funext a; simp [firstN, noW]
    rw [foldN_zero, this, Mem.upd_noW]
  | succ n ih =>
    rw [foldN_succ, andThen_run (ih fun k u hk => h k u (by omega)), h n _ (by omega) (by simp [firstN]),
      Mem.upd_upd]
    congr 3
    funext a
    simp only [overW, single, firstN]
    by_cases h1 : a = n
    · simp [h1]
    · by_cases h2 : a < n
      · simp [h1, h2, Nat.lt_succ_of_lt h2]
      · have : ¬ a < n + 1 := by omega
        simp [h1, h2, this]

theorem forN_add (n k : Nat) (body : Nat → Prog α Unit) :
    forN (n + k) body = andThen (forN n body) fun _ => forN k fun i => body (n + i) := by
  induction k with
  | zero =>
    funext m
    simp only [Nat.add_zero, forN, andThen]
    cases h : foldN n () (fun i _ => body i) m with
    | none => rfl
    | some x => rfl
  | succ k ih =>
    have e1 : forN (n + (k + 1)) body = andThen (forN (n + k) body) fun _ => body (n + k) := rfl
    have e2 : (forN (k + 1) fun i => body (n + i)) = andThen (forN k fun i => body (n + i)) fun _ => body (n + k) := rfl
    rw [e1, ih, e2, andThen_assoc]

theorem forN_congr {n : Nat} {body body' : Nat → Prog α Unit} (h : ∀ i, i < n → body i = body' i) :
    forN n body = forN n body' := by
  induction n with
  | zero => rfl
  | succ n ih =>
    show andThen (forN n body) (fun _ => body n) = andThen (forN n body') (fun _ => body' n)
    rw [ih fun i hi => h i (by omega), h n (by omega)]

/-- two nested loops are one loop over the flat index -/
theorem forN_flatten (A B : Nat) (body : Nat → Nat → Prog α Unit) :
    (forN A fun i => forN B fun j => body i j) = forN (A * B) fun a => body (a / B) (a % B) := by
  induction A with
  | zero => simp [forN, foldN]
  | succ A ih =>
    have e : (forN (A + 1) fun i => forN B fun j => body i j) =
      andThen (forN A fun i => forN B fun j => body i j) fun _ => forN B fun j => body A j := rfl
    rw [e, ih, Nat.succ_mul, forN_add]
    congr 1
    funext _
    apply forN_congr
    intro j hj
    rw [Nat.mul_comm A B, Nat.add_comm, pair_div hj, pair_mod hj]

theorem loop3_flatten (C H W : Nat) (body : Nat → Nat → Nat → Prog α Unit) :
    loop3 C H W body = forN (C * H * W) fun a => body (a / W / H) (a / W % H) (a % W) := by
  unfold loop3
  rw [forN_flatten C H fun f i => forN W fun j => body f i j,
    forN_flatten (C * H) W fun a j => body (a / H) (a % H) j]

/-- reading a cell that has not been written yet -/
theorem load_fresh {m : Mem α} {b b' : Buf} {u : Nat → Option α} {a : Nat} (hu : u a = none)
    (h : a < m.size b') : load b' (a : Int) (m.upd b u) = some (m.val b' a, m.upd b u) := by
  rw [load_nat (by simpa using h)]
  by_cases hb : b' = b
  · subst hb; rw [Mem.upd_val_same, hu]; rfl
  · rw [Mem.upd_val_ne _ hb]

/-- **In-place rule, 3-D.** -/
theorem loop3_fresh {m : Mem α} (b : Buf) (C H W : Nat) (body : Nat → Nat → Nat → Prog α Unit)
    (v : Nat → Nat → Nat → α) (hsz : C * H * W ≤ m.size b)
    (h : ∀ f i j u, f < C → i < H → j < W → u (at3 H W f i j) = none →
      body f i j (m.upd b u) = some ((), (m.upd b u).upd b (single (at3 H W f i j) (v f i j)))) :
    ∃ m', loop3 C H W body m = some ((), m') ∧ Holds m' b (tensor3 C H W v) ∧ OnlyChanges [b] m m' := by
  have key : ∀ a, a < C * H * W → ∃ f i j, f < C ∧ i < H ∧ j < W ∧ at3 H W f i j = a ∧
      a / W / H = f ∧ a / W % H = i ∧ a % W = j := by
    intro a ha
    obtain ⟨f, i, j, hf, hi, hj, rfl⟩ := at3_surj ha
    refine ⟨f, i, j, hf, hi, hj, rfl, ?_, ?_, ?_⟩
    · unfold at3; rw [pair_div hj, pair_div hi]
    · unfold at3; rw [pair_div hj, pair_mod hi]
    · unfold at3; rw [pair_mod hj]
  rw [loop3_flatten, forN_fresh (b := b) _ _ (fun a => v (a / W / H) (a / W % H) (a % W))]
  · refine ⟨_, rfl, holds_tensor3.2 ⟨hsz, fun f i j hf hi hj => ?_⟩, OnlyChanges.upd m (by simp) _⟩
    have hlt := at3_lt hf hi hj
    obtain ⟨f', i', j', hf', hi', hj', e, e1, e2, e3⟩ := key _ hlt
    obtain ⟨rfl, rfl, rfl⟩ := at3_inj hi' hj' hi hj e
    rw [Mem.upd_val_same, firstN, if_pos hlt, e1, e2, e3]; rfl
  · intro a u ha hu
    obtain ⟨f, i, j, hf, hi, hj, e, e1, e2, e3⟩ := key a ha
    rw [e1, e2, e3]
    subst e
    exact h f i j u hf hi hj hu

/-- **In-place rule, 2-D.** -/
theorem loop2_fresh {m : Mem α} (b : Buf) (M N : Nat) (body : Nat → Nat → Prog α Unit)
    (v : Nat → Nat → α) (hsz : M * N ≤ m.size b)
    (h : ∀ i j u, i < M → j < N → u (i * N + j) = none →
      body i j (m.upd b u) = some ((), (m.upd b u).upd b (single (i * N + j) (v i j)))) :
    ∃ m', forN M (fun i => forN N fun j => body i j) m = some ((), m') ∧ Holds m' b (matrix M N v) ∧
      OnlyChanges [b] m m' := by
  rw [forN_flatten, forN_fresh (b := b) _ _ (fun a => v (a / N) (a % N))]
  · refine ⟨_, rfl, holds_matrix.2 ⟨hsz, fun i j hi hj => ?_⟩, OnlyChanges.upd m (by simp) _⟩
    have hlt : i * N + j < M * N := by
      have := pair_lt hj hi; rwa [Nat.mul_comm N i, Nat.mul_comm N M, Nat.add_comm] at this
    rw [Mem.upd_val_same, firstN, if_pos hlt, Nat.mul_comm i N, Nat.add_comm, pair_div hj, pair_mod hj]; rfl
  · intro a u ha hu
    obtain ⟨i, j, hi, hj, rfl⟩ := at2_surj ha
    have e1 : (i * N + j) / N = i := by rw [Nat.mul_comm i N, Nat.add_comm, pair_div hj]
    have e2 : (i * N + j) % N = j := by rw [Nat.mul_comm i N, Nat.add_comm, pair_mod hj]
    rw [e1, e2]
    exact h i j u hi hj hu

end Verif

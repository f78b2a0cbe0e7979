import Verif.CMem.Basic

/-!
# Reasoning about loop programs

`Mem.upd m b w` is the memory `m` after the (partial) function `w` of addresses to values has been
written into array `b`.  Loop nests of the generated code are shown to have the effect of such an
update.
-/

namespace Verif
open Prog
variable {α β γ : Type}

theorem Mem.ext' {m m' : Mem α} (h1 : m.size = m'.size) (h2 : m.val = m'.val) : m = m' := by
  cases m; cases m'; simp_all

/-- `m` after writing the partial function `w` into array `b`. -/
def Mem.upd (m : Mem α) (b : Buf) (w : Nat → Option α) : Mem α :=
  { m with val := fun b' a => if b' = b then (w a).getD (m.val b a) else m.val b' a }

@[simp] theorem Mem.upd_size (m : Mem α) (b : Buf) (w : Nat → Option α) :
    (m.upd b w).size = m.size := rfl

theorem Mem.upd_val_same (m : Mem α) (b : Buf) (w : Nat → Option α) (a : Nat) :
    (m.upd b w).val b a = (w a).getD (m.val b a) := by simp [Mem.upd]

theorem Mem.upd_val_ne (m : Mem α) {b b' : Buf} (h : b' ≠ b) (w : Nat → Option α) :
    (m.upd b w).val b' = m.val b' := by
  funext a; simp [Mem.upd, h]

/-- no write -/
def noW : Nat → Option α := fun _ => none
/-- one cell -/
def single (a : Nat) (v : α) : Nat → Option α := fun a' => if a' = a then some v else none
/-- `w2` after `w1` -/
def overW (w1 w2 : Nat → Option α) : Nat → Option α := fun a => (w2 a).or (w1 a)
/-- the writes of iterations `0 .. n-1` -/
def joinW : Nat → (Nat → Nat → Option α) → Nat → Option α
  | 0, _ => noW
  | n + 1, w => overW (joinW n w) (w n)

@[simp] theorem Mem.upd_noW (m : Mem α) (b : Buf) : m.upd b noW = m := by
  refine Mem.ext' (by rfl) ?_
  funext b' a
  simp only [Mem.upd, noW]; split <;> simp_all

theorem Mem.upd_upd (m : Mem α) (b : Buf) (w1 w2 : Nat → Option α) :
    (m.upd b w1).upd b w2 = m.upd b (overW w1 w2) := by
  refine Mem.ext' (by rfl) ?_
  funext b' a
  simp only [Mem.upd, overW]
  split
  · cases h : w2 a <;> simp
  · rfl

@[simp] theorem bind_eq (p : Prog α β) (q : β → Prog α γ) : (p >>= q) = andThen p q := rfl
@[simp] theorem pure_eq (b : β) : (pure b : Prog α β) = ret b := rfl

theorem ret_run (b : β) (m : Mem α) : ret b m = some (b, m) := rfl

theorem andThen_run {p : Prog α β} {q : β → Prog α γ} {m m' : Mem α} {b : β}
    (h : p m = some (b, m')) : andThen p q m = q b m' := by
  simp [andThen, h]

theorem andThen_none {p : Prog α β} {q : β → Prog α γ} {m : Mem α}
    (h : p m = none) : andThen p q m = none := by
  simp [andThen, h]

theorem load_nat {m : Mem α} {b : Buf} {a : Nat} (h : a < m.size b) :
    load b (a : Int) m = some (m.val b a, m) := by
  simp [load, h]

theorem load_int {m : Mem α} {b : Buf} {a : Int} (h0 : 0 ≤ a) (h : a < m.size b) :
    load b a m = some (m.val b a.toNat, m) := by
  simp [load, h, h0]

theorem load_oob {m : Mem α} {b : Buf} {a : Int} (h : a < 0 ∨ (m.size b : Int) ≤ a) :
    load b a m = none := by
  unfold load; rw [if_neg]; omega

theorem store_nat {m : Mem α} {b : Buf} {a : Nat} {v : α} (h : a < m.size b) :
    store b (a : Int) v m = some ((), m.upd b (single a v)) := by
  simp only [store, Int.natCast_nonneg, Int.ofNat_lt, h, and_self, if_true, Int.toNat_natCast]
  congr 2
  refine Mem.ext' (by rfl) ?_
  funext b' a'
  simp only [Mem.upd, single]
  by_cases hb : b' = b <;> by_cases ha : a' = a <;> simp [hb, ha]

theorem foldN_zero (init : β) (body : Nat → β → Prog α β) (m : Mem α) :
    foldN 0 init body m = some (init, m) := rfl

theorem foldN_succ (n : Nat) (init : β) (body : Nat → β → Prog α β) :
    foldN (n + 1) init body = andThen (foldN n init body) (body n) := rfl

/-- Loop rule: an invariant on the local variable and the memory. -/
theorem foldN_inv (n : Nat) (init : β) (body : Nat → β → Prog α β) (m : Mem α)
    (I : Nat → β → Mem α → Prop) (h0 : I 0 init m)
    (hs : ∀ i b m', i < n → I i b m' → ∃ b' m'', body i b m' = some (b', m'') ∧ I (i + 1) b' m'') :
    ∃ b' m', foldN n init body m = some (b', m') ∧ I n b' m' := by
  induction n with
  | zero => exact ⟨init, m, rfl, h0⟩
  | succ n ih =>
    obtain ⟨b, m1, e, hi⟩ := ih (fun i b m' h => hs i b m' (by omega))
    obtain ⟨b', m2, e2, hi2⟩ := hs n b m1 (by omega) hi
    exact ⟨b', m2, by rw [foldN_succ, andThen_run e, e2], hi2⟩

/-- Loop rule for loops that only read. -/
theorem foldN_read (n : Nat) (init : β) (body : Nat → β → Prog α β) (m : Mem α)
    (g : Nat → β → β) (h : ∀ i b, i < n → body i b m = some (g i b, m)) :
    foldN n init body m = some (Nat.rec init (fun i b => g i b) n, m) := by
  induction n with
  | zero => rfl
  | succ n ih =>
    rw [foldN_succ, andThen_run (ih (fun i b hi => h i b (by omega))), h n _ (by omega)]

/-- Loop rule for loops of writes into one array `b`; the values written may depend on the rest of
the memory but not on `b` itself. -/
theorem forN_upd (n : Nat) (body : Nat → Prog α Unit) (m : Mem α) (b : Buf)
    (w : Nat → Nat → Option α)
    (h : ∀ i u, i < n → body i (m.upd b u) = some ((), (m.upd b u).upd b (w i))) :
    forN n body m = some ((), m.upd b (joinW n w)) := by
  unfold forN
  induction n with
  | zero => simp [foldN_zero, joinW]
  | succ n ih =>
    rw [foldN_succ, andThen_run (ih (fun i u hi => h i u (by omega))), h n _ (by omega),
      Mem.upd_upd]
    rfl

/-- Same rule, started from an already updated memory (for nested loops). -/
theorem forN_upd' (n : Nat) (body : Nat → Prog α Unit) (m : Mem α) (b : Buf) (u0 : Nat → Option α)
    (w : Nat → Nat → Option α)
    (h : ∀ i u, i < n → body i (m.upd b u) = some ((), (m.upd b u).upd b (w i))) :
    forN n body (m.upd b u0) = some ((), (m.upd b u0).upd b (joinW n w)) := by
  apply forN_upd
  intro i u hi
  rw [Mem.upd_upd]; exact h i _ hi

theorem joinW_none {n : Nat} {w : Nat → Nat → Option α} {a : Nat}
    (h : ∀ i, i < n → w i a = none) : joinW n w a = none := by
  induction n with
  | zero => rfl
  | succ n ih => simp [joinW, overW, h n (by omega), ih (fun i hi => h i (by omega))]

theorem joinW_some {n : Nat} {w : Nat → Nat → Option α} {a : Nat} {v : α} {i : Nat} (hi : i < n)
    (h : w i a = some v) (hne : ∀ k, i < k → k < n → w k a = none ∨ w k a = some v) :
    joinW n w a = some v := by
  induction n with
  | zero => omega
  | succ n ih =>
    rcases Nat.lt_succ_iff_lt_or_eq.mp hi with h1 | h1
    · have := ih h1 (fun k hk hk' => hne k hk (by omega))
      rcases hne n h1 (by omega) with h2 | h2 <;> simp [joinW, overW, h2, this]
    · subst h1; simp [joinW, overW, h]

/-- writes of a loop that stores `v i` at the address `i + off` -/
theorem joinW_single_id (n : Nat) (v : Nat → α) (a : Nat) :
    joinW n (fun i => single i (v i)) a = if a < n then some (v a) else none := by
  split
  · rename_i h
    apply joinW_some h (by simp [single])
    intro k hk _; left; simp [single]; omega
  · rename_i h
    apply joinW_none; intro i hi; simp [single]; omega

/-- The copy loop `for (k = 0; k < n; ++k) dst[k] = f(k, src[k]);` -/
theorem copy_loop (n : Nat) (src dst : Buf) (f : Nat → α → α) (m : Mem α)
    (hs : n ≤ m.size src) (hd : n ≤ m.size dst) :
    forN n (fun k => andThen (load src (k : Int)) fun v => store dst (k : Int) (f k v)) m
      = some ((), m.upd dst (fun a => if a < n then some (f a (m.val src a)) else none)) := by
  by_cases hne : src = dst
  · subst hne
    -- in-place: every cell is read before it is written
    have : ∀ k, k ≤ n → foldN k () (fun k _ => andThen (load src (k : Int))
        fun v => store src (k : Int) (f k v)) m
        = some ((), m.upd src (fun a => if a < k then some (f a (m.val src a)) else none)) := by
      intro k hk
      induction k with
      | zero =>
        rw [foldN_zero]
        congr 2; rw [eq_comm]; exact Mem.upd_noW m src
      | succ k ih =>
        rw [foldN_succ, andThen_run (ih (by omega))]
        rw [andThen_run (load_nat (by simp; omega)), store_nat (by simp; omega), Mem.upd_upd]
        congr 3
        funext a
        simp only [overW, single, Mem.upd_val_same]
        by_cases h1 : a = k
        · subst h1; simp
        · by_cases h2 : a < k
          · simp [h1, h2, Nat.lt_succ_of_lt h2]
          · have : ¬ a < k + 1 := by omega
            simp [h1, h2, this]
    exact this n (Nat.le_refl _)
  · rw [forN_upd n _ m dst (fun i => single i (f i (m.val src i)))]
    · congr 3; funext a; exact joinW_single_id n (fun i => f i (m.val src i)) a
    · intro i u hi
      rw [andThen_run (load_nat (by simp; omega)), store_nat (by simp; omega)]
      rw [Mem.upd_val_ne _ hne]

end Verif

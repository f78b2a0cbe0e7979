import Verif.CMem.Eval

/-!
# Loops that update the cells of one row of an array in place
-/

namespace Verif
open Prog
variable {α : Type}

/-- the written cells `w`, with cells `base, …, base + n - 1` holding `r 0, …, r (n-1)` -/
def overRow (base n : Nat) (r : Nat → α) (w : Nat → Option α) : Nat → Option α := fun a =>
  if base ≤ a ∧ a < base + n then some (r (a - base)) else w a

theorem overRow_at {base n j : Nat} {r : Nat → α} {w : Nat → Option α} (hj : j < n) :
    overRow base n r w (base + j) = some (r j) := by
  unfold overRow
  rw [if_pos (by omega)]; congr 2; omega

theorem overRow_overRow (base n : Nat) (r r' : Nat → α) (w : Nat → Option α) :
    overRow base n r' (overRow base n r w) = overRow base n r' w := by
  funext a; unfold overRow; split <;> rfl

theorem overRow_congr {base n : Nat} {r r' : Nat → α} {w : Nat → Option α}
    (h : ∀ j, j < n → r j = r' j) : overRow base n r w = overRow base n r' w := by
  funext a; unfold overRow
  split
  · congr 1; exact h _ (by omega)
  · rfl

/-- `for (j = 0; j < n; ++j) b[base + j] = step(j, b[base + j]);` -/
theorem row_loop {m : Mem α} {b : Buf} {base n : Nat} {body : Nat → Prog α Unit} {step : Nat → α → α}
    {r : Nat → α} {w : Nat → Option α}
    (h : ∀ j u t, j < n → u (base + j) = some t →
      body j (m.upd b u) = some ((), (m.upd b u).upd b (single (base + j) (step j t)))) :
    forN n body (m.upd b (overRow base n r w))
      = some ((), m.upd b (overRow base n (fun j => step j (r j)) w)) := by
  have key : ∀ k, k ≤ n → forN k body (m.upd b (overRow base n r w))
      = some ((), m.upd b (overRow base n (fun j => if j < k then step j (r j) else r j) w)) := by
    intro k
    induction k with
    | zero => intro _; simp [forN, foldN, ret]
    | succ k ih =>
      intro hk
      unfold forN at ih ⊢
      rw [foldN_succ, andThen_run (ih (by omega)), h k _ (r k) (by omega)]
      · rw [Mem.upd_upd]
        congr 3
        funext a
        simp only [overW, single, overRow]
        by_cases ha : a = base + k
        · subst ha
          have h1 : base ≤ base + k ∧ base + k < base + n := by omega
          simp [h1]
        · rw [if_neg ha]
          simp only [Option.none_or]
          split
          · congr 1
            by_cases h1 : a - base < k
            · rw [if_pos h1, if_pos (by omega)]
            · rw [if_neg h1, if_neg (by omega)]
          · rfl
      · rw [overRow_at (by omega), if_neg (by omega)]
  rw [key n le_rfl, overRow_congr (r' := fun j => step j (r j))]
  intro j hj; rw [if_pos hj]

/-- a sequence of such loops over the same row -/
theorem row_loops {m : Mem α} {b : Buf} {base n k : Nat} {body : Nat → Prog α Unit} {step : Nat → Nat → α → α}
    {r : Nat → α} {w : Nat → Option α}
    (h : ∀ p r', p < k → body p (m.upd b (overRow base n r' w))
      = some ((), m.upd b (overRow base n (fun j => step p j (r' j)) w))) :
    forN k body (m.upd b (overRow base n r w))
      = some ((), m.upd b (overRow base n (fun j => iter (fun p t => step p j t) (r j) k) w)) := by
  unfold forN
  induction k with
  | zero => rfl
  | succ k ih =>
    rw [foldN_succ, andThen_run (ih (fun p r' hp => h p r' (by omega))), h k _ (by omega)]
    rfl

end Verif

import Verif.CMem.Addr

/-!
# Code that repeatedly updates one cell of the array it fills
-/

namespace Verif
open Prog
variable {α β : Type}

/-- The code `p` changes cell `a` of `b` from `t` to `t'` and nothing else, reading of `b` only that cell. -/
def Updates (b : Buf) (m : Mem α) (p : Prog α Unit) (a : Nat) (t t' : α) : Prop :=
  ∀ u, p (m.upd b (overW u (single a t))) = some ((), m.upd b (overW u (single a t')))

theorem Updates.skip {b : Buf} {m : Mem α} {a : Nat} {t : α} : Updates b m (pure ()) a t t := fun _ => rfl

theorem Updates.bind {b : Buf} {m : Mem α} {p : Prog α β} {q : β → Prog α Unit} {v : β} {a : Nat} {t t' : α}
    (hp : Evals b m p v) (hq : Updates b m (q v) a t t') : Updates b m (p >>= q) a t t' :=
  fun u => (andThen_run (hp _)).trans (hq u)

theorem Updates.loadSelf {b : Buf} {m : Mem α} {q : α → Prog α Unit} {a : Nat} {z : Int} {t t' : α}
    (ha : a < m.size b) (hz : z = (a : Int)) (hq : Updates b m (q t) a t t') :
    Updates b m (load b z >>= q) a t t' := fun u => by
  subst hz; exact (andThen_run (load_cell ha)).trans (hq u)

theorem Updates.store {b : Buf} {m : Mem α} {a : Nat} {z : Int} {t v w : α} (ha : a < m.size b)
    (hz : z = (a : Int)) (hv : v = w) : Updates b m (Prog.store b z v) a t w := fun u => by
  subst hz; subst hv; exact store_cell ha

theorem Updates.ite {b : Buf} {m : Mem α} {c : Prop} [Decidable c] {p q : Prog α Unit} {a : Nat} {t v w : α}
    (hp : c → Updates b m p a t v) (hq : ¬ c → Updates b m q a t w) :
    Updates b m (if c then p else q) a t (if c then v else w) := by
  by_cases h : c
  · simp only [h, if_true]; exact hp h
  · simp only [h, if_false]; exact hq h

theorem Updates.seq {b : Buf} {m : Mem α} {p q : Prog α Unit} {a : Nat} {t t' t'' : α}
    (hp : Updates b m p a t t') (hq : Updates b m q a t' t'') : Updates b m (p >>= fun _ => q) a t t'' :=
  fun u => (andThen_run (hp u)).trans (hq u)

theorem Updates.forN {b : Buf} {m : Mem α} {n a : Nat} {body : Nat → Prog α Unit} {step : Nat → α → α} {t : α}
    (h : ∀ k t, k < n → Updates b m (body k) a t (step k t)) :
    Updates b m (Prog.forN n body) a t (iter step t n) := fun _ =>
  forN_accum n body step t fun k t hk => h k t hk _

theorem Stores.seq {b : Buf} {m : Mem α} {p q : Prog α Unit} {a : Nat} {v w : α}
    (hp : Stores b m p a v) (hq : Updates b m q a v w) : Stores b m (p >>= fun _ => q) a w := fun u => by
  refine (andThen_run (hp u)).trans ?_
  rw [Mem.upd_upd, Mem.upd_upd]; exact hq u

theorem iter_foldl {A : Type} (upd : β → A → β) (g : Nat → A) (t : β) (n : Nat) :
    iter (fun k t => upd t (g k)) t n = ((List.range n).map g).foldl upd t := by
  induction n with
  | zero => rfl
  | succ n ih => rw [iter, ih, List.range_succ, List.map_append, List.foldl_append]; rfl

theorem iter_foldl2 {A : Type} (upd : β → A → β) (g : Nat → Nat → A) (t : β) (n k : Nat) :
    iter (fun i t => iter (fun j t => upd t (g i j)) t k) t n =
      ((List.range n).flatMap fun i => (List.range k).map (g i)).foldl upd t := by
  induction n with
  | zero => rfl
  | succ n ih =>
    rw [iter, ih, List.range_succ, List.flatMap_append, List.foldl_append, iter_foldl]
    simp

theorem matrix_map {γ : Type} (M N : Nat) (v : Nat → Nat → α) (g : α → γ) :
    (matrix M N v).map g = matrix M N fun i j => g (v i j) := by
  simp [matrix, List.map_flatMap]
  rfl

/-- a tensor with one channel, one row or one column is a matrix -/
theorem tensor3_one_c (H W : Nat) (v : Nat → Nat → Nat → α) : tensor3 1 H W v = matrix H W (v 0) := by
  simp [tensor3, matrix]

theorem tensor3_one_h (C W : Nat) (v : Nat → Nat → Nat → α) :
    tensor3 C 1 W v = matrix C W fun f j => v f 0 j := by
  simp [tensor3, matrix]

theorem tensor3_one_w (C H : Nat) (v : Nat → Nat → Nat → α) :
    tensor3 C H 1 v = matrix C H fun f i => v f i 0 := by
  unfold tensor3 matrix
  congr 1; funext f
  rw [List.map_eq_flatMap]
  congr 1

theorem tensor3_one_ch (W : Nat) (v : Nat → Nat → Nat → α) : tensor3 1 1 W v = tensor W (v 0 0) := by
  simp [tensor3, tensor]

theorem tensor3_one_cw (H : Nat) (v : Nat → Nat → Nat → α) : tensor3 1 H 1 v = tensor H fun i => v 0 i 0 := by
  rw [tensor3_one_c]
  unfold matrix tensor
  rw [List.map_eq_flatMap]
  congr 1

theorem tensor3_one_hw (C : Nat) (v : Nat → Nat → Nat → α) : tensor3 C 1 1 v = tensor C fun f => v f 0 0 := by
  rw [tensor3_one_h]
  unfold matrix tensor
  rw [List.map_eq_flatMap]
  congr 1

end Verif

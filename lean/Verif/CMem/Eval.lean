import Verif.CMem.Loops

/-!
# Expressions: code that reads arrays and computes a value

`Evals b m p v`: whatever has been written into array `b`, the code `p` evaluates to `v` and changes
nothing.  Loop bodies of the templates are "evaluate an expression that does not read `b`, store it
into `b`".
-/

namespace Verif
open Prog
variable {α β γ : Type}

/-- `p` reads nothing from `b`, has no effect, and evaluates to `v` in `m`. -/
def Evals (b : Buf) (m : Mem α) (p : Prog α β) (v : β) : Prop :=
  ∀ u, p (m.upd b u) = some (v, m.upd b u)

theorem Evals.ret (b : Buf) (m : Mem α) (v : β) : Evals b m (ret v) v := fun _ => rfl

theorem Evals.pure (b : Buf) (m : Mem α) (v : β) : Evals b m (pure v) v := fun _ => rfl

theorem Evals.andThen {b : Buf} {m : Mem α} {p : Prog α β} {q : β → Prog α γ} {v : β} {w : γ}
    (hp : Evals b m p v) (hq : Evals b m (q v) w) : Evals b m (andThen p q) w := fun u => by
  rw [andThen_run (hp u)]; exact hq u

theorem Evals.bind {b : Buf} {m : Mem α} {p : Prog α β} {q : β → Prog α γ} {v : β} {w : γ}
    (hp : Evals b m p v) (hq : Evals b m (q v) w) : Evals b m (p >>= q) w := hp.andThen hq

theorem Evals.ite {b : Buf} {m : Mem α} {c : Prop} [Decidable c] {p q : Prog α β} {v w : β}
    (hp : c → Evals b m p v) (hq : ¬ c → Evals b m q w) :
    Evals b m (if c then p else q) (if c then v else w) := by
  by_cases h : c
  · simp only [h, if_true]; exact hp h
  · simp only [h, if_false]; exact hq h

theorem Evals.load {b b' : Buf} {m : Mem α} {a : Nat} (hne : b' ≠ b) (h : a < m.size b') :
    Evals b m (Prog.load b' (a : Int)) (m.val b' a) := fun _ => load_upd_ne hne h

theorem Evals.load' {b b' : Buf} {m : Mem α} {z : Int} {a : Nat} {v : α} (hne : b' ≠ b)
    (hz : z = (a : Int)) (h : a < m.size b') (hv : m.val b' a = v) : Evals b m (Prog.load b' z) v := by
  subst hz; subst hv; exact Evals.load hne h

/-- reading an element of a CHW tensor -/
theorem Evals.load3 {b b' : Buf} {m : Mem α} {C H W f i j : Nat} {v : Nat → Nat → Nat → α} {z : Int}
    (hne : b' ≠ b) (h : Holds m b' (tensor3 C H W v)) (hf : f < C) (hi : i < H) (hj : j < W)
    (hz : z = (at3 H W f i j : Int)) : Evals b m (Prog.load b' z) (v f i j) := by
  rw [holds_tensor3] at h
  exact Evals.load' hne hz (Nat.lt_of_lt_of_le (at3_lt hf hi hj) h.1) (h.2 f i j hf hi hj)

/-- reading an element of a flat tensor -/
theorem Evals.load1 {b b' : Buf} {m : Mem α} {n i : Nat} {v : Nat → α} {z : Int}
    (hne : b' ≠ b) (h : Holds m b' (tensor n v)) (hi : i < n) (hz : z = (i : Int)) :
    Evals b m (Prog.load b' z) (v i) := by
  rw [holds_tensor] at h
  exact Evals.load' hne hz (by omega) (h.2 i hi)

/-- reading an element of a matrix -/
theorem Evals.load2 {b b' : Buf} {m : Mem α} {M N i j : Nat} {v : Nat → Nat → α} {z : Int}
    (hne : b' ≠ b) (h : Holds m b' (matrix M N v)) (hi : i < M) (hj : j < N)
    (hz : z = ((i * N + j : Nat) : Int)) : Evals b m (Prog.load b' z) (v i j) := by
  rw [holds_matrix] at h
  have := pair_lt hj hi
  refine Evals.load' hne hz (Nat.lt_of_lt_of_le ?_ h.1) (h.2 i j hi hj)
  rw [Nat.mul_comm i, Nat.mul_comm M, Nat.add_comm]; exact this

/-- an accumulation loop -/
theorem Evals.foldN_iter {b : Buf} {m : Mem α} {n : Nat} {init : β} {body : Nat → β → Prog α β}
    {step : Nat → β → β} (h : ∀ i acc, i < n → Evals b m (body i acc) (step i acc)) :
    Evals b m (foldN n init body) (iter step init n) := fun u =>
  Verif.foldN_iter n init body _ step (fun i acc hi => h i acc hi u)

/-- `acc += g(i)` -/
theorem Evals.foldN_sum {R : Type} [AddCommMonoid R] {b : Buf} {m : Mem α} {n : Nat} {init : R}
    {body : Nat → R → Prog α R} {g : Nat → R}
    (h : ∀ i acc, i < n → Evals b m (body i acc) (acc + g i)) :
    Evals b m (foldN n init body) (init + ∑ i ∈ Finset.range n, g i) := fun u =>
  Verif.foldN_sum n init body _ g (fun i acc hi => h i acc hi u)

theorem iter_congr {step step' : Nat → β → β} {init : β} {n : Nat}
    (h : ∀ i b, i < n → step i b = step' i b) : iter step init n = iter step' init n := by
  induction n with
  | zero => rfl
  | succ n ih => simp only [iter]; rw [ih (fun i b hi => h i b (by omega)), h n _ (by omega)]

/-- The code `p` evaluates an expression that does not read `b` and stores its value `v` at address
`a` of `b`. -/
def Stores (b : Buf) (m : Mem α) (p : Prog α Unit) (a : Nat) (v : α) : Prop :=
  ∀ u, p (m.upd b u) = some ((), (m.upd b u).upd b (single a v))

theorem Stores.andThen {b : Buf} {m : Mem α} {p : Prog α β} {q : β → Prog α Unit} {v : β} {a : Nat}
    {w : α} (hp : Evals b m p v) (hq : Stores b m (q v) a w) : Stores b m (andThen p q) a w :=
  fun u => by rw [andThen_run (hp u)]; exact hq u

theorem Stores.bind {b : Buf} {m : Mem α} {p : Prog α β} {q : β → Prog α Unit} {v : β} {a : Nat}
    {w : α} (hp : Evals b m p v) (hq : Stores b m (q v) a w) : Stores b m (p >>= q) a w :=
  Stores.andThen hp hq

theorem Stores.store {b : Buf} {m : Mem α} {z : Int} {a : Nat} {v w : α} (hz : z = (a : Int))
    (h : a < m.size b) (hv : v = w) : Stores b m (Prog.store b z v) a w := fun u => by
  subst hz; subst hv; exact store_upd h

/-- A statement that stores into a cell, followed by `b[a] = g(b[a]);`. -/
theorem Stores.reapply {b : Buf} {m : Mem α} {p : Prog α Unit} {z z' : Int} {a : Nat} {v : α} {g : α → α}
    (hp : Stores b m p a v) (hz : z = (a : Int)) (hz' : z' = (a : Int)) (h : a < m.size b) :
    Stores b m (p >>= fun _ => Prog.load b z >>= fun t => Prog.store b z' (g t)) a (g v) := fun u => by
  subst hz; subst hz'
  refine (andThen_run (hp u)).trans ?_
  rw [Mem.upd_upd]
  refine (andThen_run (load_cell h)).trans ?_
  rw [store_cell h, Mem.upd_upd]

/-- A counted loop whose local variable advances by a fixed step is a loop over the addresses. -/
theorem foldN_pos (n p0 s : Nat) (body : Nat → Nat → Prog α Nat) (c : Nat → Prog α Unit)
    (h : ∀ i, i < n → body i (p0 + i * s) = Prog.andThen (c i) fun _ => Prog.ret (p0 + (i + 1) * s)) :
    foldN n p0 body = Prog.andThen (forN n c) fun _ => Prog.ret (p0 + n * s) := by
  induction n with
  | zero => funext m; simp [foldN, forN, Prog.andThen, Prog.ret]
  | succ n ih =>
    rw [foldN_succ, ih (fun i hi => h i (by omega))]
    show _ = Prog.andThen (Prog.andThen (foldN n () fun i _ => c i) fun _ => c n) _
    rw [andThen_assoc, andThen_assoc]
    congr 1
    funext _
    show Prog.andThen (Prog.ret _) _ = _
    have : (Prog.andThen (Prog.ret (p0 + n * s)) (body n)) = body n (p0 + n * s) := by
      funext m; rfl
    rw [this, h n (by omega)]

/-- **Kernel rule, 3-D.** A triple loop storing the element `v f i j` at its address of
`tensor_temp`, followed by the copy loop (through `h`). -/
theorem kernel3 {m : Mem α} {C H W n road : Nat} {body : Nat → Nat → Nat → Prog α Unit}
    {v : Nat → Nat → Nat → α} {h : α → α} (hn : n = C * H * W)
    (ht : n ≤ m.size .temp) (ho : n ≤ m.size (.out road))
    (he : ∀ f i j, f < C → i < H → j < W → at3 H W f i j < m.size .temp →
      Stores .temp m (body f i j) (at3 H W f i j) (v f i j)) :
    Computes (andThen (loop3 C H W body) fun _ => copyMap n .temp (.out road) h) m (.out road)
      (tensor3 C H W fun f i j => h (v f i j)) := by
  rw [← tensor3_map C H W v h]
  refine computes_of_temp h (by rw [tensor3_length, hn]) ho
    (loop3_holds .temp C H W _ _ (by rw [← hn]; exact ht) ?_)
  intro f i j u hf hi hj
  exact he f i j hf hi hj (Nat.lt_of_lt_of_le (at3_lt hf hi hj) (by rw [← hn]; exact ht)) u

/-- **Kernel rule, 1-D.** -/
theorem kernel1 {m : Mem α} {n road : Nat} {body : Nat → Prog α Unit}
    {v : Nat → α} {h : α → α} (ht : n ≤ m.size .temp) (ho : n ≤ m.size (.out road))
    (he : ∀ i, i < n → i < m.size .temp → Stores .temp m (body i) i (v i)) :
    Computes (andThen (forN n body) fun _ => copyMap n .temp (.out road) h) m (.out road)
      (tensor n fun i => h (v i)) := by
  have : tensor n (fun i => h (v i)) = (tensor n fun i => v i).map h := by simp [tensor]
  rw [this]
  refine computes_of_temp h (by simp) ho (forN_holds .temp n _ _ ht ?_)
  intro i u hi
  exact he i hi (by omega) u

end Verif

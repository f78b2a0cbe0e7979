import Verif.CText.Syntax

/-!
# The arrays that a statement names
-/

namespace Verif.CText
variable {K : Type}

/-- the arrays that an expression names: `(true, x)` is `ctx->x[..]`, `(false, x)` is `x[..]` -/
def Expr.arrays : Expr K → List (Bool × Ident)
  | .num _ | .flt _ | .var _ => []
  | .idx c x e => (c, x) :: e.arrays
  | .addr c x e => (c, x) :: e.arrays
  | .neg a => a.arrays
  | .bin _ a b => a.arrays ++ b.arrays
  | .land a b => a.arrays ++ b.arrays
  | .lor a b => a.arrays ++ b.arrays
  | .cond c a b => c.arrays ++ (a.arrays ++ b.arrays)
  | .call1 _ a => a.arrays
  | .call2 _ a b => a.arrays ++ b.arrays

def LVal.arrays : LVal K → List (Bool × Ident)
  | .var _ => []
  | .idx c x e => (c, x) :: e.arrays

/-- the arrays that a statement names -/
def Stmt.arrays : Stmt K → List (Bool × Ident)
  | .skip => []
  | .seq a b => a.arrays ++ b.arrays
  | .block s => s.arrays
  | .decl _ _ e => e.arrays
  | .assign l _ e => l.arrays ++ e.arrays
  | .incr _ => []
  | .for_ i c s b => i.arrays ++ (c.arrays ++ (s.arrays ++ b.arrays))
  | .ite c a b => c.arrays ++ (a.arrays ++ b.arrays)

/-- every element of the list is allowed -/
def Within (l : List (Bool × Ident)) (P : Bool × Ident → Prop) : Prop := ∀ a ∈ l, P a

/-! ## Rules -/

section
variable {P : Bool × Ident → Prop}

theorem within_nil : Within [] P := fun a h => by cases h
theorem within_cons {a : Bool × Ident} {l : List (Bool × Ident)} (h : P a) (h' : Within l P) : Within (a :: l) P := by
  intro b hb
  rcases List.mem_cons.1 hb with rfl | hb
  · exact h
  · exact h' b hb
theorem within_append {a b : List (Bool × Ident)} (h : Within a P) (h' : Within b P) : Within (a ++ b) P := by
  intro x hx
  rcases List.mem_append.1 hx with hx | hx
  · exact h x hx
  · exact h' x hx
theorem Within.mono {Q : Bool × Ident → Prop} {l : List (Bool × Ident)} (h : Within l P) (hPQ : ∀ a, P a → Q a) : Within l Q := fun a ha => hPQ a (h a ha)

theorem uses_num (n : Nat) : Within (Expr.num (K := K) n).arrays P := within_nil
theorem uses_flt (q : K) : Within (Expr.flt q).arrays P := within_nil
theorem uses_var (x : Ident) : Within (Expr.var (K := K) x).arrays P := within_nil
theorem uses_idx {c : Bool} {x : Ident} {e : Expr K} (h : P (c, x)) (h' : Within e.arrays P) : Within (Expr.idx c x e).arrays P := within_cons h h'
theorem uses_addr {c : Bool} {x : Ident} {e : Expr K} (h : P (c, x)) (h' : Within e.arrays P) : Within (Expr.addr c x e).arrays P := within_cons h h'
theorem uses_neg {a : Expr K} (h : Within a.arrays P) : Within (Expr.neg a).arrays P := h
theorem uses_bin {o : BinOp} {a b : Expr K} (h : Within a.arrays P) (h' : Within b.arrays P) : Within (Expr.bin o a b).arrays P := within_append h h'
theorem uses_land {a b : Expr K} (h : Within a.arrays P) (h' : Within b.arrays P) : Within (Expr.land a b).arrays P := within_append h h'
theorem uses_lor {a b : Expr K} (h : Within a.arrays P) (h' : Within b.arrays P) : Within (Expr.lor a b).arrays P := within_append h h'
theorem uses_cond {c a b : Expr K} (h : Within c.arrays P) (h' : Within a.arrays P) (h'' : Within b.arrays P) : Within (Expr.cond c a b).arrays P :=
  within_append h (within_append h' h'')
theorem uses_call1 {f : Ident} {a : Expr K} (h : Within a.arrays P) : Within (Expr.call1 f a).arrays P := h
theorem uses_call2 {f : Ident} {a b : Expr K} (h : Within a.arrays P) (h' : Within b.arrays P) : Within (Expr.call2 f a b).arrays P := within_append h h'
theorem uses_lvar (x : Ident) : Within (LVal.var (K := K) x).arrays P := within_nil
theorem uses_lidx {c : Bool} {x : Ident} {e : Expr K} (h : P (c, x)) (h' : Within e.arrays P) : Within (LVal.idx c x e).arrays P := within_cons h h'
theorem uses_skip : Within (Stmt.skip : Stmt K).arrays P := within_nil
theorem uses_seq {a b : Stmt K} (h : Within a.arrays P) (h' : Within b.arrays P) : Within (Stmt.seq a b).arrays P := within_append h h'
theorem uses_block {a : Stmt K} (h : Within a.arrays P) : Within (Stmt.block a).arrays P := h
theorem uses_decl {t : Ty} {x : Ident} {e : Expr K} (h : Within e.arrays P) : Within (Stmt.decl t x e).arrays P := h
theorem uses_assign {l : LVal K} {o : AOp} {e : Expr K} (h : Within l.arrays P) (h' : Within e.arrays P) : Within (Stmt.assign l o e).arrays P := within_append h h'
theorem uses_incr (x : Ident) : Within (Stmt.incr x : Stmt K).arrays P := within_nil
theorem uses_for {i s b : Stmt K} {c : Expr K} (h1 : Within i.arrays P) (h2 : Within c.arrays P) (h3 : Within s.arrays P) (h4 : Within b.arrays P) :
    Within (Stmt.for_ i c s b).arrays P := within_append h1 (within_append h2 (within_append h3 h4))
theorem uses_ite {a b : Stmt K} {c : Expr K} (h1 : Within c.arrays P) (h2 : Within a.arrays P) (h3 : Within b.arrays P) : Within (Stmt.ite c a b).arrays P :=
  within_append h1 (within_append h2 h3)

end

end Verif.CText

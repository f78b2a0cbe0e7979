import Verif.CText.Arrays
import Verif.CText.Sem

/-!
# What a statement does depends only on the arrays it names

Two environments of global names which differ only on arrays that a statement does not name give it the same meaning.
-/

namespace Verif.CText
open Prog
variable {K : Type} [Field K] [LinearOrder K] [FloorRing K]

/-- the environments agree on the arrays of `P` and on everything that is not an array of `float` -/
structure SameOn (P : Bool × Ident → Prop) (G G' : Globals K) : Prop where
  buf : ∀ a, P a → G.buf a.1 a.2 = G'.buf a.1 a.2
  ints : G.ints = G'.ints
  exp : G.exp = G'.exp
  log : G.log = G'.log
  sqrt : G.sqrt = G'.sqrt
  inf : G.inf = G'.inf

variable {P : Bool × Ident → Prop} {G G' : Globals K}

theorem within_split {a b : List (Bool × Ident)} (h : Within (a ++ b) P) : Within a P ∧ Within b P :=
  ⟨fun x hx => h x (List.mem_append_left _ hx), fun x hx => h x (List.mem_append_right _ hx)⟩

theorem isFlt_transfer (hG : SameOn P G G') (env : Env K) : ∀ e : Expr K, Within e.arrays P → isFlt G env e = isFlt G' env e
  | .num _, _ => rfl
  | .flt _, _ => rfl
  | .var _, _ => rfl
  | .idx c x e, h => by
    have := hG.buf (c, x) (h _ (List.mem_cons_self ..))
    simp only [isFlt, hG.ints] at this ⊢
    rw [this]
  | .addr .., _ => rfl
  | .neg a, h => by simp only [isFlt]; exact isFlt_transfer hG env a h
  | .bin o a b, h => by
    obtain ⟨ha, hb⟩ := within_split h
    simp only [isFlt, isFlt_transfer hG env a ha, isFlt_transfer hG env b hb]
  | .land .., _ => rfl
  | .lor .., _ => rfl
  | .cond c a b, h => by
    obtain ⟨ha, hb⟩ := within_split (within_split h).2
    simp only [isFlt, isFlt_transfer hG env a ha, isFlt_transfer hG env b hb]
  | .call1 .., _ => rfl
  | .call2 .., _ => rfl

theorem lib1_transfer (hG : SameOn P G G') : lib1 G = lib1 G' := by
  funext f x
  unfold lib1
  split <;> simp only [hG.exp, hG.log, hG.sqrt]

theorem eval_transfer (hG : SameOn P G G') (env : Env K) : ∀ e : Expr K, Within e.arrays P → e.eval G env = e.eval G' env
  | .num _, _ => rfl
  | .flt _, _ => rfl
  | .var _, _ => by simp only [Expr.eval, hG.inf]
  | .idx c x e, h => by
    have h1 := hG.buf (c, x) (h _ (List.mem_cons_self ..))
    have h2 := eval_transfer hG env e fun a ha => h a (List.mem_cons_of_mem _ ha)
    simp only at h1
    simp only [Expr.eval, h2, h1, hG.ints]
  | .addr c x e, h => by
    have h1 := hG.buf (c, x) (h _ (List.mem_cons_self ..))
    have h2 := eval_transfer hG env e fun a ha => h a (List.mem_cons_of_mem _ ha)
    simp only at h1
    simp only [Expr.eval, h2, h1]
  | .neg a, h => by simp only [Expr.eval, eval_transfer hG env a h]
  | .bin o a b, h => by
    obtain ⟨ha, hb⟩ := within_split h
    simp only [Expr.eval, eval_transfer hG env a ha, eval_transfer hG env b hb]
  | .land a b, h => by
    obtain ⟨ha, hb⟩ := within_split h
    simp only [Expr.eval, eval_transfer hG env a ha, eval_transfer hG env b hb]
  | .lor a b, h => by
    obtain ⟨ha, hb⟩ := within_split h
    simp only [Expr.eval, eval_transfer hG env a ha, eval_transfer hG env b hb]
  | .cond c a b, h => by
    obtain ⟨hc, h⟩ := within_split h
    obtain ⟨ha, hb⟩ := within_split h
    simp only [Expr.eval, eval_transfer hG env c hc, eval_transfer hG env a ha, eval_transfer hG env b hb, isFlt_transfer hG env a ha,
      isFlt_transfer hG env b hb]
  | .call1 f a, h => by simp only [Expr.eval, eval_transfer hG env a h, lib1_transfer hG]
  | .call2 f a b, h => by
    obtain ⟨ha, hb⟩ := within_split h
    simp only [Expr.eval, eval_transfer hG env a ha, eval_transfer hG env b hb]

theorem assignTo_transfer (hG : SameOn P G G') (env : Env K) (l : LVal K) (hl : Within l.arrays P) (o : AOp) (v : Val K) :
    assignTo G env l o v = assignTo G' env l o v := by
  cases l with
  | var x => rfl
  | idx c x e =>
    have h1 := hG.buf (c, x) (hl _ (List.mem_cons_self ..))
    have h2 := eval_transfer hG env e fun a ha => hl a (List.mem_cons_of_mem _ ha)
    have h3 : ∀ a, place G env c x a = place G' env c x a := by
      intro a
      simp only at h1
      simp only [place, h1]
    simp only [assignTo, h2, h3]

/-- **A statement does the same in two environments that agree on the arrays it names.** -/
theorem run_transfer (hG : SameOn P G G') (F : Nat) : ∀ s : Stmt K, Within s.arrays P → s.run G F = s.run G' F
  | .skip, _ => rfl
  | .seq a b, h => by
    obtain ⟨ha, hb⟩ := within_split h
    funext env
    simp only [Stmt.run, run_transfer hG F a ha, run_transfer hG F b hb]
  | .block s, h => by
    funext env
    simp only [Stmt.run, run_transfer hG F s h]
  | .decl t x e, h => by
    funext env
    simp only [Stmt.run, eval_transfer hG env e h]
  | .assign l o e, h => by
    obtain ⟨hl, he⟩ := within_split h
    funext env
    simp only [Stmt.run, eval_transfer hG env e he, assignTo_transfer hG env l hl]
  | .incr x, _ => rfl
  | .for_ i c s b, h => by
    obtain ⟨hi, h⟩ := within_split h
    obtain ⟨hc, h⟩ := within_split h
    obtain ⟨hs, hb⟩ := within_split h
    have hc' : ∀ env, c.eval G env = c.eval G' env := fun env => eval_transfer hG env c hc
    funext env
    simp only [Stmt.run, run_transfer hG F i hi, run_transfer hG F s hs, run_transfer hG F b hb, hc']
  | .ite c a b, h => by
    obtain ⟨hc, h⟩ := within_split h
    obtain ⟨ha, hb⟩ := within_split h
    funext env
    simp only [Stmt.run, run_transfer hG F a ha, run_transfer hG F b hb, eval_transfer hG env c hc]

end Verif.CText

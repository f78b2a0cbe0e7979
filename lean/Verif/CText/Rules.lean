import Verif.CText.Std
import Mathlib.Tactic.Linarith

/-!
# More rules for `Sim`
-/

namespace Verif.CText
open Prog
set_option linter.unusedSectionVars false

variable {K : Type} [Field K] [LinearOrder K] [FloorRing K]

/-! ## Rules -/

@[simp] theorem std_exp (L : Lib K) (ints : Ident → Option (List Nat)) : (std L ints).exp = L.exp := rfl
@[simp] theorem std_sqrt (L : Lib K) (ints : Ident → Option (List Nat)) : (std L ints).sqrt = L.sqrt := rfl
@[simp] theorem std_inf (L : Lib K) (ints : Ident → Option (List Nat)) : (std L ints).inf = L.inf := rfl

variable {G : Globals K} {F : Nat} {V V' V'' : List Ident} {e : Env K} {β γ : Type}

theorem Sim.congr {s : Stmt K} {p p' : Prog K β} {post : β → Env K} (h : Sim G F V V' e s p post) (hp : p = p') :
    Sim G F V V' e s p' post := hp ▸ h

/-- a statement whose program only computes a value -/
theorem Sim.seq' {a b : Stmt K} {x : β} {q : Prog K γ} {mid : β → Env K} {post : γ → Env K}
    (ha : Sim G F V V' e a (ret x) mid) (hb : Sim G F V' V'' (mid x) b q post) :
    Sim G F V V'' e (.seq a b) q post := by
  intro e₁ h1 m
  obtain ⟨e₂, h2, hr⟩ := ha e₁ h1 m
  have hrun : (Stmt.seq a b).run G F e₁ m = b.run G F e₂ m := by
    show andThen (a.run G F e₁) _ m = _
    rw [andThen, hr]
  rw [hrun]
  exact hb e₂ h2 m

/-- a statement whose program is a computation and a store, in a longer program -/
theorem Sim.seq₂ {δ : Type} {a b : Stmt K} {q : Prog K δ} {r : δ → Prog K β} {k : β → Prog K γ} {mid : β → Env K}
    {post : γ → Env K} (ha : Sim G F V V' e a (q >>= r) mid) (hb : ∀ x, Sim G F V' V'' (mid x) b (k x) post) :
    Sim G F V V'' e (.seq a b) (q >>= fun v => r v >>= k) post :=
  (Sim.seq ha hb).congr (bind_assoc' _ _ _)

/-- to use the value of a variable that was not followed so far -/
theorem Sim.scratch {s : Stmt K} {p : Prog K β} {post : β → Env K} {x : Ident} {v₀ : Val K}
    (hx : sameTy (e x) (some v₀))
    (h : ∀ v, sameTy (some v) (some v₀) → Sim G F (V.filter (· ≠ x)) V' (upd e x v) s p post) :
    Sim G F V V' e s p post := by
  intro e₁ h1 m
  have ht := h1.ty x
  obtain ⟨v, hv⟩ : ∃ v, e₁ x = some v := by
    cases h3 : e₁ x with
    | none =>
      rw [h3] at ht
      have := ht.trans hx
      exact this.elim
    | some v => exact ⟨v, rfl⟩
  have hty : sameTy (some v) (some v₀) := by rw [← hv]; exact ht.trans hx
  have hag : Agree (V.filter (· ≠ x)) e₁ (upd e x v) := by
    intro y
    by_cases hy : y = x
    · subst hy
      rw [if_neg (by simp), upd_same, hv]
    · have h := h1 y
      simp only [upd, hy, if_false, List.mem_filter, ne_eq, decide_not, decide_false, Bool.not_false, and_true]
      exact h
  exact h v hty e₁ hag m

/-- the same for a variable of type `float` -/
theorem Sim.float {s : Stmt K} {p : Prog K β} {post : β → Env K} (x : Ident)
    (hx : sameTy (e x) (some (.flt 0)))
    (h : ∀ v, Sim G F (V.filter (· ≠ x)) V' (upd e x (.flt v)) s p post) : Sim G F V V' e s p post := by
  refine Sim.scratch (v₀ := .flt 0) hx ?_
  intro v hv
  rcases v with z | v | ⟨b, o⟩
  · exact hv.elim
  · exact h v
  · exact hv.elim

/-- the same for a variable of type `int` -/
theorem Sim.int {s : Stmt K} {p : Prog K β} {post : β → Env K} (x : Ident)
    (hx : IsInt e x)
    (h : ∀ v, Sim G F (V.filter (· ≠ x)) V' (upd e x (.int v)) s p post) : Sim G F V V' e s p post := by
  refine Sim.scratch (v₀ := .int 0) hx ?_
  intro v hv
  rcases v with z | v | ⟨b, o⟩
  · exact h z
  · exact hv.elim
  · exact hv.elim

theorem Agree.upd_left {V : List Ident} {e e' : Env K} {x : Ident} {v : Val K} (h : Agree V e e') (hV : x ∈ V)
    (ht : sameTy (some v) (e' x)) : Agree V (CText.upd e x v) e' := by
  intro y
  by_cases hy : y = x
  · subst hy; rw [if_pos hV, upd_same]; exact ht
  · have := h y
    simpa [CText.upd, hy] using this

/-- loop body with a single statement in braces -/
theorem Sim.for' {x : Ident} {N : Nat} {b : Stmt K} {body : Nat → Prog K Unit}
    (hx : x.1 ≠ .INFINITY) (hV : x ∈ V) (hF : N < F) (hint : IsInt e x) (hd : decls b = [])
    (hb : ∀ i, i < N → Sim G F (V.filter (· ≠ x)) (V.filter (· ≠ x)) (upd e x (.int i)) b (body i) (fun _ => upd e x (.int i))) :
    Sim G F V V e (loop x N (.block b)) (forN N body) (fun _ => e) :=
  Sim.for hx hV hF hint fun i hi => (hb i hi).block' hd

/-- the three loops of most templates -/
theorem Sim.loop3 {C H W : Nat} {b : Stmt K} {body : Nat → Nat → Nat → Prog K Unit}
    (hf : (.f, none) ∈ V) (hi : (.i, none) ∈ V) (hj : (.j, none) ∈ V) (hF : C + H + W < F)
    (tf : IsInt e (.f, none)) (ti : IsInt e (.i, none)) (tj : IsInt e (.j, none))
    (hb : ∀ f i j, f < C → i < H → j < W →
      Sim G F (((V.filter (· ≠ (.f, none))).filter (· ≠ (.i, none))).filter (· ≠ (.j, none)))
        (((V.filter (· ≠ (.f, none))).filter (· ≠ (.i, none))).filter (· ≠ (.j, none)))
        (upd (upd (upd e (.f, none) (.int f)) (.i, none) (.int i)) (.j, none) (.int j)) (.block b) (body f i j)
        (fun _ => upd (upd (upd e (.f, none) (.int f)) (.i, none) (.int i)) (.j, none) (.int j))) :
    Sim G F V V e (loop (.f, none) C (.block (loop (.i, none) H (.block (loop (.j, none) W (.block b))))))
      (Verif.loop3 C H W body) (fun _ => e) := by
  refine Sim.for' (by simp) hf (by omega) tf rfl fun f hf' => ?_
  refine Sim.for' (by simp) (by simp [hi]) (by omega) (by simpa [IsInt, upd] using ti) rfl fun i hi' => ?_
  exact Sim.for (by simp) (by simp [hj]) (by omega) (by simpa [IsInt, upd] using tj) fun j hj' => hb f i j hf' hi' hj'

theorem upd_comm (e : Env K) {x y : Ident} (h : x ≠ y) (u v : Val K) : upd (upd e x u) y v = upd (upd e y v) x u := by
  funext z; unfold upd; by_cases h1 : z = x <;> by_cases h2 : z = y <;> simp_all

theorem sameTy_flt {a b : K} {t : Option (Val K)} (h : sameTy t (some (.flt b))) : sameTy (some (.flt a)) t :=
  sameTy.trans (v := some (.flt b)) trivial h.symm

theorem sameTy_int {a b : Int} {t : Option (Val K)} (h : sameTy t (some (.int b))) : sameTy (some (.int a)) t :=
  sameTy.trans (v := some (.int b)) trivial h.symm

/-- the value of a variable is not followed any more -/
theorem Sim.forget (x : Ident) {s : Stmt K} {p : Prog K β} {post : β → Env K} {val : β → Val K}
    (h : Sim G F V (V'.filter (· ≠ x)) e s p (fun b => upd (post b) x (val b))) (hV : x ∈ V')
    (ht : ∀ b, sameTy (some (val b)) (post b x)) : Sim G F V V' e s p post :=
  h.weaken (fun b => Agree.upd_left (Agree.refl _ _) hV (ht b)) fun y hy => (List.mem_filter.1 hy).1

omit [LinearOrder K] [FloorRing K] in
/-- the text of an activation reads what its argument reads -/
theorem CAct.vars {act : CAct K} {v : Expr K} (hv : ∀ y ∈ v.vars, y ∉ V) : ∀ y ∈ (act.expr v).vars, y ∉ V := by
  have hs : ∀ q : SNum K, q.expr.vars = [] := by rintro ⟨_ | _, q⟩ <;> rfl
  cases act <;> simp only [CAct.expr, Expr.vars, List.append_nil, List.nil_append, List.mem_append, hs, or_self] <;> assumption

/-- `b[a] = <activation of v>;` -/
theorem Sim.storeAct {c : Bool} {x : Ident} {a v : Expr K} {b : Buf} {za : Int} {act : CAct K} {q : Prog K K}
    (hbuf : G.buf c x = some b) (hda : ∀ y ∈ a.vars, y ∉ V) (hdx : ∀ y ∈ v.vars, y ∉ V)
    (ha : a.eval G e = ret (.int za)) (hq : Reads q) (hv : v.eval G e = andThen q fun x => ret (.flt x))
    (hf : isFlt G e v = true) :
    Sim G F V V e (.assign (.idx c x a) .set (act.expr v)) (q >>= fun v => Prog.store b za (act.fn G v)) (fun _ => e) := by
  refine (Sim.store hbuf hda (CAct.vars hdx) ha (CAct.eval G act hq hv hf)).congr ?_
  exact bind_assoc' q _ _

/-- the closing loop of most templates -/
theorem Sim.copyAct {c c' : Bool} {k x y : Ident} {N : Nat} {src dst : Buf} {act : CAct K}
    (hk : k.1 ≠ .INFINITY) (hV : k ∈ V) (hF : N < F) (hint : IsInt e k)
    (hdst : G.buf c x = some dst) (hsrc : G.buf c' y = some src) (hc : c' = true ∨ y ∉ V) :
    Sim G F V V e (loop k N (.block (.assign (.idx c x (.var k)) .set (act.expr (.idx c' y (.var k))))))
      (copyMap N src dst (act.fn G)) (fun _ => e) := by
  have hk' : k ≠ (.INFINITY, none) := fun h => hk (by rw [h])
  refine Sim.for' hk hV hF hint rfl fun i _ => ?_
  refine Sim.storeAct (q := load src i) hdst (by simp [Expr.vars]) ?_ ?_ (Reads.load _ _) ?_ ?_
  · rcases hc with rfl | hc
    · simp [Expr.vars]
    · cases c' <;> simp_all [Expr.vars]
  · simp [Expr.eval, upd, hk', ofOpt_some]
  · simp [Expr.eval, upd, hk', ofOpt_some, ret_andThen, hsrc, loadAt]
  · simp [isFlt, hsrc]

/-- the closing loop of the other templates -/
theorem Sim.copy {c c' : Bool} {k x y : Ident} {N : Nat} {src dst : Buf}
    (hk : k.1 ≠ .INFINITY) (hV : k ∈ V) (hF : N < F) (hint : IsInt e k)
    (hdst : G.buf c x = some dst) (hsrc : G.buf c' y = some src) (hc : c' = true ∨ y ∉ V) :
    Sim G F V V e (loop k N (.block (.assign (.idx c x (.var k)) .set (.idx c' y (.var k)))))
      (copyMap N src dst id) (fun _ => e) :=
  Sim.copyAct (act := .linear) hk hV hF hint hdst hsrc hc

/-- `x++;` -/
theorem Sim.incr {x : Ident} {z : Int} {b : β} {post : β → Env K} (hx : e x = some (.int z)) (hV : x ∉ V)
    (hpost : Agree V (upd e x (.int (z + 1))) (post b)) :
    Sim G F V V e (.incr x) (ret b) post := by
  intro e₁ h1 m
  refine ⟨_, (h1.upd x _).trans hpost, ?_⟩
  simp only [Stmt.run, h1.get hV, hx]
  rfl

/-- assignment of a local variable, for any way of writing the environment that results -/
theorem Sim.set' {x : Ident} {o : AOp} {ex : Expr K} {q : Prog K β} {old : Val K} {post : β → Env K} {val : β → Val K}
    (hold : e x = some old) (hxV : x ∉ V) (hdx : ∀ y ∈ ex.vars, y ∉ V)
    (hq : (ex.eval G e >>= fun v => ofOpt ((aop o old v).bind (convert old))) = (q >>= fun b => ret (val b)))
    (hpost : ∀ b, Agree V (upd e x (val b)) (post b)) :
    Sim G F V V e (.assign (.var x) o ex) q post :=
  (Sim.set hold hxV hdx hq).weaken hpost fun _ h => h

theorem Agree.of_eq {e' : Env K} (h : e = e') : Agree V e e' := h ▸ Agree.refl V e

/-- environments that are updated in a different order -/
macro "env_rfl" : tactic => `(tactic| (refine Agree.of_eq ?_; funext z; simp only [upd]; (repeat' split) <;> simp_all))

/-- two reads commute -/
theorem load_comm (b b' : Buf) (a a' : Int) (f : K → K → Prog K γ) :
    (andThen (load b a) fun x => andThen (load b' a') fun y => f x y) =
      andThen (load b' a') fun y => andThen (load b a) fun x => f x y := by
  funext m
  simp only [andThen, load]
  by_cases h : 0 ≤ a ∧ a < m.size b <;> by_cases h' : 0 ≤ a' ∧ a' < m.size b' <;> simp [h, h']

/-! ## Expressions -/

theorem load_bind_flt (b : Buf) (a : Int) : (loadAt b a : Prog K (Val K)) = (load b a >>= fun x => ret (.flt x)) := rfl

theorem tmod_nat (a b : Nat) : (a : Int).tmod b = (a : Int) % b := Int.tmod_eq_emod_of_nonneg (by omega)

theorem fail_andThen (f : β → Prog K γ) : andThen (fail : Prog K β) f = fail := rfl

theorem truth_land {a b : Expr K} {P Q : Prop} [Decidable P] [Decidable Q] (ha : (a.eval G e >>= truth) = ret (decide P))
    (hb : (b.eval G e >>= truth) = ret (decide Q)) : ((Expr.land a b).eval G e >>= truth) = ret (decide (P ∧ Q)) := by
  have h1 : (Expr.land a b).eval G e = ((a.eval G e >>= truth) >>= fun t =>
      (if t then (b.eval G e >>= truth) >>= fun t' => ret (boolVal t') else ret (boolVal false) : Prog K (Val K))) := by
    simp only [Expr.eval, bind_assoc']
  rw [h1, ha, hb]
  by_cases hP : P <;> by_cases hQ : Q <;> simp [ret_andThen, hP, hQ, truth, boolVal]

theorem truth_lor {a b : Expr K} {P Q : Prop} [Decidable P] [Decidable Q] (ha : (a.eval G e >>= truth) = ret (decide P))
    (hb : (b.eval G e >>= truth) = ret (decide Q)) : ((Expr.lor a b).eval G e >>= truth) = ret (decide (P ∨ Q)) := by
  have h1 : (Expr.lor a b).eval G e = ((a.eval G e >>= truth) >>= fun t =>
      (if t then ret (boolVal true) else (b.eval G e >>= truth) >>= fun t' => ret (boolVal t') : Prog K (Val K))) := by
    simp only [Expr.eval, bind_assoc']
  rw [h1, ha, hb]
  by_cases hP : P <;> by_cases hQ : Q <;> simp [ret_andThen, hP, hQ, truth, boolVal]

/-- comparison of two integers -/
theorem truth_cmp {a b : Expr K} {x y : Int} (ha : a.eval G e = ret (.int x)) (hb : b.eval G e = ret (.int y)) :
    ((Expr.bin .lt a b).eval G e >>= truth) = ret (decide (x < y)) ∧
    ((Expr.bin .gt a b).eval G e >>= truth) = ret (decide (y < x)) ∧
    ((Expr.bin .le a b).eval G e >>= truth) = ret (decide (x ≤ y)) ∧
    ((Expr.bin .ge a b).eval G e >>= truth) = ret (decide (y ≤ x)) ∧
    ((Expr.bin .eq a b).eval G e >>= truth) = ret (decide (x = y)) := by
  refine ⟨?_, ?_, ?_, ?_, ?_⟩ <;> simp only [Expr.eval, ha, hb]
  · by_cases h : x < y <;> simp [ret_andThen, ofOpt_some, binOp, intOp, truth, boolVal, h]
  · by_cases h : y < x <;> simp [ret_andThen, ofOpt_some, binOp, intOp, truth, boolVal, h]
  · by_cases h : x ≤ y <;> simp [ret_andThen, ofOpt_some, binOp, intOp, truth, boolVal, h]
  · by_cases h : y ≤ x <;> simp [ret_andThen, ofOpt_some, binOp, intOp, truth, boolVal, h]
  · by_cases h : x = y <;> simp [ret_andThen, ofOpt_some, binOp, intOp, truth, boolVal, h]

theorem eval_var {x : Ident} {v : Val K} (hx : x.1 ≠ .INFINITY) (h : e x = some v) : (Expr.var x).eval G e = ret v := by
  have hxx : x ≠ (.INFINITY, none) := fun h => hx (by rw [h])
  simp [Expr.eval, hxx, h, ofOpt]

/-- sequences are associative -/
theorem Sim.assoc {a b c : Stmt K} {p : Prog K β} {post : β → Env K} (h : Sim G F V V' e (.seq (.seq a b) c) p post) :
    Sim G F V V' e (.seq a (.seq b c)) p post := by
  intro e₁ h1 m
  have hrun : (Stmt.seq a (.seq b c)).run G F e₁ m = (Stmt.seq (.seq a b) c).run G F e₁ m := by
    simp only [Stmt.run]
    exact (congrFun (bind_assoc' _ _ _) m).symm
  rw [hrun]
  exact h e₁ h1 m

theorem Sim.assoc' {a b c : Stmt K} {p : Prog K β} {post : β → Env K} (h : Sim G F V V' e (.seq a (.seq b c)) p post) :
    Sim G F V V' e (.seq (.seq a b) c) p post := by
  intro e₁ h1 m
  have hrun : (Stmt.seq (.seq a b) c).run G F e₁ m = (Stmt.seq a (.seq b c)).run G F e₁ m := by
    simp only [Stmt.run]
    exact congrFun (bind_assoc' _ _ _) m
  rw [hrun]
  exact h e₁ h1 m

/-- a block whose declarations are not followed at its end -/
theorem Sim.blockD {s : Stmt K} {p : Prog K β} {post : β → Env K} (h : Sim G F V V' e s p post)
    (hV : ∀ x ∈ V', x ∈ V ∨ x ∈ decls s) : Sim G F V V e (.block s) p (fun b => restore (decls s) e (post b)) := by
  intro e₁ h1 m
  have h := h e₁ h1 m
  have hrun : (Stmt.block s).run G F e₁ m =
      andThen (s.run G F e₁) (fun e' => ret (restore (decls s) e₁ e')) m := rfl
  rw [hrun]
  unfold andThen
  split
  · rename_i hn; rw [hn] at h; simp only at h; rw [h]
  · rename_i b m' hs; rw [hs] at h
    obtain ⟨e₂, h2, hr⟩ := h
    rw [hr]
    refine ⟨_, ?_, rfl⟩
    intro y
    unfold CText.restore
    by_cases hy : y ∈ decls s
    · simp only [if_pos hy]; exact h1 y
    · simp only [if_neg hy]
      by_cases hyV : y ∈ V
      · rw [if_pos hyV]; exact h2.ty y
      · rw [if_neg hyV]; exact h2.get fun hh => (hV y hh).elim hyV hy

/-- `if (c) { x = ex; }` for an integer -/
theorem Sim.iteSet {x : Ident} {c ex : Expr K} {P : Prop} [Decidable P] {z : Int} {q : Prog K Int} (hx : e x = some (.int z))
    (hV : x ∉ V) (hdc : ∀ y ∈ c.vars, y ∉ V) (hdx : ∀ y ∈ ex.vars, y ∉ V) (hc : (c.eval G e >>= truth) = ret (decide P))
    (hq : P → ex.eval G e = (q >>= fun b => ret (.int b))) :
    Sim G F V V e (.ite c (.block (.assign (.var x) .set ex)) .skip) (if P then q else ret z) (fun b => upd e x (.int b)) := by
  refine Sim.ite hdc hc (fun hP => Sim.block' (Sim.set hx hV hdx ?_) rfl) fun _ => ?_
  · rw [hq hP]
    simp [aop, convert, Val.toInt, ofOpt, ret_andThen, andThen_assoc]
  · intro e₁ h1 m
    refine ⟨e₁, ?_, rfl⟩
    show Agree V e₁ (upd e x (.int z))
    rw [show upd e x (.int z) = e from funext fun y => by unfold upd; split <;> simp_all]
    exact h1

/-- one program succeeds wherever another does, with the same result -/
def PLe {β : Type} (p q : Prog K β) : Prop := ∀ m r, p m = some r → q m = some r

theorem PLe.bind {β γ : Type} {p p' : Prog K β} {f f' : β → Prog K γ} (hp : PLe p p') (hf : ∀ x, PLe (f x) (f' x)) :
    PLe (p >>= f) (p' >>= f') := by
  intro m r h
  simp only [bind_eq, andThen] at h ⊢
  cases h1 : p m with
  | none => rw [h1] at h; simp at h
  | some x =>
    rw [h1] at h
    rw [hp m x h1]
    exact hf _ _ _ h

theorem PLe.refl {β : Type} (p : Prog K β) : PLe p p := fun _ _ h => h

theorem PLe.foldN {β : Type} {f f' : Nat → β → Prog K β} (hf : ∀ i x, PLe (f i x) (f' i x)) :
    ∀ n x, PLe (foldN n x f) (foldN n x f')
  | 0, _ => PLe.refl _
  | n + 1, x => PLe.bind (PLe.foldN hf n x) fun y => hf n y

theorem PLe.loop3 {f f' : Nat → Nat → Nat → Prog K Unit} (C H W : Nat) (hf : ∀ a b c, PLe (f a b c) (f' a b c)) :
    PLe (Verif.loop3 C H W f) (Verif.loop3 C H W f') :=
  PLe.foldN (fun a _ => PLe.foldN (fun b _ => PLe.foldN (fun c _ => hf a b c) _ _) _ _) _ _

/-- evaluates expressions -/
syntax "ceval" (" [" (Lean.Parser.Tactic.simpStar <|> Lean.Parser.Tactic.simpErase <|> Lean.Parser.Tactic.simpLemma),* "]")? : tactic

macro_rules
  | `(tactic| ceval) => `(tactic| ceval [])
  | `(tactic| ceval [$ls,*]) => `(tactic| simp [Expr.eval, upd, loadAt, ret_andThen, andThen_assoc, andThen_ret, ofOpt_some, fail_andThen,
      parKind, isPrefix, binOp, intOp, fltOp, asK, Val.toK, Val.toInt, aop, convert, convertTy, truth, boolVal, std_ref, std_out, std_temp, std_par, $ls,*])

end Verif.CText

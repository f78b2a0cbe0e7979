import Verif.CText.Sem
import Verif.CMem.Lemmas

/-!
# Relating texts to programs

`Sim G F V V' e s p post`: started in any environment that agrees with `e` outside the variables `V` (and gives those
the same types), the statement `s` does to the memory exactly what the program `p` does, fails when `p` fails, and when
`p` returns `b` leaves an environment that agrees with `post b` outside `V'`.
-/

namespace Verif.CText
open Prog
set_option linter.unusedSectionVars false
set_option linter.unreachableTactic false
set_option linter.unusedTactic false

variable {K : Type} [Field K] [LinearOrder K] [FloorRing K]

def sameTy : Option (Val K) → Option (Val K) → Prop
  | some (.int _), some (.int _) => True
  | some (.flt _), some (.flt _) => True
  | some (.ptr ..), some (.ptr ..) => True
  | none, none => True
  | _, _ => False

theorem sameTy.refl (v : Option (Val K)) : sameTy v v := by
  rcases v with _ | _ | _ | _ <;> trivial

theorem sameTy.symm {u v : Option (Val K)} (h : sameTy u v) : sameTy v u := by
  rcases v with _ | _ | _ | _ <;> rcases u with _ | _ | _ | _ <;> first | trivial | exact h.elim

theorem sameTy.trans {u v w : Option (Val K)} (h : sameTy u v) (h' : sameTy v w) : sameTy u w := by
  rcases v with _ | _ | _ | _ <;> rcases u with _ | _ | _ | _ <;> rcases w with _ | _ | _ | _ <;>
    first | trivial | exact h.elim | exact h'.elim

/-- environments equal outside `V`, with the same types in `V` -/
def Agree (V : List Ident) (e e' : Env K) : Prop := ∀ x, if x ∈ V then sameTy (e x) (e' x) else e x = e' x

theorem Agree.refl (V : List Ident) (e : Env K) : Agree V e e := by
  intro x; split
  · exact sameTy.refl _
  · rfl

theorem Agree.trans {V : List Ident} {e e' e'' : Env K} (h : Agree V e e') (h' : Agree V e' e'') : Agree V e e'' := by
  intro x
  have a := h x
  have b := h' x
  split
  · rename_i hx; rw [if_pos hx] at a b; exact a.trans b
  · rename_i hx; rw [if_neg hx] at a b; exact Eq.trans a b

theorem Agree.symm {V : List Ident} {e e' : Env K} (h : Agree V e e') : Agree V e' e := by
  intro x
  have a := h x
  split
  · rename_i hx; rw [if_pos hx] at a; exact a.symm
  · rename_i hx; rw [if_neg hx] at a; exact a.symm

theorem Agree.get {V : List Ident} {e e' : Env K} (h : Agree V e e') {x : Ident} (hx : x ∉ V) : e x = e' x := by
  have a := h x
  rwa [if_neg hx] at a

theorem Agree.ty {V : List Ident} {e e' : Env K} (h : Agree V e e') (x : Ident) : sameTy (e x) (e' x) := by
  have a := h x
  split at a
  · exact a
  · rw [a]; exact sameTy.refl _

theorem Agree.upd {V : List Ident} {e e' : Env K} (h : Agree V e e') (x : Ident) (v : Val K) :
    Agree V (upd e x v) (upd e' x v) := by
  intro y
  have a := h y
  unfold CText.upd
  by_cases hy : y = x
  · simp only [if_pos hy]; split
    · exact sameTy.refl _
    · trivial
  · simp only [if_neg hy]; exact a

theorem Agree.mono {V V' : List Ident} {e e' : Env K} (h : Agree V e e') (hv : ∀ x ∈ V, x ∈ V') : Agree V' e e' := by
  intro x
  split
  · exact h.ty x
  · rename_i hx; exact h.get fun hh => hx (hv x hh)

theorem Agree.restore {V : List Ident} {e e' o o' : Env K} (h : Agree V e e') (ho : Agree V o o') (xs : List Ident) :
    Agree V (restore xs o e) (restore xs o' e') := by
  intro y
  unfold CText.restore
  by_cases hy : y ∈ xs
  · simp only [if_pos hy]; exact ho y
  · simp only [if_neg hy]; exact h y

/-- the variables an expression reads -/
def Expr.vars : Expr K → List Ident
  | .num _ | .flt _ => []
  | .var x => [x]
  | .idx true _ e | .addr _ _ e => e.vars
  | .idx false x e => x :: e.vars
  | .neg a | .call1 _ a => a.vars
  | .bin _ a b | .land a b | .lor a b | .call2 _ a b => a.vars ++ b.vars
  | .cond c a b => c.vars ++ (a.vars ++ b.vars)

def Disj (xs V : List Ident) : Prop := ∀ x ∈ xs, x ∉ V

theorem Disj.nil (V : List Ident) : Disj [] V := by intro x hx; cases hx

theorem isFlt_congr (G : Globals K) {e e' : Env K} (ex : Expr K) (h : ∀ x, sameTy (e x) (e' x)) :
    isFlt G e ex = isFlt G e' ex := by
  induction ex with
  | var x =>
    have := h x
    unfold isFlt
    rcases h1 : e x with _ | _ | _ | _ <;> rcases h2 : e' x with _ | _ | _ | _ <;> rw [h1, h2] at this <;>
      first | rfl | exact this.elim
  | num | flt | idx | addr | land | lor | call1 | call2 => rfl
  | neg a ih => simpa [isFlt] using ih
  | bin o a b iha ihb => cases o <;> simp [isFlt, iha, ihb]
  | cond c a b _ iha ihb => simp [isFlt, iha, ihb]

theorem eval_congr (G : Globals K) {V : List Ident} {e e' : Env K} (h : Agree V e e') (ex : Expr K)
    (hd : ∀ x ∈ ex.vars, x ∉ V) : ex.eval G e = ex.eval G e' := by
  induction ex with
  | num | flt => rfl
  | var x => simp only [Expr.eval]; rw [h.get (hd x (by simp [Expr.vars]))]
  | idx c x a ih =>
    cases c with
    | false =>
      simp only [Expr.eval]
      rw [ih fun y hy => hd y (by simp [Expr.vars, hy]), h.get (hd x (by simp [Expr.vars]))]
    | true =>
      simp only [Expr.eval]
      rw [ih fun y hy => hd y (by simp [Expr.vars, hy])]
  | addr c x a ih =>
    simp only [Expr.eval]
    rw [ih fun y hy => hd y (by simp [Expr.vars, hy])]
  | neg a ih =>
    simp only [Expr.eval]
    rw [ih hd]
  | bin o a b iha ihb =>
    simp only [Expr.eval]
    rw [iha fun y hy => hd y (by simp [Expr.vars, hy]), ihb fun y hy => hd y (by simp [Expr.vars, hy])]
  | land a b iha ihb =>
    simp only [Expr.eval]
    rw [iha fun y hy => hd y (by simp [Expr.vars, hy]), ihb fun y hy => hd y (by simp [Expr.vars, hy])]
  | lor a b iha ihb =>
    simp only [Expr.eval]
    rw [iha fun y hy => hd y (by simp [Expr.vars, hy]), ihb fun y hy => hd y (by simp [Expr.vars, hy])]
  | cond c a b ihc iha ihb =>
    simp only [Expr.eval]
    rw [ihc fun y hy => hd y (by simp [Expr.vars, hy]), iha fun y hy => hd y (by simp [Expr.vars, hy]),
      ihb fun y hy => hd y (by simp [Expr.vars, hy]), isFlt_congr G a h.ty, isFlt_congr G b h.ty]
  | call1 f a ih =>
    simp only [Expr.eval]
    rw [ih hd]
  | call2 f a b iha ihb =>
    simp only [Expr.eval]
    rw [iha fun y hy => hd y (by simp [Expr.vars, hy]), ihb fun y hy => hd y (by simp [Expr.vars, hy])]

/-- see the head of the file -/
def Sim (G : Globals K) (F : Nat) (V V' : List Ident) (e : Env K) (s : Stmt K) {β : Type} (p : Prog K β)
    (post : β → Env K) : Prop :=
  ∀ e₁, Agree V e₁ e → ∀ m, match p m with
    | none => s.run G F e₁ m = none
    | some (b, m') => ∃ e₂, Agree V' e₂ (post b) ∧ s.run G F e₁ m = some (e₂, m')

variable {G : Globals K} {F : Nat} {V V' V'' : List Ident} {e : Env K} {β γ : Type}

theorem Sim.weaken {s : Stmt K} {p : Prog K β} {post post' : β → Env K} (h : Sim G F V V' e s p post)
    (hp : ∀ b, Agree V'' (post b) (post' b)) (hV : ∀ x ∈ V', x ∈ V'') : Sim G F V V'' e s p post' := by
  intro e₁ h1 m
  have := h e₁ h1 m
  split
  · rename_i hn; rw [hn] at this; exact this
  · rename_i b m' hs; rw [hs] at this
    obtain ⟨e₂, a, r⟩ := this
    exact ⟨e₂, (a.mono hV).trans (hp b), r⟩

theorem Sim.start {s : Stmt K} {p : Prog K β} {e' : Env K} {post : β → Env K} (h : Sim G F V V' e' s p post)
    (hp : Agree V e e') : Sim G F V V' e s p post :=
  fun e₁ h1 m => h e₁ (h1.trans hp) m

/-- a statement that is a function of the environment -/
theorem Sim.of_run {s : Stmt K} {p : Prog K β} {post : β → Env K}
    (h : ∀ e₁, Agree V e₁ e → ∃ post₁ : β → Env K, (∀ b, Agree V (post₁ b) (post b)) ∧
      s.run G F e₁ = andThen p fun b => ret (post₁ b)) : Sim G F V V e s p post := by
  intro e₁ h1 m
  obtain ⟨post₁, hp, hr⟩ := h e₁ h1
  rw [hr]
  unfold andThen
  split
  · rename_i hn; rw [hn]
  · rename_i b m' hs; rw [hs]; exact ⟨_, hp b, rfl⟩

theorem Sim.skip : Sim G F V V e .skip (ret () : Prog K Unit) (fun _ => e) :=
  fun e₁ h1 _ => ⟨e₁, h1, rfl⟩

theorem Sim.seq {a b : Stmt K} {p : Prog K β} {q : β → Prog K γ} {mid : β → Env K} {post : γ → Env K}
    (ha : Sim G F V V' e a p mid) (hb : ∀ x, Sim G F V' V'' (mid x) b (q x) post) :
    Sim G F V V'' e (.seq a b) (p >>= q) post := by
  intro e₁ h1 m
  have h := ha e₁ h1 m
  have hpq : (p >>= q) m = andThen p q m := rfl
  rw [hpq]
  have hrun : (Stmt.seq a b).run G F e₁ m = andThen (a.run G F e₁) (fun e' => b.run G F e') m := rfl
  rw [hrun]
  unfold andThen
  cases hp : p m with
  | none => rw [hp] at h; simp only; rw [h]
  | some r =>
    obtain ⟨x, m'⟩ := r
    rw [hp] at h
    obtain ⟨e₂, h2, hr⟩ := h
    simp only
    rw [hr]
    exact hb x e₂ h2 m'

theorem Sim.block {s : Stmt K} {p : Prog K β} {post : β → Env K} (h : Sim G F V V' e s p post)
    (hV : ∀ x ∈ V, x ∈ V') : Sim G F V V' e (.block s) p (fun b => restore (decls s) e (post b)) := by
  intro e₁ h1 m
  have h := h e₁ h1 m
  have hrun : (Stmt.block s).run G F e₁ m =
      andThen (s.run G F e₁) (fun e' => ret (restore (decls s) e₁ e')) m := rfl
  rw [hrun]
  unfold andThen
  split
  · rename_i hn; rw [hn] at h; simp only at h; rw [h]
  · rename_i b m' hs; rw [hs] at h
    obtain ⟨e₂, h2, hr⟩ := h
    rw [hr]
    exact ⟨_, h2.restore (h1.mono hV) _, rfl⟩

/-- a block without declarations -/
theorem Sim.block' {s : Stmt K} {p : Prog K β} {post : β → Env K} (h : Sim G F V V' e s p post) (hd : decls s = []) :
    Sim G F V V' e (.block s) p post := by
  intro e₁ h1 m
  have h := h e₁ h1 m
  have hrun : (Stmt.block s).run G F e₁ m =
      andThen (s.run G F e₁) (fun e' => ret (restore (decls s) e₁ e')) m := rfl
  have hr0 : ∀ e' : Env K, restore [] e₁ e' = e' := by intro e'; funext y; simp [restore]
  rw [hrun, hd]
  unfold andThen
  split
  · rename_i hn; rw [hn] at h; simp only at h; rw [h]
  · rename_i b m' hs; rw [hs] at h
    obtain ⟨e₂, h2, hr⟩ := h
    rw [hr]
    refine ⟨e₂, h2, ?_⟩
    simp only [hr0, ret]

/-- the counted loop `for (x = 0; x < n; ++x)` (or `x++`) -/
abbrev loop (x : Ident) (n : Nat) (b : Stmt K) : Stmt K :=
  .for_ (.assign (.var x) .set (.num 0)) (.bin .lt (.var x) (.num n)) (.incr x) b

def IsInt (e : Env K) (x : Ident) : Prop := sameTy (e x) (some (.int 0))

theorem isInt_get {e : Env K} {x : Ident} (h : IsInt e x) : ∃ z, e x = some (.int z) := by
  unfold IsInt at h
  rcases h1 : e x with _ | z | _ | _ <;> rw [h1] at h
  · exact h.elim
  · exact ⟨z, rfl⟩
  · exact h.elim
  · exact h.elim

theorem upd_same (e : Env K) (x : Ident) (v : Val K) : upd e x v x = some v := by simp [upd]

theorem upd_upd (e : Env K) (x : Ident) (u v : Val K) : upd (upd e x u) x v = upd e x v := by
  funext y; unfold upd; split <;> rfl

theorem foldN_head {β : Type} (N : Nat) (init : β) (step : Nat → β → Prog K β) :
    foldN (N + 1) init step = andThen (step 0 init) fun a => foldN N a fun i => step (i + 1) := by
  induction N with
  | zero =>
    funext m
    simp only [foldN, andThen, ret]
    cases step 0 init m <;> rfl
  | succ N ih =>
    rw [foldN, ih]
    funext m
    simp only [andThen, foldN]
    cases step 0 init m with
    | none => rfl
    | some r => rfl

/-- The rule for counted loops: `base a` is the environment when the program's accumulator is `a`. -/
theorem Sim.fold {x : Ident} {N : Nat} {b : Stmt K} {init : β} {step : Nat → β → Prog K β} {base : β → Env K}
    (hx : x.1 ≠ .INFINITY) (hV : x ∈ V) (hF : N < F) (hint : ∀ a, IsInt (base a) x)
    (hb : ∀ i, i < N → ∀ a, Sim G F (V.filter (· ≠ x)) (V.filter (· ≠ x)) (upd (base a) x (.int i)) b (step i a)
      (fun a' => upd (base a') x (.int i))) :
    Sim G F V V (base init) (loop x N b) (foldN N init step) base := by
  have hxx : x ≠ (.INFINITY, none) := fun h => hx (by rw [h])
  -- the loop from iteration `i` on
  have key : ∀ n F' i (a : β), i + n = N → n < F' → ∀ e₁, Agree (V.filter (· ≠ x)) e₁ (upd (base a) x (.int i)) → ∀ m,
      match foldN n a (fun k => step (i + k)) m with
      | none => iterate (fun env => (Expr.bin .lt (.var x) (.num N)).eval G env >>= truth)
          (fun env => b.run G F env >>= (Stmt.incr x).run G F) F' e₁ m = none
      | some (a', m') => ∃ e₂, Agree V e₂ (base a') ∧
          iterate (fun env => (Expr.bin .lt (.var x) (.num N)).eval G env >>= truth)
            (fun env => b.run G F env >>= (Stmt.incr x).run G F) F' e₁ m = some (e₂, m') := by
    intro n
    induction n with
    | zero =>
      intro F' i a hi hF' e₁ he m
      obtain ⟨F', rfl⟩ : ∃ k, F' = k + 1 := ⟨F' - 1, by omega⟩
      have hxe : e₁ x = some (.int i) := by
        rw [he.get (by simp), upd_same]
      refine ⟨e₁, ?_, ?_⟩
      · intro y
        by_cases hy : y = x
        · subst hy
          rw [if_pos hV, hxe]
          obtain ⟨z, hz⟩ := isInt_get (hint a)
          rw [hz]; trivial
        · have := he y
          simp only [List.mem_filter, ne_eq, decide_not, hy, decide_false, Bool.not_false, and_true] at this
          rwa [show upd (base a) x (.int i) y = base a y by simp [upd, hy]] at this
      · have hc : ((Expr.bin .lt (.var x) (.num N)).eval G e₁ >>= truth : Prog K Bool) m = some (false, m) := by
          show andThen _ truth m = _
          simp only [Expr.eval, if_neg hxx, hxe]
          show andThen (andThen (ret _) fun u => andThen (ret _) fun v => ofOpt (binOp .lt u v)) truth m = _
          simp [andThen, ret, ofOpt, binOp, intOp, truth, boolVal, show ¬ i < N by omega]
        show andThen _ _ m = _
        unfold andThen
        rw [hc]
        rfl
    | succ n ih =>
      intro F' i a hi hF' e₁ he m
      obtain ⟨F', rfl⟩ : ∃ k, F' = k + 1 := ⟨F' - 1, by omega⟩
      have hxe : e₁ x = some (.int i) := by
        rw [he.get (by simp), upd_same]
      have hc : ((Expr.bin .lt (.var x) (.num N)).eval G e₁ >>= truth : Prog K Bool) m = some (true, m) := by
        show andThen _ truth m = _
        simp only [Expr.eval, if_neg hxx, hxe]
        show andThen (andThen (ret _) fun u => andThen (ret _) fun v => ofOpt (binOp .lt u v)) truth m = _
        simp [andThen, ret, ofOpt, binOp, intOp, truth, boolVal, show i < N by omega]
      have hit : iterate (fun env => (Expr.bin .lt (.var x) (.num N)).eval G env >>= truth)
          (fun env => b.run G F env >>= (Stmt.incr x).run G F) (F' + 1) e₁ m =
          andThen (andThen (b.run G F e₁) ((Stmt.incr x).run G F))
            (iterate (fun env => (Expr.bin .lt (.var x) (.num N)).eval G env >>= truth)
              (fun env => b.run G F env >>= (Stmt.incr x).run G F) F') m := by
        show andThen _ _ m = _
        rw [andThen, hc]
        rfl
      rw [hit]
      rw [show (foldN (n + 1) a (fun k => step (i + k))) = _ from foldN_head n a _]
      have hbody := hb i (by omega) a e₁ he m
      have e0 : step (i + 0) a = step i a := rfl
      unfold andThen
      rw [e0]
      cases hs : step i a m with
      | none => rw [hs] at hbody; simp only at hbody ⊢; rw [hbody]
      | some r =>
        obtain ⟨a', m'⟩ := r
        rw [hs] at hbody
        obtain ⟨e₂, h2, hr⟩ := hbody
        simp only
        rw [hr]
        have hx2 : e₂ x = some (.int i) := by rw [h2.get (by simp)]; exact upd_same _ _ _
        have hinc : (Stmt.incr x).run G F e₂ m' = some (upd e₂ x (.int ((i : Int) + 1)), m') := by
          simp only [Stmt.run, hx2]; rfl
        simp only [hinc]
        have hag : Agree (V.filter (· ≠ x)) (upd e₂ x (.int ((i : Int) + 1))) (upd (base a') x (.int ((i + 1 : Nat) : Int))) := by
          have h3 := h2.upd x (.int ((i : Int) + 1))
          rwa [upd_upd] at h3
        have := ih F' (i + 1) a' (by omega) (by omega) _ hag m'
        have hstep : (fun k => step (i + 1 + k)) = fun k => step (i + (k + 1)) := by
          funext k; rw [show i + 1 + k = i + (k + 1) by omega]
        rw [hstep] at this
        exact this
  intro e₁ h1 m
  obtain ⟨z, hz⟩ : ∃ z, e₁ x = some (.int z) := by
    apply isInt_get
    exact (h1.ty x).trans (hint init)
  have hi0 : (Stmt.assign (.var x) .set (.num 0) : Stmt K).run G F e₁ m = some (upd e₁ x (.int 0), m) := by
    simp only [Stmt.run, Expr.eval, assignTo]
    show andThen (ret _) _ m = _
    simp only [andThen, ret, hz]
    rfl
  have hag : Agree (V.filter (· ≠ x)) (upd e₁ x (.int 0)) (upd (base init) x (.int (0 : Nat))) := by
    intro y
    by_cases hy : y = x
    · subst hy
      rw [if_neg (by simp), upd_same, upd_same]; rfl
    · have h := h1 y
      simp only [upd, hy, if_false, List.mem_filter, ne_eq, decide_not, decide_false, Bool.not_false, and_true]
      exact h
  have hk := key N F 0 init (by omega) hF _ hag m
  simp only [Nat.zero_add] at hk
  have hrun : (loop x N b).run G F e₁ m =
      andThen (iterate (fun env => (Expr.bin .lt (.var x) (.num N)).eval G env >>= truth)
        (fun env => b.run G F env >>= (Stmt.incr x).run G F) F (upd e₁ x (.int 0)))
        (fun env1 => ret (restore [] e₁ env1)) m := by
    show andThen ((Stmt.assign (.var x) .set (.num 0) : Stmt K).run G F e₁) _ m = _
    rw [andThen, hi0]
    rfl
  rw [hrun]
  cases hf : foldN N init step m with
  | none => rw [hf] at hk; simp only at hk ⊢; rw [andThen, hk]
  | some r =>
    obtain ⟨a', m'⟩ := r
    rw [hf] at hk
    obtain ⟨e₂, h2, hr⟩ := hk
    refine ⟨e₂, h2, ?_⟩
    rw [andThen, hr]
    have : restore [] e₁ e₂ = e₂ := by funext y; simp [restore]
    simp only [this]; rfl

/-- counted loop without accumulator -/
theorem Sim.for {x : Ident} {N : Nat} {b : Stmt K} {body : Nat → Prog K Unit}
    (hx : x.1 ≠ .INFINITY) (hV : x ∈ V) (hF : N < F) (hint : IsInt e x)
    (hb : ∀ i, i < N → Sim G F (V.filter (· ≠ x)) (V.filter (· ≠ x)) (upd e x (.int i)) b (body i) (fun _ => upd e x (.int i))) :
    Sim G F V V e (loop x N b) (forN N body) (fun _ => e) :=
  Sim.fold (base := fun _ : Unit => e) hx hV hF (fun _ => hint) (fun i hi _ => hb i hi)

/-- `b[a] = v;` -/
theorem Sim.store {c : Bool} {x : Ident} {a ex : Expr K} {b : Buf} {za : Int} {q : Prog K K}
    (hbuf : G.buf c x = some b) (hda : ∀ y ∈ a.vars, y ∉ V) (hdx : ∀ y ∈ ex.vars, y ∉ V)
    (ha : a.eval G e = ret (.int za)) (hq : (ex.eval G e >>= asK) = q) :
    Sim G F V V e (.assign (.idx c x a) .set ex) (q >>= fun v => Prog.store b za v) (fun _ => e) := by
  apply Sim.of_run
  intro e₁ h1
  refine ⟨fun _ => e₁, fun _ => h1, ?_⟩
  subst hq
  simp only [Stmt.run, assignTo]
  rw [eval_congr G h1 ex hdx, eval_congr G h1 a hda, ha]
  funext m
  show andThen (ex.eval G e) _ m = andThen (andThen (andThen (ex.eval G e) asK) _) _ m
  unfold andThen
  cases ex.eval G e m with
  | none => rfl
  | some r =>
    obtain ⟨v, m'⟩ := r
    simp only [place, hbuf]
    show andThen (ret _) _ m' = _
    simp only [andThen, ret]
    show andThen (ret _) _ m' = _
    simp only [andThen, ret]
    show andThen (asK v) _ m' = _
    unfold andThen
    cases asK v m' with
    | none => rfl
    | some r => rfl

/-- `b[a] += v;` and `b[a] *= v;` -/
theorem Sim.storeOp {c : Bool} {x : Ident} {a ex : Expr K} {b : Buf} {za : Int} {o : AOp} {f : K → K → K} {q : Prog K K}
    (ho : o ≠ .set) (hbuf : G.buf c x = some b) (hda : ∀ y ∈ a.vars, y ∉ V) (hdx : ∀ y ∈ ex.vars, y ∉ V)
    (ha : a.eval G e = ret (.int za)) (hq : ex.eval G e = (q >>= fun v => ret (.flt v)))
    (hf : ∀ u v, aop o (.flt u) (.flt v) = some (.flt (f u v))) :
    Sim G F V V e (.assign (.idx c x a) o ex) (q >>= fun v => load b za >>= fun u => Prog.store b za (f u v)) (fun _ => e) := by
  apply Sim.of_run
  intro e₁ h1
  refine ⟨fun _ => e₁, fun _ => h1, ?_⟩
  simp only [Stmt.run, assignTo]
  rw [eval_congr G h1 ex hdx, eval_congr G h1 a hda, ha, hq]
  funext m
  show andThen (andThen q _) _ m = andThen (andThen q _) _ m
  unfold andThen
  cases q m with
  | none => rfl
  | some r =>
    obtain ⟨v, m'⟩ := r
    simp only [place, hbuf, ret]
    show andThen (ret _) _ m' = _
    simp only [andThen, ret]
    show andThen (ret _) _ m' = _
    simp only [andThen, ret]
    cases o with
    | set => exact absurd rfl ho
    | add =>
      show andThen (load b za) _ m' = _
      unfold andThen
      simp only
      cases hl : load b za m' with
      | none => simp [bind, andThen, hl]
      | some r =>
        obtain ⟨u, m2⟩ := r
        simp only [hf, ofOpt, bind, andThen, ret, asK, Val.toK, hl]
    | mul =>
      show andThen (load b za) _ m' = _
      unfold andThen
      simp only
      cases hl : load b za m' with
      | none => simp [bind, andThen, hl]
      | some r =>
        obtain ⟨u, m2⟩ := r
        simp only [hf, ofOpt, bind, andThen, ret, asK, Val.toK, hl]

/-- assignment of a local variable: `val` is the value after conversion to the variable's type -/
theorem Sim.set {x : Ident} {o : AOp} {ex : Expr K} {q : Prog K β} {old : Val K} {val : β → Val K}
    (hold : e x = some old) (hxV : x ∉ V) (hdx : ∀ y ∈ ex.vars, y ∉ V)
    (hq : (ex.eval G e >>= fun v => ofOpt ((aop o old v).bind (convert old))) = (q >>= fun b => ret (val b))) :
    Sim G F V V e (.assign (.var x) o ex) q (fun b => upd e x (val b)) := by
  apply Sim.of_run
  intro e₁ h1
  refine ⟨fun b => upd e₁ x (val b), fun _ => h1.upd x _, ?_⟩
  simp only [Stmt.run, assignTo]
  rw [eval_congr G h1 ex hdx, h1.get hxV, hold]
  funext m
  have hq' := congrFun hq m
  simp only [bind] at hq' ⊢
  unfold andThen at hq' ⊢
  cases hv : ex.eval G e m with
  | none =>
    rw [hv] at hq'
    cases hqm : q m with
    | none => rfl
    | some r => rw [hqm] at hq'; simp [ret] at hq'
  | some r =>
    obtain ⟨v, m'⟩ := r
    rw [hv] at hq'
    simp only at hq' ⊢
    cases hqm : q m with
    | none =>
      rw [hqm] at hq'
      simp only at hq' ⊢
      cases h1 : aop o old v with
      | none => rfl
      | some r =>
        rw [h1] at hq'
        simp only [ofOpt, Option.bind_some, ret] at hq' ⊢
        cases h2 : convert old r with
        | none => rfl
        | some r' => rw [h2] at hq'; simp [ret] at hq'
    | some r =>
      obtain ⟨bb, m2⟩ := r
      rw [hqm] at hq'
      simp only at hq' ⊢
      cases h1 : aop o old v with
      | none => rw [h1] at hq'; simp [ofOpt, fail, ret] at hq'
      | some r =>
        rw [h1] at hq'
        simp only [ofOpt, Option.bind_some, ret] at hq' ⊢
        cases h2 : convert old r with
        | none => rw [h2] at hq'; simp [fail] at hq'
        | some r' =>
          rw [h2] at hq'
          simp only [ret, Option.some.injEq, Prod.mk.injEq] at hq' ⊢
          obtain ⟨h3, h4⟩ := hq'
          exact ⟨by rw [h3], h4⟩

/-- a declaration -/
theorem Sim.decl {t : Ty} {x : Ident} {ex : Expr K} {q : Prog K β} {val : β → Val K}
    (hdx : ∀ y ∈ ex.vars, y ∉ V)
    (hq : (ex.eval G e >>= fun v => ofOpt (convertTy t v)) = (q >>= fun b => ret (val b))) :
    Sim G F V V e (.decl t x ex) q (fun b => upd e x (val b)) := by
  apply Sim.of_run
  intro e₁ h1
  refine ⟨fun b => upd e₁ x (val b), fun _ => h1.upd x _, ?_⟩
  simp only [Stmt.run]
  rw [eval_congr G h1 ex hdx]
  funext m
  have hq' := congrFun hq m
  simp only [bind] at hq' ⊢
  unfold andThen at hq' ⊢
  cases hv : ex.eval G e m with
  | none =>
    rw [hv] at hq'
    cases hqm : q m with
    | none => rfl
    | some r => rw [hqm] at hq'; simp [ret] at hq'
  | some r =>
    obtain ⟨v, m'⟩ := r
    rw [hv] at hq'
    simp only at hq' ⊢
    cases h2 : convertTy t v with
    | none =>
      rw [h2] at hq'
      simp only [ofOpt, fail] at hq' ⊢
      cases hqm : q m with
      | none => rfl
      | some r => rw [hqm] at hq'; simp [ret] at hq'
    | some r' =>
      rw [h2] at hq'
      simp only [ofOpt, ret] at hq' ⊢
      cases hqm : q m with
      | none => rw [hqm] at hq'; simp at hq'
      | some r =>
        obtain ⟨bb, m2⟩ := r
        rw [hqm] at hq'
        simp only [Option.some.injEq, Prod.mk.injEq] at hq' ⊢
        obtain ⟨h3, h4⟩ := hq'
        exact ⟨by rw [h3], h4⟩

/-- a conditional statement whose condition is computed without touching the memory -/
theorem Sim.ite {c : Expr K} {a b : Stmt K} {P : Prop} [Decidable P] {p q : Prog K β} {post : β → Env K}
    (hd : ∀ y ∈ c.vars, y ∉ V) (hc : (c.eval G e >>= truth) = ret (decide P))
    (ha : P → Sim G F V V' e a p post) (hb : ¬ P → Sim G F V V' e b q post) :
    Sim G F V V' e (.ite c a b) (if P then p else q) post := by
  intro e₁ h1 m
  have hrun : (Stmt.ite c a b).run G F e₁ m = (if P then a.run G F e₁ else b.run G F e₁) m := by
    simp only [Stmt.run]
    rw [eval_congr G h1 c hd]
    have hc' := congrFun hc m
    simp only [bind] at hc' ⊢
    unfold andThen at hc' ⊢
    cases hv : c.eval G e m with
    | none => rw [hv] at hc'; simp [ret] at hc'
    | some r =>
      obtain ⟨v, m'⟩ := r
      rw [hv] at hc'
      simp only at hc' ⊢
      rw [hc']
      simp only [ret]
      by_cases hP : P <;> simp [hP]
  rw [hrun]
  by_cases hP : P
  · simp only [hP, if_true]; exact ha hP e₁ h1 m
  · simp only [hP, if_false]; exact hb hP e₁ h1 m

end Verif.CText

import Verif.CText.DirectCode
import Verif.CText.Rules
import Verif.CText.StdGemm

/-!
# Rules for loops that declare their counter, blocks with declarations, and pointers
-/

namespace Verif.CText
open Prog Layers
set_option linter.unusedSectionVars false
variable {K : Type} [Field K] [LinearOrder K] [FloorRing K]
variable {G : Globals K} {F : Nat} {V V' : List Ident} {e : Env K} {β γ : Type}

/-- a block whose declarations are the only variables it changes -/
theorem Sim.scope {s : Stmt K} {p : Prog K β} {e' : Env K} (h : Sim G F V V' e s p (fun _ => e'))
    (hV : ∀ x ∈ V', x ∈ V ∨ x ∈ decls s) (he : ∀ y, y ∉ decls s → e' y = e y) : Sim G F V V e (.block s) p (fun _ => e) := by
  refine (Sim.blockD h hV).weaken (fun _ => Agree.of_eq ?_) (fun _ h => h)
  funext y
  unfold restore
  split
  · rfl
  · exact he y ‹_›

/-- a declaration whose value is known, then the rest of the block -/
theorem Sim.declThen {t : Ty} {x : Ident} {ex : Expr K} {s : Stmt K} {v : Val K} {p : Prog K β} {post : β → Env K}
    (hdx : ∀ y ∈ ex.vars, y ∉ V) (hv : (ex.eval G e >>= fun v => ofOpt (convertTy t v)) = ret v)
    (h : Sim G F (V.filter (· ≠ x)) V' (upd e x v) s p post) : Sim G F V V' e (.seq (.decl t x ex) s) p post :=
  Sim.seq' (x := ()) (Sim.declF (q := ret ()) (val := fun _ => v) hdx (by rw [hv]; rfl)) h

/-- `for (int x = lo; x < hi; ++x)` whose bounds are known -/
theorem Sim.forD {x : Ident} {lo hi : Expr K} {zlo zhi : Int} {b : Stmt K} {body : Int → Prog K Unit}
    (hx : x.1 ≠ .INFINITY) (hlo : ∀ y ∈ lo.vars, y ∉ V) (hhi : ∀ y ∈ hi.vars, y ∉ V)
    (elo : lo.eval G e = ret (.int zlo)) (ehi : ∀ z, hi.eval G (upd e x (.int z)) = ret (.int zhi)) (hF : (zhi - zlo).toNat < F)
    (hb : ∀ z, zlo ≤ z → z < zhi → Sim G F (V.filter (· ≠ x)) (V.filter (· ≠ x)) (upd e x (.int z)) b (body z) (fun _ => upd e x (.int z))) :
    Sim G F V V e (loopD x lo hi b) (forRange zlo zhi body) (fun _ => e) := by
  have hxx : x ≠ (.INFINITY, none) := fun h => hx (by rw [h])
  have hhi' : ∀ y ∈ hi.vars, y ∉ V.filter (· ≠ x) := fun y hy h => hhi y hy (List.mem_filter.1 h).1
  have hcond : ∀ z e₁, Agree (V.filter (· ≠ x)) e₁ (upd e x (.int z)) → ∀ m,
      ((Expr.bin .lt (.var x) hi).eval G e₁ >>= truth : Prog K Bool) m = some (decide (z < zhi), m) := by
    intro z e₁ he m
    have hxe : e₁ x = some (.int z) := by rw [he.get (by simp), upd_same]
    have := (truth_cmp (G := G) (e := e₁) (a := .var x) (b := hi) (x := z) (y := zhi) (eval_var hx hxe)
      (by rw [eval_congr G he hi hhi']; exact ehi z)).1
    rw [this]; rfl
  have key : ∀ n F' (z : Int), (zhi - z).toNat = n → zlo ≤ z → n < F' → ∀ e₁, Agree (V.filter (· ≠ x)) e₁ (upd e x (.int z)) → ∀ m,
      match forN n (fun k => body (z + k)) m with
      | none => iterate (fun env => (Expr.bin .lt (.var x) hi).eval G env >>= truth)
          (fun env => b.run G F env >>= (Stmt.incr x).run G F) F' e₁ m = none
      | some (_, m') => ∃ e₂, (∀ y, y ≠ x → if y ∈ V then sameTy (e₂ y) (e y) else e₂ y = e y) ∧
          iterate (fun env => (Expr.bin .lt (.var x) hi).eval G env >>= truth)
            (fun env => b.run G F env >>= (Stmt.incr x).run G F) F' e₁ m = some (e₂, m') := by
    intro n
    induction n with
    | zero =>
      intro F' z hz hlo' hF' e₁ he m
      obtain ⟨F', rfl⟩ : ∃ k, F' = k + 1 := ⟨F' - 1, by omega⟩
      refine ⟨e₁, ?_, ?_⟩
      · intro y hy
        have := he y
        simp only [List.mem_filter, ne_eq, decide_not, hy, decide_false, Bool.not_false, and_true] at this
        rwa [show upd e x (.int z) y = e y by simp [upd, hy]] at this
      · have hc := hcond z e₁ he m
        rw [decide_eq_false (by omega)] at hc
        show andThen _ _ m = _
        unfold andThen
        rw [hc]
        rfl
    | succ n ih =>
      intro F' z hz hlo' hF' e₁ he m
      obtain ⟨F', rfl⟩ : ∃ k, F' = k + 1 := ⟨F' - 1, by omega⟩
      have hc := hcond z e₁ he m
      rw [decide_eq_true (by omega)] at hc
      have hit : iterate (fun env => (Expr.bin .lt (.var x) hi).eval G env >>= truth)
          (fun env => b.run G F env >>= (Stmt.incr x).run G F) (F' + 1) e₁ m =
          andThen (andThen (b.run G F e₁) ((Stmt.incr x).run G F))
            (iterate (fun env => (Expr.bin .lt (.var x) hi).eval G env >>= truth)
              (fun env => b.run G F env >>= (Stmt.incr x).run G F) F') m := by
        show andThen _ _ m = _
        rw [andThen, hc]
        rfl
      rw [hit]
      rw [show (forN (n + 1) (fun k => body (z + k)) : Prog K Unit) = _ from foldN_head n () _]
      have hbody := hb z hlo' (by omega) e₁ he m
      have e0 : (fun k : Nat => body (z + k)) 0 = body z := by simp
      unfold andThen
      rw [e0]
      cases hs : body z m with
      | none => rw [hs] at hbody; simp only at hbody ⊢; rw [hbody]
      | some r =>
        obtain ⟨a', m'⟩ := r
        rw [hs] at hbody
        obtain ⟨e₂, h2, hr⟩ := hbody
        simp only
        rw [hr]
        have hx2 : e₂ x = some (.int z) := by rw [h2.get (by simp)]; exact upd_same _ _ _
        have hinc : (Stmt.incr x).run G F e₂ m' = some (upd e₂ x (.int (z + 1)), m') := by
          simp only [Stmt.run, hx2]; rfl
        simp only [hinc]
        have hag : Agree (V.filter (· ≠ x)) (upd e₂ x (.int (z + 1))) (upd e x (.int (z + 1))) := by
          have h3 := h2.upd x (.int (z + 1))
          rwa [upd_upd] at h3
        have := ih F' (z + 1) (by omega) (by omega) (by omega) _ hag m'
        have hstep : (fun k : Nat => body (z + 1 + k)) = fun k : Nat => body (z + (k + 1 : Nat)) := by
          funext k; congr 1; push_cast; ring
        rw [hstep] at this
        exact this
  intro e₁ h1 m
  have hi0 : (Stmt.decl .int x lo : Stmt K).run G F e₁ m = some (upd e₁ x (.int zlo), m) := by
    simp only [Stmt.run]
    rw [eval_congr G h1 lo hlo, elo]
    rfl
  have hag : Agree (V.filter (· ≠ x)) (upd e₁ x (.int zlo)) (upd e x (.int zlo)) := by
    intro y
    by_cases hy : y = x
    · subst hy
      rw [if_neg (by simp), upd_same, upd_same]
    · have h := h1 y
      simp only [upd, hy, if_false, List.mem_filter, ne_eq, decide_not, decide_false, Bool.not_false, and_true]
      exact h
  have hk := key _ F zlo rfl (le_refl _) hF _ hag m
  have hrun : (loopD x lo hi b).run G F e₁ m =
      andThen (iterate (fun env => (Expr.bin .lt (.var x) hi).eval G env >>= truth)
        (fun env => b.run G F env >>= (Stmt.incr x).run G F) F (upd e₁ x (.int zlo)))
        (fun env1 => ret (restore [x] e₁ env1)) m := by
    show andThen ((Stmt.decl .int x lo : Stmt K).run G F e₁) _ m = _
    rw [andThen, hi0]
    rfl
  rw [hrun]
  unfold forRange
  cases hf : (forN (zhi - zlo).toNat fun t => body (zlo + t)) m with
  | none => rw [hf] at hk; simp only at hk ⊢; rw [andThen, hk]
  | some r =>
    obtain ⟨a', m'⟩ := r
    rw [hf] at hk
    obtain ⟨e₂, h2, hr⟩ := hk
    refine ⟨restore [x] e₁ e₂, ?_, ?_⟩
    · intro y
      by_cases hy : y = x
      · subst hy; simpa [restore] using h1 y
      · simpa [restore, hy] using h2 y hy
    · rw [andThen, hr]; rfl

theorem forRange_nat (N : Nat) (body : Int → Prog K Unit) : forRange 0 N body = forN N fun t => body t := by
  unfold forRange
  simp

/-- `for (int x = 0; x < N; ++x)` -/
theorem Sim.forD0 {x : Ident} {N : Nat} {b : Stmt K} {body : Nat → Prog K Unit}
    (hx : x.1 ≠ .INFINITY) (hF : N < F)
    (hb : ∀ i, i < N → Sim G F (V.filter (· ≠ x)) (V.filter (· ≠ x)) (upd e x (.int i)) b (body i) (fun _ => upd e x (.int i))) :
    Sim G F V V e (loopD x (.num 0) (.num N) b) (forN N body) (fun _ => e) := by
  have := Sim.forD (G := G) (F := F) (V := V) (e := e) (x := x) (lo := .num 0) (hi := .num N) (zlo := 0) (zhi := N) (b := b)
    (body := fun z => body z.toNat) hx (by simp [Expr.vars]) (by simp [Expr.vars]) rfl (fun _ => rfl) (by omega)
    fun z h0 h1 => by
      have := hb z.toNat (by omega)
      rwa [Int.toNat_of_nonneg h0] at this
  rw [forRange_nat] at this
  simpa using this

/-- `x[a] = v;` where `x` is a pointer -/
theorem Sim.storeP {x : Ident} {a ex : Expr K} {b : Buf} {o za : Int} {q : Prog K K}
    (hbuf : G.buf false x = none) (hp : e x = some (.ptr b o)) (hxV : x ∉ V) (hda : ∀ y ∈ a.vars, y ∉ V) (hdx : ∀ y ∈ ex.vars, y ∉ V)
    (ha : a.eval G e = ret (.int za)) (hq : (ex.eval G e >>= asK) = q) :
    Sim G F V V e (.assign (.idx false x a) .set ex) (q >>= fun v => Prog.store b (o + za) v) (fun _ => e) := by
  apply Sim.of_run
  intro e₁ h1
  refine ⟨fun _ => e₁, fun _ => h1, ?_⟩
  subst hq
  simp only [Stmt.run, assignTo]
  rw [eval_congr G h1 ex hdx, eval_congr G h1 a hda, ha]
  have hp1 : e₁ x = some (.ptr b o) := by rw [h1.get hxV, hp]
  funext m
  show andThen (ex.eval G e) _ m = andThen (andThen (andThen (ex.eval G e) asK) _) _ m
  unfold andThen
  cases ex.eval G e m with
  | none => rfl
  | some r =>
    obtain ⟨v, m'⟩ := r
    simp only [place, hbuf, hp1]
    show andThen (ret _) _ m' = _
    simp only [andThen, ret]
    show andThen (ret _) _ m' = _
    simp only [andThen, ret]
    show andThen (asK v) _ m' = _
    unfold andThen
    cases asK v m' with
    | none => rfl
    | some r => rfl

/-- `x[a] += v;` where `x` is a pointer -/
theorem Sim.addP {x : Ident} {a ex : Expr K} {b : Buf} {o za : Int} {q : Prog K K}
    (hbuf : G.buf false x = none) (hp : e x = some (.ptr b o)) (hxV : x ∉ V) (hda : ∀ y ∈ a.vars, y ∉ V) (hdx : ∀ y ∈ ex.vars, y ∉ V)
    (ha : a.eval G e = ret (.int za)) (hq : ex.eval G e = (q >>= fun v => ret (.flt v))) :
    Sim G F V V e (.assign (.idx false x a) .add ex) (q >>= fun v => load b (o + za) >>= fun u => Prog.store b (o + za) (u + v)) (fun _ => e) := by
  apply Sim.of_run
  intro e₁ h1
  refine ⟨fun _ => e₁, fun _ => h1, ?_⟩
  simp only [Stmt.run, assignTo]
  rw [eval_congr G h1 ex hdx, eval_congr G h1 a hda, ha, hq]
  have hp1 : e₁ x = some (.ptr b o) := by rw [h1.get hxV, hp]
  funext m
  show andThen (andThen q _) _ m = andThen (andThen q _) _ m
  unfold andThen
  cases q m with
  | none => rfl
  | some r =>
    obtain ⟨v, m'⟩ := r
    simp only [place, hbuf, hp1, ret]
    show andThen (ret _) _ m' = _
    simp only [andThen, ret]
    show andThen (ret _) _ m' = _
    simp only [andThen, ret]
    show andThen (load b (o + za)) _ m' = _
    unfold andThen
    simp only
    cases hl : load b (o + za) m' with
    | none => simp [bind, andThen, hl]
    | some r =>
      obtain ⟨u, m2⟩ := r
      simp only [aop, binOp, fltOp, ofOpt, bind, andThen, ret, asK, Val.toK, hl]

/-- the value of `x[a]` where `x` is a pointer -/
theorem eval_ptr {x : Ident} {a : Expr K} {b : Buf} {o za : Int} (hbuf : G.buf false x = none) (hi : G.ints x = none)
    (hp : e x = some (.ptr b o)) (ha : a.eval G e = ret (.int za)) : (Expr.idx false x a).eval G e = loadAt b (o + za) := by
  simp [Expr.eval, ha, hbuf, hi, hp, ret_andThen]

end Verif.CText

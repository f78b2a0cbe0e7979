import Verif.CText.ReduceCode
import Verif.CText.Rules

/-!
# The text of the reductions
-/

namespace Verif.CText
open Prog Layers
set_option linter.unusedVariables false
set_option linter.unusedSectionVars false
variable {K : Type} [Field K] [LinearOrder K] [FloorRing K]
variable {ints : Ident → Option (List Nat)}

/-- `if (y > a) { l = x; }` (or `<`) on a cell: reads, compares, reads and stores -/
theorem Sim.iteCell {G : Globals K} {F : Nat} {V : List Ident} {e : Env K} {x x₁ x₂ : Ident} {p a : Expr K}
    {b b₁ b₂ : Buf} {zp z : Int} (o : BinOp) (R : K → K → Prop) [DecidableRel R]
    (ho : ∀ u v : K, binOp o (.flt u) (.flt v) = some (boolVal (decide (R u v))))
    (hb : G.buf true x = some b) (hb₁ : G.buf true x₁ = some b₁) (hb₂ : G.buf true x₂ = some b₂)
    (hp : p.eval G e = ret (.int zp)) (ha : a.eval G e = ret (.int z))
    (dp : ∀ y ∈ p.vars, y ∉ V) (da : ∀ y ∈ a.vars, y ∉ V) :
    Sim G F V V e (.ite (.bin o (.idx true x₁ a) (.idx true x p)) (.block (.assign (.idx true x p) .set (.idx true x₂ a))) .skip)
      (load b₁ z >>= fun u => load b zp >>= fun t => (if R u t then (load b₂ z >>= fun v => Prog.store b zp v) else pure () : Prog K Unit))
      (fun _ => e) := by
  apply Sim.of_run
  intro e₁ h
  refine ⟨fun _ => e₁, fun _ => h, ?_⟩
  have hr : ∀ e' : Env K, restore [] e₁ e' = e' := by intro e'; funext y; simp [restore]
  simp only [Stmt.run, assignTo, Expr.eval, decls, hr, place]
  rw [eval_congr G h a da, eval_congr G h p dp, hp, ha, hb, hb₁, hb₂]
  funext m
  by_cases hl₁ : 0 ≤ z ∧ z < m.size b₁
  · by_cases hl : 0 ≤ zp ∧ zp < m.size b
    · by_cases hl₂ : z < m.size b₂ <;> by_cases hR : R (m.val b₁ z.toNat) (m.val b zp.toNat) <;>
        simp [bind, andThen, ret, load, Prog.store, loadAt, hl, hl₁, hl₂, ofOpt, ho, truth, boolVal, hR, pure, asK, Val.toK]
    · simp [bind, andThen, ret, load, loadAt, hl, hl₁]
  · simp [bind, andThen, ret, load, loadAt, hl₁]

/-- `if (a > x) { x = a; }` (or `<`) where `a` reads the memory -/
theorem Sim.iteVar {G : Globals K} {F : Nat} {V : List Ident} {e : Env K} {x : Ident} {a : Expr K} {b : Buf} {za : Int} {z : K}
    (o : BinOp) (R : K → K → Prop) [DecidableRel R]
    (ho : ∀ u v : K, binOp o (.flt u) (.flt v) = some (boolVal (decide (R u v))))
    (hx : e x = some (.flt z)) (hxi : x.1 ≠ .INFINITY) (hV : x ∉ V) (hda : ∀ y ∈ a.vars, y ∉ V) (ha : a.eval G e = (load b za >>= fun v => ret (.flt v))) :
    Sim G F V V e (.ite (.bin o a (.var x)) (.block (.assign (.var x) .set a)) .skip)
      (load b za >>= fun v => (if R v z then load b za else pure z : Prog K K)) (fun v => upd e x (.flt v)) := by
  apply Sim.of_run
  intro e₁ h1
  refine ⟨fun v => upd e₁ x (.flt v), fun _ => h1.upd x _, ?_⟩
  have hid : upd e₁ x (.flt z) = e₁ := by
    funext y; unfold upd; split
    · rename_i h; subst h; rw [h1.get hV, hx]
    · rfl
  have hxx : x ≠ (.INFINITY, none) := fun h => hxi (by rw [h])
  have hr : ∀ e' : Env K, restore [] e₁ e' = e' := by intro e'; funext y; simp [restore]
  simp only [Stmt.run, assignTo, Expr.eval, decls, hr]
  rw [eval_congr G h1 a hda, h1.get hV, hx, ha]
  funext m
  by_cases hl : 0 ≤ za ∧ za < m.size b
  · by_cases hg : R (m.val b za.toNat) z <;>
      simp [bind, andThen, ret, load, hl, hxx, ofOpt, ho, truth, boolVal, aop, convert, Val.toK, hg, hid, pure]
  · simp [bind, andThen, load, hl]

theorem binOp_gt_flt (u v : K) : binOp .gt (.flt u) (.flt v) = some (boolVal (decide (u > v))) := rfl
theorem binOp_lt_flt (u v : K) : binOp .lt (.flt u) (.flt v) = some (boolVal (decide (u < v))) := rfl

theorem redStart_eval (L : Lib K) {e : Env K} (fn : RFunc) (src : Ref) {pos : Expr K} {a : Nat} (hp : pos.eval (std L ints) e = ret (.int a)) :
    ((redStartE fn src pos).eval (std L ints) e >>= asK) = redStart fn src.buf a := by
  cases fn
  all_goals
    simp only [redStartE, Expr.eval, hp]
    ceval [redStart]

theorem redStart_vars {V : List Ident} (fn : RFunc) (src : Ref) {pos : Expr K} (h : ∀ y ∈ pos.vars, y ∉ V) : ∀ y ∈ (redStartE fn src pos).vars, y ∉ V := by
  cases fn <;> first | exact h | simp [redStartE, Expr.vars]

/-- the loop body on a cell -/
theorem Sim.redCell (L : Lib K) {F : Nat} {V : List Ident} {e : Env K} (fn : RFunc) {x₁ : Ident} {b₁ : Buf} (src : Ref) {p a : Expr K} {zp z : Nat}
    (hb₁ : (std L ints).buf true x₁ = some b₁)
    (hp : p.eval (std L ints) e = ret (.int zp)) (ha : a.eval (std L ints) e = ret (.int z))
    (dp : ∀ y ∈ p.vars, y ∉ V) (da : ∀ y ∈ a.vars, y ∉ V) :
    Sim (std L ints) F V V e (redStepS fn (.idx true (.tensor_temp, none) p) (.idx true (.tensor_temp, none) p) (.idx true x₁ a) (.idx true src.ident a))
      (Layers.redCell fn b₁ src.buf z zp) (fun _ => e) := by
  have hq : (Expr.idx true src.ident a).eval (std L ints) e = (load src.buf (z : Int) >>= fun v => ret (.flt v)) := by
    simp only [Expr.eval, ha]; ceval
  cases fn with
  | max => exact Sim.iteCell .gt (· > ·) binOp_gt_flt (by simp) hb₁ (by simp) hp ha dp da
  | min => exact Sim.iteCell .lt (· < ·) binOp_lt_flt (by simp) hb₁ (by simp) hp ha dp da
  | sum => exact (Sim.storeOp (b := .temp) (ex := .idx true src.ident a) (o := .add) (f := (· + ·)) (by simp) (by simp) dp da hp hq (fun _ _ => rfl)).congr (load_comm ..)
  | mean => exact (Sim.storeOp (b := .temp) (ex := .idx true src.ident a) (o := .add) (f := (· + ·)) (by simp) (by simp) dp da hp hq (fun _ _ => rfl)).congr (load_comm ..)
  | prod => exact (Sim.storeOp (b := .temp) (ex := .idx true src.ident a) (o := .mul) (f := (· * ·)) (by simp) (by simp) dp da hp hq (fun _ _ => rfl)).congr (load_comm ..)

/-- the loop body on the local variable -/
theorem Sim.redLocal (L : Lib K) {F : Nat} {V : List Ident} {e : Env K} (fn : RFunc) (src : Ref) {a : Expr K} {z : Nat} {acc : K}
    (hx : e (.reduced, none) = some (.flt acc)) (hV : (.reduced, none) ∉ V) (ha : a.eval (std L ints) e = ret (.int z)) (da : ∀ y ∈ a.vars, y ∉ V) :
    Sim (std L ints) F V V e (redStepS fn (.var (.reduced, none)) (.var (.reduced, none)) (.idx true src.ident a) (.idx true src.ident a))
      (Layers.redLocal fn src.buf z acc) (fun v => upd e (.reduced, none) (.flt v)) := by
  have hq : (Expr.idx true src.ident a).eval (std L ints) e = (load src.buf (z : Int) >>= fun v => ret (.flt v)) := by
    simp only [Expr.eval, ha]; ceval
  cases fn with
  | max => exact Sim.iteVar .gt (· > ·) binOp_gt_flt hx (by simp) hV da hq
  | min => exact Sim.iteVar .lt (· < ·) binOp_lt_flt hx (by simp) hV da hq
  | sum =>
    refine Sim.set' (old := .flt acc) (val := fun v => .flt v) hx hV da ?_ (fun _ => Agree.refl _ _)
    rw [hq]; simp [Layers.redLocal, andThen_assoc, ret_andThen, aop, convert, binOp, fltOp, ofOpt, Val.toK, pure]
  | mean =>
    refine Sim.set' (old := .flt acc) (val := fun v => .flt v) hx hV da ?_ (fun _ => Agree.refl _ _)
    rw [hq]; simp [Layers.redLocal, andThen_assoc, ret_andThen, aop, convert, binOp, fltOp, ofOpt, Val.toK, pure]
  | prod =>
    refine Sim.set' (old := .flt acc) (val := fun v => .flt v) hx hV da ?_ (fun _ => Agree.refl _ _)
    rw [hq]; simp [Layers.redLocal, andThen_assoc, ret_andThen, aop, convert, binOp, fltOp, ofOpt, Val.toK, pure]

/-- the `Mean` statement on a cell -/
theorem Sim.redMean (L : Lib K) {F : Nat} {V V' : List Ident} {e e' : Env K} (fn : RFunc) {s : Stmt K} {q : Prog K Unit} {p : Expr K} {zp n : Nat}
    (h : Sim (std L ints) F V V' e s q (fun _ => e')) (hp : p.eval (std L ints) e' = ret (.int zp)) (dp : ∀ y ∈ p.vars, y ∉ V') :
    Sim (std L ints) F V V' e (redMeanS fn s (.idx true (.tensor_temp, none) p) (.idx true (.tensor_temp, none) p) n)
      (q >>= fun _ => Layers.redMean fn n zp) (fun _ => e') := by
  cases fn with
  | mean =>
    refine Sim.seq h fun _ => ?_
    refine (Sim.store (b := .temp) (za := zp) (q := load .temp (zp : Int) >>= fun t => ret (t / (n : K))) (by simp) dp (by simpa [Expr.vars] using dp) hp ?_).congr ?_
    · simp only [Expr.eval, hp]; ceval
    · simp [Layers.redMean, andThen_assoc, ret_andThen]
  | max | min | sum | prod => exact h.congr (andThen_ret q).symm


/-- `{{#all}}` -/
theorem Sim.redAll (L : Lib K) {F : Nat} {e : Env K} (fn : RFunc) (n : Nat) (act : CAct K) (src : Ref) (road : Nat)
    (hF : n < F) (hk : IsInt e (.k, none)) (hs : sameTy (e (.reduced, none)) (some (.flt 0))) :
    Sim (std L ints) F [(.f, none), (.i, none), (.j, none), (.k, none), (.reduced, none)] [(.f, none), (.i, none), (.j, none), (.k, none), (.reduced, none)] e
      (redAllAst fn n act src road) (redAll fn n (act.fn (std L ints)) src.buf road) (fun _ => e) := by
  unfold redAllAst Layers.redAll
  refine Sim.float (.reduced, none) hs fun v => ?_
  have last : ∀ r : K, Sim (std L ints) F [(.f, none), (.i, none), (.j, none), (.k, none)] [(.f, none), (.i, none), (.j, none), (.k, none), (.reduced, none)] (upd e (.reduced, none) (.flt r))
      (.assign (.idx true (.output, some ⟨false, road⟩) (.num 0)) .set (act.expr (.var (.reduced, none)))) (Prog.store (.out road) ((0 : Nat) : Int) (act.fn (std L ints) r)) (fun _ => e) := by
    intro r
    refine Sim.forget (.reduced, none) (val := fun _ => .flt r) ?_ (by simp) (fun _ => sameTy_flt hs)
    exact (Sim.storeAct (b := .out road) (za := ((0 : Nat) : Int)) (q := ret r) (by simp) (by simp [Expr.vars]) (by simp [Expr.vars]) (by ceval) (Reads.ret _) (by ceval) (by simp [isFlt, upd])).congr rfl
  have loopS : ∀ s : K, Sim (std L ints) F [(.f, none), (.i, none), (.j, none), (.k, none)] [(.f, none), (.i, none), (.j, none), (.k, none)] (upd e (.reduced, none) (.flt s))
      (loop (.k, none) n (.block (redStepS fn (.var (.reduced, none)) (.var (.reduced, none)) (.idx true src.ident (.var (.k, none))) (.idx true src.ident (.var (.k, none))))))
      (foldN n s fun k acc => Layers.redLocal fn src.buf k acc) (fun s => upd e (.reduced, none) (.flt s)) := by
    intro s
    refine Sim.fold (base := fun s => upd e (.reduced, none) (.flt s)) (by simp) (by simp) hF (fun _ => by simpa [upd, IsInt] using hk) fun k _ s => Sim.block' ?_ (by cases fn <;> rfl)
    refine (Sim.redLocal L fn src (acc := s) (by simp [upd]) (by simp) (by ceval) (by simp [Expr.vars])).weaken ?_ (fun _ h => h)
    intro b; env_rfl
  refine Sim.seq (mid := fun s => upd e (.reduced, none) (.flt s)) (Sim.set' (q := redStart fn src.buf 0) (old := .flt v) (val := fun s => .flt s) (by simp [upd]) (by simp)
    (redStart_vars fn src (by simp [Expr.vars])) ?_ fun b => by rw [upd_upd]; exact Agree.refl _ _) fun s => ?_
  · cases fn <;> simp only [redStartE] <;> ceval [redStart]
  · cases fn with
    | mean =>
      refine Sim.seq (loopS s) fun r => Sim.seq (mid := fun r => upd e (.reduced, none) (.flt r))
        (Sim.set' (q := ret (r / (n : K))) (old := .flt r) (val := fun s => .flt s) (by simp [upd]) (by simp) (by simp [Expr.vars]) (by ceval) fun b => by rw [upd_upd]; exact Agree.refl _ _) last
    | max | min | sum | prod => exact Sim.seq (loopS s) last

/-- `{{#one}}` -/
theorem Sim.redOne (L : Lib K) {F : Nat} {e : Env K} (fn : RFunc) (d1 d2 red : Nat) {start pos2 : Expr K} {zs zp : Nat → Nat → Nat → Nat} (size : Nat) (act : CAct K) (src : Ref) (road : Nat)
    (hF : d1 + d2 + red + size < F) (hf : IsInt e (.f, none)) (hi : IsInt e (.i, none)) (hj : IsInt e (.j, none)) (hk : IsInt e (.k, none))
    (ds : ∀ y ∈ start.vars, y ∈ [(.f, none), (.i, none)]) (dp : ∀ y ∈ pos2.vars, y ∈ [(.f, none), (.i, none), (.j, none)])
    (es : ∀ f i : Nat, start.eval (std L ints) (upd (upd e (.f, none) (.int f)) (.i, none) (.int i)) = ret (.int (zs f i 0 : Nat)))
    (ep : ∀ f i j : Nat, pos2.eval (std L ints) (upd (upd (upd e (.f, none) (.int f)) (.i, none) (.int i)) (.j, none) (.int j)) = ret (.int (zp f i j : Nat))) :
    Sim (std L ints) F [(.f, none), (.i, none), (.j, none), (.k, none), (.reduced, none)] [(.f, none), (.i, none), (.j, none), (.k, none), (.reduced, none)] e
      (redOneAst fn d1 d2 red start pos2 size act src road) (redOne fn d1 d2 red zs zp size (act.fn (std L ints)) src.buf road) (fun _ => e) := by
  unfold redOneAst Layers.redOne redCloseS
  refine Sim.seq (Sim.for' (by simp) (by simp) (by omega) hf rfl fun f _ =>
    Sim.for' (by simp) (by simp) (by omega) (by simpa [IsInt, upd] using hi) (by cases fn <;> rfl) fun i _ => ?_)
    fun _ => Sim.copyAct (by simp) (by simp) (by omega) hk (by simp) (by simp) (.inl rfl)
  refine Sim.seq₂ (mid := fun _ => upd (upd e (.f, none) (.int f)) (.i, none) (.int i)) (Sim.store (b := .temp) (za := ((i + d2 * f : Nat) : Int)) (q := redStart fn src.buf (zs f i 0)) (by simp) (by simp [Expr.vars]) (redStart_vars fn src ?_) (by ceval) (redStart_eval L fn src (es f i))) fun _ => ?_
  · intro y hy h
    have := ds y hy
    simp at this h
    rcases this with rfl | rfl <;> simp at h
  · refine Sim.redMean L fn (Sim.for' (by simp) (by simp) (by omega) (by simpa [IsInt, upd] using hj) (by cases fn <;> rfl) fun j _ => ?_) (by ceval) (by simp [Expr.vars])
    refine Sim.redCell L fn src (by simp) (by ceval) (ep f i j) (by simp [Expr.vars]) ?_
    intro y hy h
    have := dp y hy
    simp at this h
    rcases this with rfl | rfl | rfl <;> simp at h

/-- `{{#two}}` -/
theorem Sim.redTwo (L : Lib K) {F : Nat} {e : Env K} (fn : RFunc) (d red1 red2 : Nat) {start pos : Expr K} {zs : Nat → Nat} {zp : Nat → Nat → Nat → Nat} (size : Nat) (act : CAct K) (src : Ref) (road : Nat)
    (hF : d + red1 + red2 + size < F) (hf : IsInt e (.f, none)) (hi : IsInt e (.i, none)) (hj : IsInt e (.j, none)) (hk : IsInt e (.k, none))
    (ds : ∀ y ∈ start.vars, y ∈ [(.f, none)]) (dp : ∀ y ∈ pos.vars, y ∈ [(.f, none), (.i, none), (.j, none)])
    (es : ∀ f : Nat, start.eval (std L ints) (upd e (.f, none) (.int f)) = ret (.int (zs f : Nat)))
    (ep : ∀ f i j : Nat, pos.eval (std L ints) (upd (upd (upd e (.f, none) (.int f)) (.i, none) (.int i)) (.j, none) (.int j)) = ret (.int (zp f i j : Nat))) :
    Sim (std L ints) F [(.f, none), (.i, none), (.j, none), (.k, none), (.reduced, none)] [(.f, none), (.i, none), (.j, none), (.k, none), (.reduced, none)] e
      (redTwoAst fn d red1 red2 start pos size act src road) (redTwo fn d red1 red2 zs zp size (act.fn (std L ints)) src.buf road) (fun _ => e) := by
  unfold redTwoAst Layers.redTwo redCloseS
  refine Sim.seq (Sim.for' (by simp) (by simp) (by omega) hf (by cases fn <;> rfl) fun f _ => ?_)
    fun _ => Sim.copyAct (by simp) (by simp) (by omega) hk (by simp) (by simp) (.inl rfl)
  refine Sim.seq₂ (mid := fun _ => upd e (.f, none) (.int f)) (Sim.store (b := .temp) (za := (f : Int)) (q := redStart fn src.buf (zs f)) (by simp) (by simp [Expr.vars]) (redStart_vars fn src ?_) (by ceval) (redStart_eval L fn src (es f))) fun _ => ?_
  · intro y hy h
    have := ds y hy
    simp at this h
    subst this; simp at h
  · refine Sim.redMean L fn (Sim.for' (by simp) (by simp) (by omega) (by simpa [IsInt, upd] using hi) rfl fun i _ =>
      Sim.for' (by simp) (by simp) (by omega) (by simpa [IsInt, upd] using hj) (by cases fn <;> rfl) fun j _ => ?_) (by ceval) (by simp [Expr.vars])
    refine Sim.redCell L fn src (by simp) (by ceval) (ep f i j) (by simp [Expr.vars]) ?_
    intro y hy h
    have := dp y hy
    simp at this h
    rcases this with rfl | rfl | rfl <;> simp at h

set_option maxHeartbeats 1000000 in
theorem reduce_renders (L : Lib K) (fn : RFunc) (c : RedP) (size idx : Nat) (act : CAct K) (src : Ref) (road : Nat) :
    Renders (std L ints) Tpl.reduce (reduceHash fn c size idx act src road)
      [((.f, none), .int), ((.i, none), .int), ((.j, none), .int), ((.k, none), .int), ((.reduced, none), .float)]
      (reduceCode fn c size (act.fn (std L ints)) src.buf road) := by
  refine Renders.of_sim (c.C + c.H + c.W + c.oC + c.oH + c.oW + c.C * c.H * c.W + size + 1) (reduce_code ..) fun e he F hF => ?_
  have hf := he.int (.f, none) (by simp)
  have hi := he.int (.i, none) (by simp)
  have hj := he.int (.j, none) (by simp)
  have hk := he.int (.k, none) (by simp)
  have hr := he.float (.reduced, none) (by simp)
  unfold reduceAst reduceCode posE redCloseS
  cases decide (1 ∈ c.axes) <;> cases decide (2 ∈ c.axes) <;> cases decide (3 ∈ c.axes) <;> dsimp only
  · by_cases hn : c.noop = true
    · rw [if_pos hn, if_pos hn]
      exact Sim.copyAct (by simp) (by simp) (by omega) hk (by simp) (by simp) (.inl rfl)
    · rw [if_neg hn, if_neg hn]
      exact Sim.redAll L fn _ act src road (by omega) hk hr
  · exact Sim.redOne L fn _ _ _ size act src road (by omega) hf hi hj hk (by simp [Expr.vars]) (by simp [Expr.vars]) (fun f i => by ceval) (fun f i j => by ceval)
  · exact Sim.redOne L fn _ _ _ size act src road (by omega) hf hi hj hk (by simp [Expr.vars]) (by simp [Expr.vars]) (fun f i => by ceval) (fun f i j => by ceval)
  · exact Sim.redTwo L fn _ _ _ size act src road (by omega) hf hi hj hk (by simp [Expr.vars]) (by simp [Expr.vars]) (fun f => by ceval) (fun f i j => by ceval)
  · exact Sim.redOne L fn _ _ _ size act src road (by omega) hf hi hj hk (by simp [Expr.vars]) (by simp [Expr.vars]) (fun f i => by ceval) (fun f i j => by ceval)
  · exact Sim.redTwo L fn _ _ _ size act src road (by omega) hf hi hj hk (by simp [Expr.vars]) (by simp [Expr.vars]) (fun f => by ceval) (fun f i j => by ceval)
  · exact Sim.redTwo L fn _ _ _ size act src road (by omega) hf hi hj hk (by simp [Expr.vars]) (by simp [Expr.vars]) (fun f => by ceval) (fun f i j => by ceval)
  · exact Sim.redAll L fn _ act src road (by omega) hk hr

end Verif.CText

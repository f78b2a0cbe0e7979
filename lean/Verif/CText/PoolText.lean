import Verif.CText.PoolTextCode
import Verif.CText.Direct
import Verif.Props.PoolHWC

/-!
# C75: what the text of the pooling layers in the version `channels_last` computes
-/

namespace Verif.CText
open Prog Layers
set_option linter.unusedVariables false
set_option linter.unusedSectionVars false
variable {K : Type} [Field K] [LinearOrder K] [FloorRing K]
variable {ints : Ident → Option (List Nat)}

/-- `x[a] *= v;` where `x` is a pointer and `v` a known number -/
theorem Sim.mulP {G : Globals K} {F : Nat} {V : List Ident} {e : Env K} {x : Ident} {a ex : Expr K} {b : Buf} {o za : Int} {v : K}
    (hbuf : G.buf false x = none) (hp : e x = some (.ptr b o)) (hxV : x ∉ V) (hda : ∀ y ∈ a.vars, y ∉ V) (hdx : ∀ y ∈ ex.vars, y ∉ V)
    (ha : a.eval G e = ret (.int za)) (hq : ex.eval G e = ret (.flt v)) :
    Sim G F V V e (.assign (.idx false x a) .mul ex) (load b (o + za) >>= fun u => Prog.store b (o + za) (u * v)) (fun _ => e) := by
  apply Sim.of_run
  intro e₁ h1
  refine ⟨fun _ => e₁, fun _ => h1, ?_⟩
  simp only [Stmt.run, assignTo]
  rw [eval_congr G h1 ex hdx, eval_congr G h1 a hda, ha, hq]
  have hp1 : e₁ x = some (.ptr b o) := by rw [h1.get hxV, hp]
  funext m
  show andThen (ret _) _ m = _
  simp only [andThen, ret]
  show andThen (ret _) _ m = _
  simp only [place, hbuf, hp1, ret, andThen]
  show andThen (load b (o + za)) _ m = _
  unfold andThen
  simp only
  cases hl : load b (o + za) m with
  | none => simp [bind, andThen, hl]
  | some r =>
    obtain ⟨u, m2⟩ := r
    simp only [aop, binOp, fltOp, ofOpt, bind, andThen, ret, asK, Val.toK, hl]

/-- the update of the accumulator, as a program -/
def hwcUpdProg (avg : Bool) (src : Buf) (p q : Int) (k : Nat) : Prog K Unit := if avg then sumUpd src p q k else maxUpd src p q k

theorem hwc_upd (L : Lib K) (hints : ∀ n, ints (n, none) = none) {F : Nat} {V : List Ident} {e : Env K} (avg : Bool) {src : Buf} {p q : Int} {k : Nat}
    (hV : OnlyK V) (hc : e (.c, none) = some (.int k)) (ho : e iOutP = some (.ptr .temp p)) (hi : e iInP = some (.ptr src q)) :
    Sim (std L ints) F V V e (.block (hwcUpd avg)) (hwcUpdProg avg src p q k) (fun _ => e) := by
  have vc : ∀ y ∈ (Expr.var (.c, none) : Expr K).vars, y ∉ V := by
    intro y hy
    simp only [Expr.vars, List.mem_cons, List.not_mem_nil, or_false] at hy
    subst hy; exact hV.not (by simp)
  have e1 : hwcInE.eval (std L ints) e = loadAt src (q + k) := eval_ptr rfl (hints _) hi (by ceval [hc])
  have e2 : hwcOutE.eval (std L ints) e = loadAt .temp (p + k) := eval_ptr rfl (hints _) ho (by ceval [hc])
  cases avg with
  | true =>
    refine Sim.block' ?_ rfl
    refine (Sim.addP (b := .temp) (o := p) (za := k) (q := load src (q + k)) rfl ho (hV.not (by simp)) vc ?_ (by ceval [hc]) ?_).congr ?_
    · intro y hy
      simp only [hwcInE, Expr.vars, List.mem_cons, List.not_mem_nil, or_false] at hy
      rcases hy with rfl | rfl <;> exact hV.not (by simp)
    · rw [e1]; rfl
    · exact load_comm _ _ _ _ (fun x y => store .temp (p + k) (y + x))
  | false =>
    refine Sim.block' ?_ rfl
    refine Sim.storeP (b := .temp) (o := p) (za := k) rfl ho (hV.not (by simp)) vc ?_ (by ceval [hc]) ?_
    · intro y hy
      simp only [hwcInE, hwcOutE, Expr.vars, List.mem_append, List.mem_cons, List.not_mem_nil, or_false] at hy
      rcases hy with ((rfl | rfl) | (rfl | rfl)) | ((rfl | rfl) | (rfl | rfl)) <;> exact hV.not (by simp)
    · have f1 : isFlt (std L ints) e hwcInE = true := by
        have g1 : (std L ints).buf false iInP = none := rfl
        have g2 : (std L ints).ints iInP = none := hints _
        simp [isFlt, hwcInE, g1, g2]
      rw [Expr.eval, Expr.eval, e1, e2, f1]
      funext m
      simp only [loadAt, bind, andThen, Bool.true_or, if_true]
      cases h1 : load src (q + k) m with
      | none => rfl
      | some r =>
        obtain ⟨x, m1⟩ := r
        simp only [ret]
        cases h2 : load .temp (p + k) m1 with
        | none => rfl
        | some r =>
          obtain ⟨t, m2⟩ := r
          by_cases h : t < x
          · simp only [binOp, fltOp, ofOpt, boolVal, truth, ret, h, decide_true, if_true, ne_eq, one_ne_zero, not_false_eq_true, gt_iff_lt]
            cases h3 : load src (q + k) m2 with
            | none => simp only [andThen, h3]
            | some r => simp only [andThen, h3, ret, asK, Val.toK]
          · simp only [binOp, fltOp, ofOpt, boolVal, truth, ret, h, decide_false, if_false, ne_eq, not_true_eq_false, gt_iff_lt, Bool.false_eq_true]
            cases h3 : load .temp (p + k) m2 with
            | none => simp only [andThen, h3]
            | some r => simp only [andThen, h3, ret, asK, Val.toK]

theorem hwc_tap (L : Lib K) (hints : ∀ n, ints (n, none) = none) {F : Nat} {V : List Ident} {e : Env K} (avg : Bool) (c : PoolP) (src : Ref)
    {ow : Nat} {ih kw p : Int} (hF : c.C < F) (hV : OnlyK V) (how : e (.ow, none) = some (.int ow)) (hih : e (.ih, none) = some (.int ih))
    (hkw : e (.kw, none) = some (.int kw)) (ho : e iOutP = some (.ptr .temp p)) :
    Sim (std L ints) F V V e (hwcTap avg c src.ident) (do
      let iw : Int := (ow : Int) * c.stride + kw - c.padLeft
      forN c.C fun k => hwcUpdProg avg src.buf p ((ih * c.W + iw) * c.C) k) (fun _ => e) := by
  unfold hwcTap
  refine Sim.scope (V' := (V.filter (· ≠ (.iw, none))).filter (· ≠ iInP))
    (Sim.declThen (v := .int ((ow : Int) * c.stride + kw - c.padLeft)) ?_ ?_ (Sim.declThen
      (v := .ptr src.buf ((ih * c.W + ((ow : Int) * c.stride + kw - c.padLeft)) * c.C)) ?_ ?_ (Sim.forD0 (by simp) hF fun k hk => ?_)))
    (fun y hy => .inl ?_) ?_
  · intro y hy
    simp only [hwcPosE, Expr.vars, List.mem_append, List.mem_cons, List.not_mem_nil, or_false, false_or, List.nil_append, List.append_nil] at hy
    rcases hy with rfl | rfl <;> exact hV.not (by simp)
  · ceval [hwcPosE, how, hkw]
  · intro y hy
    simp only [Expr.vars, List.mem_append, List.mem_cons, List.not_mem_nil, or_false, false_or, List.nil_append, List.append_nil] at hy
    rcases hy with rfl | rfl <;> exact (hV.filter _).not (by simp)
  · ceval [hih]
  · exact hwc_upd L hints avg (((hV.filter _).filter _).filter _) (by simp [upd]) (by simpa [upd] using ho) (by simp [upd])
  · simp only [List.mem_filter] at hy; exact hy.1.1
  · intro y hy
    simp only [decls, List.mem_append, List.mem_cons, List.not_mem_nil, or_false, not_or, List.append_nil, List.cons_append, List.nil_append] at hy
    simp [upd, hy]

theorem hwc_range (c : PoolP) (n o : Nat) : (poolHigh c n o - poolLow c o).toNat ≤ c.pool := by
  unfold poolHigh poolLow
  split <;> split <;> omega

theorem hwc_window (L : Lib K) (hints : ∀ n, ints (n, none) = none) {F : Nat} {V : List Ident} {e : Env K} (avg : Bool) (c : PoolP) (src : Ref)
    {oh ow : Nat} (hF : c.C < F) (hFp : c.pool < F) (hV : OnlyK V) (hoh : e (.oh, none) = some (.int oh)) (how : e (.ow, none) = some (.int ow))
    (h1 : e iKhs = some (.int (poolLow c oh))) (h2 : e iKhe = some (.int (poolHigh c c.H oh)))
    (h3 : e iKws = some (.int (poolLow c ow))) (h4 : e iKwe = some (.int (poolHigh c c.W ow)))
    (ho : e iOutP = some (.ptr .temp (((oh * c.Wo + ow) * c.C : Nat) : Int))) :
    Sim (std L ints) F V V e (hwcWindow avg c src.ident) (poolWindow c (hwcUpdProg avg src.buf) oh ow) (fun _ => e) := by
  unfold hwcWindow poolWindow
  have hV1 := hV.filter (.kh, none)
  have hV2 := hV1.filter (.ih, none)
  have hV3 := hV2.filter (.kw, none)
  refine Sim.forD (by simp) ?_ ?_ (by ceval [h1]) (fun z => by ceval [h2]) (lt_of_le_of_lt (hwc_range _ _ _) hFp) fun kh _ _ => ?_
  · intro y hy
    simp only [Expr.vars, List.mem_cons, List.not_mem_nil, or_false] at hy
    subst hy; exact hV.not (by simp)
  · intro y hy
    simp only [Expr.vars, List.mem_cons, List.not_mem_nil, or_false] at hy
    subst hy; exact hV.not (by simp)
  refine Sim.scope (V' := (V.filter (· ≠ (.kh, none))).filter (· ≠ (.ih, none)))
    (Sim.declThen (v := .int ((oh : Int) * c.stride + kh - c.padLeft)) ?_ ?_ (Sim.forD (by simp) ?_ ?_ (by ceval [h3]) (fun z => by ceval [h4])
      (lt_of_le_of_lt (hwc_range _ _ _) hFp) fun kw _ _ => ?_))
    (fun y hy => .inl (List.mem_filter.1 hy).1) (fun y hy => ?_)
  · intro y hy
    simp only [hwcPosE, Expr.vars, List.mem_append, List.mem_cons, List.not_mem_nil, or_false, false_or, List.nil_append, List.append_nil] at hy
    rcases hy with rfl | rfl <;> exact hV1.not (by simp)
  · ceval [hwcPosE, hoh]
  · intro y hy
    simp only [Expr.vars, List.mem_cons, List.not_mem_nil, or_false] at hy
    subst hy; exact hV2.not (by simp)
  · intro y hy
    simp only [Expr.vars, List.mem_cons, List.not_mem_nil, or_false] at hy
    subst hy; exact hV2.not (by simp)
  · exact hwc_tap L hints avg c src hF hV3 (by simpa [upd] using how) (by simp [upd]) (by simp [upd]) (by simpa [upd] using ho)
  · simp only [decls, List.mem_append, List.mem_cons, List.not_mem_nil, or_false, List.append_nil] at hy
    simp [upd, hy]

/-- the first value of the accumulator -/
def hwcFirst (L : Lib K) (avg : Bool) : K := if avg then 0 else -L.inf

theorem hwc_init (L : Lib K) (hints : ∀ n, ints (n, none) = none) {F : Nat} {V : List Ident} {e : Env K} (avg : Bool) (c : PoolP) {p : Int}
    (hF : c.C < F) (hV : OnlyK V) (ho : e iOutP = some (.ptr .temp p)) :
    Sim (std L ints) F V V e (hwcInit avg c) (forN c.C fun k => store .temp (p + k) (hwcFirst L avg)) (fun _ => e) := by
  unfold hwcInit
  refine Sim.forD0 (by simp) hF fun k _ => Sim.block' ?_ rfl
  have hV1 := hV.filter (.c, none)
  refine (Sim.storeP (b := .temp) (o := p) (za := k) (q := ret (hwcFirst L avg)) rfl (by simpa [upd] using ho) (hV1.not (by simp)) ?_ ?_ (by ceval) ?_).congr rfl
  · intro y hy
    simp only [Expr.vars, List.mem_cons, List.not_mem_nil, or_false] at hy
    subst hy; exact hV1.not (by simp)
  · intro y hy
    cases avg
    · simp only [Expr.vars, if_false, Bool.false_eq_true, List.mem_cons, List.not_mem_nil, or_false] at hy
      subst hy; exact hV1.not (by simp)
    · simp [Expr.vars] at hy
  · cases avg
    · ceval [hwcFirst, std]
    · ceval [hwcFirst, lit]

/-- the body of the loops over the output, as a program -/
def hwcRestProg (L : Lib K) (avg : Bool) (c : PoolP) (src : Buf) (inv : K) (oh ow : Nat) : Prog K Unit :=
  if avg then do
    forN c.C fun k => store .temp ((((oh * c.Wo + ow) * c.C : Nat) : Int) + k) (0 : K)
    poolWindow c (sumUpd src) oh ow
    forN c.C fun k => do
      let t ← load .temp ((((oh * c.Wo + ow) * c.C : Nat) : Int) + k)
      store .temp ((((oh * c.Wo + ow) * c.C : Nat) : Int) + k) (t * inv)
  else do
    forN c.C fun k => store .temp ((((oh * c.Wo + ow) * c.C : Nat) : Int) + k) (-L.inf)
    poolWindow c (maxUpd src) oh ow

theorem hwc_rest (L : Lib K) (hints : ∀ n, ints (n, none) = none) {F : Nat} {V : List Ident} {e : Env K} (avg : Bool) (c : PoolP) (src : Ref) {inv : K}
    {oh ow : Nat} (hF : c.C < F) (hFp : c.pool < F) (hV : OnlyK V) (hoh : e (.oh, none) = some (.int oh)) (how : e (.ow, none) = some (.int ow))
    (h1 : e iKhs = some (.int (poolLow c oh))) (h2 : e iKhe = some (.int (poolHigh c c.H oh)))
    (h3 : e iKws = some (.int (poolLow c ow))) (h4 : e iKwe = some (.int (poolHigh c c.W ow)))
    (ho : e iOutP = some (.ptr .temp (((oh * c.Wo + ow) * c.C : Nat) : Int))) (hinv : avg = true → e iInv = some (.flt inv)) :
    Sim (std L ints) F V V e (hwcRest avg c src.ident) (hwcRestProg L avg c src.buf inv oh ow) (fun _ => e) := by
  cases avg with
  | false =>
    exact Sim.seq (mid := fun _ => e) (hwc_init L hints false c hF hV ho) fun _ => hwc_window L hints false c src hF hFp hV hoh how h1 h2 h3 h4 ho
  | true =>
    refine Sim.seq (mid := fun _ => e) (hwc_init L hints true c hF hV ho) fun _ =>
      Sim.seq (mid := fun _ => e) (hwc_window L hints true c src hF hFp hV hoh how h1 h2 h3 h4 ho) fun _ => Sim.forD0 (by simp) hF fun k _ => Sim.block' ?_ rfl
    have hV1 := hV.filter (.c, none)
    refine Sim.mulP (b := .temp) (za := k) rfl (by simpa [upd] using ho) (hV1.not (by simp)) ?_ ?_ (by ceval) ?_
    · intro y hy
      simp only [Expr.vars, List.mem_cons, List.not_mem_nil, or_false] at hy
      subst hy; exact hV1.not (by simp)
    · intro y hy
      simp only [Expr.vars, List.mem_cons, List.not_mem_nil, or_false] at hy
      subst hy; exact hV1.not (by simp)
    · have := hinv rfl
      ceval [this]

/-- values of `(0 > x) ? 0 : x` -/
theorem eval_max0 {G : Globals K} {e : Env K} {x : Ident} {z : Int} (hx : x.1 ≠ .INFINITY) (ha : e x = some (.int z)) :
    ((Expr.cond (.bin .gt (.num 0) (.var x)) (.num 0) (.var x) : Expr K).eval G e >>= fun v => ofOpt (convertTy .int v)) =
      ret (.int (if 0 > z then 0 else z)) := by
  have hx' : x ≠ (.INFINITY, none) := fun h => hx (by rw [h])
  by_cases h : z < 0 <;>
    simp [Expr.eval, ha, hx, hx', ret_andThen, ofOpt, binOp, intOp, truth, boolVal, isFlt, h, convertTy, Val.toInt]

/-- values of `(n < x) ? n : x` -/
theorem eval_minN {G : Globals K} {e : Env K} {x : Ident} {z : Int} {n : Nat} (hx : x.1 ≠ .INFINITY) (ha : e x = some (.int z)) :
    ((Expr.cond (.bin .lt (.num n) (.var x)) (.num n) (.var x) : Expr K).eval G e >>= fun v => ofOpt (convertTy .int v)) =
      ret (.int (if (n : Int) < z then (n : Int) else z)) := by
  have hx' : x ≠ (.INFINITY, none) := fun h => hx (by rw [h])
  by_cases h : (n : Int) < z <;>
    simp [Expr.eval, ha, hx, hx', ret_andThen, ofOpt, binOp, intOp, truth, boolVal, isFlt, h, convertTy, Val.toInt]

theorem vars_max0 {V : List Ident} (hV : OnlyK V) {x : Ident} (hx : x ≠ (.k, none)) : ∀ y ∈ (Expr.cond (.bin .gt (.num 0) (.var x)) (.num 0) (.var x) : Expr K).vars, y ∉ V := by
  intro y hy
  simp only [Expr.vars, List.mem_append, List.mem_cons, List.not_mem_nil, or_false, false_or, or_self] at hy
  subst hy; exact hV.not hx

theorem vars_minN {V : List Ident} (hV : OnlyK V) {x : Ident} {n : Nat} (hx : x ≠ (.k, none)) :
    ∀ y ∈ (Expr.cond (.bin .lt (.num n) (.var x)) (.num n) (.var x) : Expr K).vars, y ∉ V := by
  intro y hy
  simp only [Expr.vars, List.mem_append, List.mem_cons, List.not_mem_nil, or_false, false_or, or_self] at hy
  subst hy; exact hV.not hx

theorem vars_low {V : List Ident} (hV : OnlyK V) (c : PoolP) {x : Ident} (hx : x ≠ (.k, none)) : ∀ y ∈ (hwcLowE c x : Expr K).vars, y ∉ V := by
  intro y hy
  simp only [hwcLowE, Expr.vars, List.mem_append, List.mem_cons, List.not_mem_nil, or_false, false_or] at hy
  subst hy; exact hV.not hx

theorem vars_high {V : List Ident} (hV : OnlyK V) (c : PoolP) {n : Nat} {x : Ident} (hx : x ≠ (.k, none)) : ∀ y ∈ (hwcHighE c n x : Expr K).vars, y ∉ V := by
  intro y hy
  simp only [hwcHighE, Expr.vars, List.mem_append, List.mem_cons, List.not_mem_nil, or_false, false_or] at hy
  subst hy; exact hV.not hx

theorem hwc_out (L : Lib K) (hints : ∀ n, ints (n, none) = none) {F : Nat} {V : List Ident} {e : Env K} (avg : Bool) (c : PoolP) (src : Ref) {inv : K}
    {oh ow : Nat} (hF : c.C < F) (hFp : c.pool < F) (hV : OnlyK V) (hoh : e (.oh, none) = some (.int oh)) (how : e (.ow, none) = some (.int ow))
    (h1 : e iKhs = some (.int (poolLow c oh))) (h2 : e iKhe = some (.int (poolHigh c c.H oh))) (hinv : avg = true → e iInv = some (.flt inv)) :
    Sim (std L ints) F V V e (hwcOut avg c src.ident) (hwcRestProg L avg c src.buf inv oh ow) (fun _ => e) := by
  unfold hwcOut
  have hV1 := hV.filter iWs
  have hV2 := hV1.filter iKws
  have hV3 := hV2.filter iWe
  have hV4 := hV3.filter iKwe
  have hV5 := hV4.filter iOutP
  refine Sim.scope
    (Sim.declThen (v := .int ((c.padLeft : Int) - ow * c.stride)) (vars_low hV c (by simp)) (by ceval [hwcLowE, how])
    (Sim.declThen (v := .int (poolLow c ow)) (vars_max0 hV1 (by simp)) (eval_max0 (by simp) (by simp [upd]))
    (Sim.declThen (v := .int ((c.W : Int) + c.padLeft - ow * c.stride)) (vars_high hV2 c (by simp)) (by ceval [hwcHighE, how])
    (Sim.declThen (v := .int (poolHigh c c.W ow)) (vars_minN hV3 (by simp)) (eval_minN (by simp) (by simp [upd]))
    (Sim.declThen (v := .ptr .temp (((oh * c.Wo + ow) * c.C : Nat) : Int)) ?_ (by ceval [hoh, how])
      (hwc_rest L hints avg c src hF hFp hV5 (by simpa [upd] using hoh) (by simpa [upd] using how) (by simpa [upd] using h1) (by simpa [upd] using h2)
        (by simp [upd]) (by simp [upd]) (by simp [upd]) (fun h => by simpa [upd] using hinv h)))))))
    (fun y hy => .inl ?_) (fun y hy => ?_)
  · intro y hy
    simp only [Expr.vars, List.mem_append, List.mem_cons, List.not_mem_nil, or_false, false_or] at hy
    rcases hy with rfl | rfl <;> exact hV4.not (by simp)
  · simp only [List.mem_filter] at hy; exact hy.1.1.1.1.1
  · simp only [decls, List.mem_append, List.mem_cons, List.not_mem_nil, or_false, not_or, List.append_nil, List.cons_append, List.nil_append] at hy
    simp [upd, hy]

theorem hwc_loop (L : Lib K) (hints : ∀ n, ints (n, none) = none) {F : Nat} {V : List Ident} {e : Env K} (avg : Bool) (c : PoolP) (src : Ref) {inv : K}
    (hF : c.C < F) (hFp : c.pool < F) (hFh : c.Ho < F) (hFw : c.Wo < F) (hV : OnlyK V) (hinv : avg = true → e iInv = some (.flt inv)) :
    Sim (std L ints) F V V e (hwcLoop avg c src.ident) (forN c.Ho fun oh => forN c.Wo fun ow => hwcRestProg L avg c src.buf inv oh ow) (fun _ => e) := by
  unfold hwcLoop
  refine Sim.forD0 (by simp) hFh fun oh _ => ?_
  have hV0 := hV.filter (.oh, none)
  have hV1 := hV0.filter iHs
  have hV2 := hV1.filter iKhs
  have hV3 := hV2.filter iHe
  have hV4 := hV3.filter iKhe
  have hV5 := hV4.filter (.ow, none)
  refine Sim.scope
    (Sim.declThen (v := .int ((c.padLeft : Int) - oh * c.stride)) (vars_low hV0 c (by simp)) (by ceval [hwcLowE])
    (Sim.declThen (v := .int (poolLow c oh)) (vars_max0 hV1 (by simp)) (eval_max0 (by simp) (by simp [upd]))
    (Sim.declThen (v := .int ((c.H : Int) + c.padLeft - oh * c.stride)) (vars_high hV2 c (by simp)) (by ceval [hwcHighE])
    (Sim.declThen (v := .int (poolHigh c c.H oh)) (vars_minN hV3 (by simp)) (eval_minN (by simp) (by simp [upd]))
      (Sim.forD0 (by simp) hFw fun ow _ =>
        hwc_out L hints avg c src hF hFp hV5 (by simp [upd]) (by simp [upd]) (by simp [upd]) (by simp [upd]) (fun h => by simpa [upd] using hinv h))))))
    (fun y hy => .inl ?_) (fun y hy => ?_)
  · simp only [List.mem_filter] at hy ⊢; exact hy.1.1.1.1
  · simp only [decls, List.mem_append, List.mem_cons, List.not_mem_nil, or_false, not_or, List.append_nil, List.cons_append, List.nil_append] at hy
    simp [upd, hy]

/-- the program of the whole text -/
def hwcProg (L : Lib K) (avg : Bool) (c : PoolP) (size : Nat) (src : Buf) (road : Nat) : Prog K Unit :=
  if avg then avgPoolHWCCode c size src road else maxPoolHWCCode c size (-L.inf) src road

/-- the text, as a program: where `k` is declared, `hwcAst` does what `hwcProg` does -/
theorem hwc_sim (L : Lib K) (hints : ∀ n, ints (n, none) = none) (avg : Bool) (c : PoolP) (size : Nat) (src : Ref) (road : Nat) {F : Nat} {e : Env K}
    (hpool : avg = true → 1 ≤ c.pool) (hF : c.C + c.pool + c.Ho + c.Wo + size < F) (he : IsInt e (.k, none)) :
    Sim (std L ints) F [((.k, none) : Ident)] [((.k, none) : Ident)] e (hwcAst avg c size src road) (hwcProg L avg c size src.buf road) (fun _ => e) := by
  have hV : OnlyK [((.k, none) : Ident)] := by intro y hy; simpa using hy
  unfold hwcAst hwcProg
  cases avg with
  | false =>
    refine Sim.block' ?_ rfl
    refine Sim.seq (mid := fun _ => e) (hwc_loop L hints false c src (inv := 0) (by omega) (by omega) (by omega) (by omega) hV (by simp)) fun _ => ?_
    exact Sim.copy (by simp) (by simp) (by omega) he (by simp) (by simp) (.inl rfl)
  | true =>
    have hne : c.pool * c.pool ≠ 0 := by have := hpool rfl; have := Nat.mul_pos this this; omega
    have hdiv : (divCount (1 : K) (c.pool * c.pool) : Prog K K) = ret (1 / ((c.pool * c.pool : Nat) : K)) := by
      funext m; unfold divCount; rw [if_neg hne]; rfl
    have hp : avgPoolHWCCode c size src.buf road = (do
        forN c.Ho fun oh => forN c.Wo fun ow => hwcRestProg L true c src.buf (1 / ((c.pool * c.pool : Nat) : K)) oh ow
        copyMap size .temp (.out road) id : Prog K Unit) := by
      unfold avgPoolHWCCode
      rw [hdiv]
      rfl
    show Sim (std L ints) F _ _ e _ (avgPoolHWCCode c size src.buf road) _
    rw [hp]
    have hV1 := hV.filter iInv
    refine Sim.scope (Sim.declThen (v := .flt (1 / ((c.pool * c.pool : Nat) : K))) (by simp [Expr.vars]) ?_
      (Sim.seq (mid := fun _ => upd e iInv (.flt (1 / ((c.pool * c.pool : Nat) : K)))) (hwc_loop L hints true c src (inv := 1 / ((c.pool * c.pool : Nat) : K)) (by omega) (by omega) (by omega) (by omega) hV1
        (by simp [upd])) fun _ => Sim.copy (by simp) (by simp) (by omega) (by simpa [upd, IsInt] using he) (by simp) (by simp) (.inl rfl)))
      (fun y hy => .inl (List.mem_filter.1 hy).1) (fun y hy => ?_)
    · ceval [lit]
    · have hy' : y ∉ [iInv] := hy
      simp only [List.mem_cons, List.not_mem_nil, or_false] at hy'
      simp [upd, hy']

omit [LinearOrder K] [FloorRing K] in
theorem hwc_noRedecl (avg : Bool) (c : PoolP) (size : Nat) (src : Ref) (road : Nat) : noRedecl (hwcAst avg c size src road : Stmt K) = true := by
  cases avg <;> kernel_rfl

/-- From the program to the text. -/
theorem hwc_text (L : Lib K) (hints : ∀ n, ints (n, none) = none) (avg : Bool) (c : PoolP) (size idx : Nat) (src : Ref) (road : Nat) (m : Mem K) (t : List K)
    (hpool : avg = true → 1 ≤ c.pool) (h : Computes (hwcProg L avg c size src.buf road) m (.out road) t) :
    ∃ s m', codeC Tpl.pooling2D_HWC (hwcHash avg c size idx .linear src road) = some s ∧ noRedecl s = true ∧
      (∃ F₀, ∀ e, IsInt e (.k, none) → ∀ F, F₀ ≤ F → ∃ e', Agree [(.k, none)] e' e ∧ s.run (std L ints) F e m = some (e', m')) ∧
      Holds m' (.out road) t ∧ OnlyChanges [.out road, .temp] m m' := by
  obtain ⟨m', hm, hh, hch⟩ := h
  refine ⟨_, m', hwc_code avg c size idx src road, hwc_noRedecl avg c size src road, ⟨c.C + c.pool + c.Ho + c.Wo + size + 1, fun e he F hF => ?_⟩, hh, hch⟩
  have := hwc_sim L hints avg c size src road (F := F) hpool (by omega) he e (Agree.refl _ _) m
  rw [hm] at this
  exact this

/-- **C75, max pooling `channels_last`, on the text** (partial: `pad_top = pad_left`).  The template `template_Pooling2D_HWC.c.tpl`, rendered with the values that
`MaxPooling2DDefault` passes for a linear activation, is a C program that declares no identifier twice in a block; run on a channels-last feature map whose elements are above
`-INFINITY` it terminates without out-of-bounds access, leaves the greatest element of every window, channels-last, in the output array,
and changes no other array but the temporary one and no variable but `k`. -/
theorem C75_max_text_partial (L : Lib K) (hints : ∀ n, ints (n, none) = none) (c : PoolP) (size idx road : Nat) (src : Ref)
    (x : Nat → Nat → Nat → K) (r : Nat → Nat → Nat → K) (m : Mem K) (hpad : c.padTop = c.padLeft)
    (hinf : ∀ f a b, f < c.C → a < c.H → b < c.W → -L.inf < x f a b)
    (hr : ∀ f i j, f < c.C → i < c.Ho → j < c.Wo → IsGreatest (windowSet c x f i j) (r f i j))
    (hx : Holds m src.buf (tensor3 c.H c.W c.C fun i j f => x f i j))
    (hsize : size = c.C * c.Ho * c.Wo) (ht : size ≤ m.size .temp) (ho : size ≤ m.size (.out road)) :
    ∃ s m', codeC Tpl.pooling2D_HWC (hwcHash false c size idx .linear src road) = some s ∧ noRedecl s = true ∧
      (∃ F₀, ∀ e, IsInt e (.k, none) → ∀ F, F₀ ≤ F → ∃ e', Agree [(.k, none)] e' e ∧ s.run (std L ints) F e m = some (e', m')) ∧
      Holds m' (.out road) (tensor3 c.Ho c.Wo c.C fun i j f => r f i j) ∧ OnlyChanges [.out road, .temp] m m' :=
  hwc_text L hints false c size idx src road m _ (by simp)
    (C75_max_code_partial c size road (-L.inf) src.buf x r m hpad hinf hr (by cases src <;> simp [Ref.buf]) hx hsize ht ho)

/-- **C75, average pooling `channels_last`, on the text** (partial: `pad_top = pad_left`).  The same for `AveragePooling2DDefault`; the text leaves the sum of every
window divided by the area of the pool. -/
theorem C75_avg_text_partial (L : Lib K) (hints : ∀ n, ints (n, none) = none) (c : PoolP) (size idx road : Nat) (src : Ref)
    (x : Nat → Nat → Nat → K) (m : Mem K) (hpool : 1 ≤ c.pool) (hpad : c.padTop = c.padLeft)
    (hx : Holds m src.buf (tensor3 c.H c.W c.C fun i j f => x f i j))
    (hsize : size = c.C * c.Ho * c.Wo) (ht : size ≤ m.size .temp) (ho : size ≤ m.size (.out road)) :
    ∃ s m', codeC Tpl.pooling2D_HWC (hwcHash true c size idx .linear src road) = some s ∧ noRedecl s = true ∧
      (∃ F₀, ∀ e, IsInt e (.k, none) → ∀ F, F₀ ≤ F → ∃ e', Agree [(.k, none)] e' e ∧ s.run (std L ints) F e m = some (e', m')) ∧
      Holds m' (.out road) (tensor3 c.Ho c.Wo c.C fun i j f => windowSum c x f i j / ((c.pool * c.pool : Nat) : K)) ∧
      OnlyChanges [.out road, .temp] m m' :=
  hwc_text L hints true c size idx src road m _ (fun _ => hpool)
    (C75_avg_code_partial c size road src.buf x m hpool hpad (by cases src <;> simp [Ref.buf]) hx hsize ht ho)

/-- hypotheses met: 3×3 windows, stride 2, paddings 1, on a 2-channel 5×5 image, in place -/
example (L : Lib ℚ) (hL : L.inf = 1) (m : Mem ℚ) (x : Nat → Nat → Nat → ℚ) (hpos : ∀ f a b, 0 ≤ x f a b)
    (hx : Holds m (.out 0) (tensor3 5 5 2 fun i j f => x f i j)) (ht : 18 ≤ m.size .temp) (ho : 18 ≤ m.size (.out 0)) :
    ∃ (s : Stmt ℚ) (m' : Mem ℚ) (r : Nat → Nat → Nat → ℚ), codeC Tpl.pooling2D_HWC (hwcHash false ⟨2, 5, 5, 3, 3, 2, 3, 1, 1, 1, 1⟩ 18 4 .linear (.out 0) 0) = some s ∧
      (∃ F₀, ∀ e, IsInt e (.k, none) → ∀ F, F₀ ≤ F → ∃ e', Agree [(.k, none)] e' e ∧ s.run (std L) F e m = some (e', m')) ∧
      (∀ f i j, f < 2 → i < 3 → j < 3 → maxPoolForward ⟨2, 5, 5, 3, 3, 2, 3, 1, 1, 1, 1⟩ x f i j = some (r f i j)) ∧
      Holds m' (.out 0) (tensor3 3 3 2 fun i j f => r f i j) := by
  have hfw := C13_max_forward_partial ⟨2, 5, 5, 3, 3, 2, 3, 1, 1, 1, 1⟩ x ⟨by decide, by decide, by decide, by decide⟩ (by decide) (by decide)
    (by decide) (by decide) (by decide) (by decide) (Or.inr ⟨by decide, fun f a b _ _ _ => hpos f a b⟩)
  obtain ⟨s, m', h1, -, h2, h3, -⟩ := C75_max_text_partial (ints := fun _ => none) L (fun _ => rfl) ⟨2, 5, 5, 3, 3, 2, 3, 1, 1, 1, 1⟩ 18 4 0 (.out 0) x
    (fun f i j => (maxPoolForward ⟨2, 5, 5, 3, 3, 2, 3, 1, 1, 1, 1⟩ x f i j).getD 0) m rfl
    (fun f a b _ _ _ => by rw [hL]; have := hpos f a b; linarith)
    (fun f i j hf hi hj => by
      obtain ⟨r, e, g⟩ := hfw f i j hf hi hj
      simpa [e] using g) hx rfl ht ho
  refine ⟨s, m', _, h1, h2, fun f i j hf hi hj => ?_, h3⟩
  obtain ⟨r, e, -⟩ := hfw f i j hf hi hj
  simp [e]

end Verif.CText

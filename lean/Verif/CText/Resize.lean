import Verif.CText.ResizeTf
import Verif.CText.Broadcast
import Mathlib.Algebra.Order.Floor.Ring

/-!
# The texts of the Resize layers
-/

namespace Verif.CText
open Prog Layers
set_option linter.unusedVariables false
set_option linter.unusedSectionVars false
variable {K : Type} [Field K] [LinearOrder K] [IsStrictOrderedRing K] [FloorRing K]
variable {ints : Ident → Option (List Nat)}
variable {G : Globals K} {F : Nat} {V V' V'' : List Ident} {e : Env K} {β γ : Type}

/-! ## Sequences -/

theorem Sim.append {a b : List (Stmt K)} {p : Prog K β} {q : β → Prog K γ} {mid : β → Env K} {post : γ → Env K} (hb0 : b ≠ [])
    (hb : ∀ x, Sim G F V' V'' (mid x) (seqs b) (q x) post) : a ≠ [] → Sim G F V V' e (seqs a) p mid →
    Sim G F V V'' e (seqs (a ++ b)) (p >>= q) post := by
  intro ha0 ha
  have hrun : ∀ (a : List (Stmt K)), a ≠ [] → ∀ e m, (seqs (a ++ b)).run G F e m = (Stmt.seq (seqs a) (seqs b)).run G F e m := by
    intro a
    induction a with
    | nil => intro h; exact absurd rfl h
    | cons x a ih =>
      intro _ e m
      cases a with
      | nil =>
        obtain ⟨y, b, rfl⟩ := List.exists_cons_of_ne_nil hb0
        rfl
      | cons y a =>
        have := fun e m => ih (by simp) e m
        show (Stmt.seq x (seqs (y :: a ++ b))).run G F e m = (Stmt.seq (.seq x (seqs (y :: a))) (seqs b)).run G F e m
        have e1 : (Stmt.seq (.seq x (seqs (y :: a))) (seqs b)).run G F e m = (Stmt.seq x (.seq (seqs (y :: a)) (seqs b))).run G F e m := by
          simp only [Stmt.run]
          exact congrFun (bind_assoc' _ _ _) m
        rw [e1]
        show andThen _ _ m = andThen _ _ m
        unfold andThen
        split
        · rfl
        · exact this _ _
  have := Sim.seq ha hb
  intro e₁ h1 m
  rw [hrun a ha0]
  exact this e₁ h1 m

theorem seqs_cons (a : Stmt K) {l : List (Stmt K)} (h : l ≠ []) : seqs (a :: l) = .seq a (seqs l) := by
  cases l with
  | nil => exact absurd rfl h
  | cons => rfl

/-- assignment of a `float` variable that was not followed -/
theorem Sim.newF {x : Ident} {ex : Expr K} {q : Prog K K} (hx : sameTy (e x) (some (.flt 0))) (hd : ∀ y ∈ ex.vars, y ∉ V) (hxd : x ∉ ex.vars)
    (hq : (ex.eval G e >>= asK) = q) : Sim G F V (V.filter (· ≠ x)) e (.assign (.var x) .set ex) q (fun b => upd e x (.flt b)) := by
  refine Sim.float x hx fun v => ?_
  have hag : Agree [x] (upd e x (.flt v)) e := by
    intro y
    by_cases hy : y = x
    · subst hy
      rw [if_pos (by simp), upd_same]
      exact sameTy_flt hx
    · rw [if_neg (by simpa using hy)]
      simp [upd, hy]
  have he : ex.eval G (upd e x (.flt v)) = ex.eval G e := eval_congr G hag ex (by
    intro y hy hyx
    rw [List.mem_singleton.1 hyx] at hy
    exact hxd hy)
  refine Sim.set' (old := .flt v) (val := fun b => .flt b) (upd_same _ _ _) (by simp) (fun y hy h => hd y hy (List.mem_filter.1 h).1) ?_ fun b => ?_
  · rw [he, ← hq, bind_assoc']
    congr 1; funext u
    cases u <;> simp [aop, convert, Val.toK, asK, ofOpt, ret_andThen, fail_andThen]
  · rw [upd_upd]
    exact Agree.refl _ _

/-- assignment of an `int` variable that was not followed -/
theorem Sim.newI {x : Ident} {ex : Expr K} {q : Prog K Int} (hx : IsInt e x) (hd : ∀ y ∈ ex.vars, y ∉ V) (hxd : x ∉ ex.vars)
    (hq : (ex.eval G e >>= fun v => ofOpt v.toInt) = q) : Sim G F V (V.filter (· ≠ x)) e (.assign (.var x) .set ex) q (fun b => upd e x (.int b)) := by
  refine Sim.int x hx fun v => ?_
  have hag : Agree [x] (upd e x (.int v)) e := by
    intro y
    by_cases hy : y = x
    · subst hy
      rw [if_pos (by simp), upd_same]
      exact sameTy_int hx
    · rw [if_neg (by simpa using hy)]
      simp [upd, hy]
  have he : ex.eval G (upd e x (.int v)) = ex.eval G e := eval_congr G hag ex (by
    intro y hy hyx
    rw [List.mem_singleton.1 hyx] at hy
    exact hxd hy)
  refine Sim.set' (old := .int v) (val := fun b => .int b) (upd_same _ _ _) (by simp) (fun y hy h => hd y hy (List.mem_filter.1 h).1) ?_ fun b => ?_
  · rw [he, ← hq, bind_assoc']
    congr 1; funext u
    cases u <;> simp [aop, convert, Val.toInt, ofOpt, ret_andThen, fail_andThen]
  · rw [upd_upd]
    exact Agree.refl _ _

theorem toInt_cast (z : Int) : Val.toInt (K := K) (.flt (z : K)) = some z := by
  have h1 : ⌊(z : K)⌋ = z := Int.floor_intCast z
  have h2 : ⌊(-z : K)⌋ = -z := by rw [← Int.cast_neg]; exact Int.floor_intCast _
  simp only [Val.toInt]
  split <;> simp [h1, h2]

theorem toInt_succ (z : Int) : Val.toInt (K := K) (.flt ((z : K) + 1)) = some (z + 1) := by
  have := toInt_cast (K := K) (z + 1)
  push_cast at this
  exact this

theorem floor_eval {x : Ident} {v : K} (hx : x ≠ (.INFINITY, none)) (h : e x = some (.flt v)) :
    ((Expr.call1 (.floor, none) (.var x)).eval G e >>= fun v => ofOpt v.toInt) = ret ⌊v⌋ := by
  simp only [Expr.eval, hx, if_false, h, ofOpt_some, ret_bind, asK, Val.toK, lib1, toInt_cast]

theorem floor1_eval {x : Ident} {v : K} (hx : x ≠ (.INFINITY, none)) (h : e x = some (.flt v)) :
    ((Expr.bin .add (Expr.call1 (.floor, none) (.var x)) (.num 1)).eval G e >>= fun v => ofOpt v.toInt) = ret (⌊v⌋ + 1) := by
  simp only [Expr.eval, hx, if_false, h, ofOpt_some, ret_bind, asK, Val.toK, lib1, binOp, fltOp, Nat.cast_one, Int.cast_one, toInt_succ]

theorem tdiv_nat (a b : Nat) : (a : Int).tdiv b = ((a / b : Nat) : Int) := rfl

/-! ## Coordinates -/

/-- what the declarations of `half_pixel_symmetric` leave -/
def symEnv (mode : CoordMode) (a : RAxis K) (e : Env K) : Env K :=
  match mode with
  | .halfPixelSymmetric =>
    let t := (a.outLen : K) * a.scale
    let adj := (⌊t⌋ : K) / t
    let cen := ((a.inLen / 2 : Nat) : K)
    upd (upd (upd e symAdj (.flt adj)) symCen (.flt cen)) symOff (.flt (cen * (1 - adj)))
  | _ => e

theorem Sim.coord (mode : CoordMode) (hm : mode ≠ .tfCropAndResize) (a : RAxis K) (hs : 0 < a.scale) (hl : 0 < a.inLen) (c : CVar) {n : Nat} (hn : n < a.outLen)
    (hv : e c.vId = some (.int n)) (hvV : c.vId ∉ V) (hx : sameTy (e c.xId) (some (.flt 0))) (hsy : symAdj ∉ V ∧ symCen ∉ V ∧ symOff ∉ V) :
    Sim G F V (V.filter (· ≠ c.xId)) e (seqs (coordS mode a c)) (liftOpt (coordC mode a n)) (fun b => upd (symEnv mode a e) c.xId (.flt b)) := by
  have hvi : c.vId ≠ (.INFINITY, none) := by cases c <;> simp [CVar.vId]
  have hxv : c.xId ≠ c.vId := by cases c <;> simp [CVar.vId, CVar.xId]
  have hhalf : lit K 5 1 = 1 / 2 := by simp [lit]; norm_num
  have hH : ∀ e' : Env K, e' c.vId = some (.int n) → (halfE a c).eval G e' = ret (.flt ((n + 1 / 2) / a.scale)) := by
    intro e' he'
    simp [halfE, Expr.eval, he', hvi, ret_andThen, ofOpt_some, binOp, fltOp, hhalf]
  have half : Sim G F V (V.filter (· ≠ c.xId)) e (.assign (.var c.xId) .set (.bin .sub (halfE a c) (.flt (lit K 5 1)))) (ret ((n + 1 / 2) / a.scale - 1 / 2))
      (fun b => upd e c.xId (.flt b)) := by
    refine Sim.newF hx (by simpa [halfE, Expr.vars] using hvV) (by simpa [halfE, Expr.vars] using hxv) ?_
    simp only [Expr.eval, hH e hv]
    simp [ret_andThen, ofOpt_some, binOp, fltOp, hhalf, asK, Val.toK]
  cases mode with
  | tfCropAndResize => exact absurd rfl hm
  | halfPixel => exact half
  | pytorchHalfPixel =>
    unfold coordS coordC
    by_cases h : a.outLen > 1
    · simp only [h, if_true]; exact half
    · simp only [h, if_false]
      refine Sim.newF hx (by simp [Expr.vars]) (by simp [Expr.vars]) ?_
      simp [Expr.eval, ret_andThen, asK, Val.toK]
      rfl
  | asymmetric =>
    refine Sim.newF hx (by simpa [Expr.vars] using hvV) (by simpa [Expr.vars] using hxv) ?_
    simp [Expr.eval, hv, hvi, ret_andThen, ofOpt_some, binOp, fltOp, asK, Val.toK, coordC]
    rfl
  | alignCorners =>
    refine Sim.newF hx (by simpa [Expr.vars] using hvV) (by simpa [Expr.vars] using hxv) ?_
    have h1 : ((a.inLen : Int) - 1) = ((a.inLen - 1 : Nat) : Int) := by omega
    have h2 : ((a.outLen : Int) - 1) = ((a.outLen - 1 : Nat) : Int) := by omega
    simp only [Expr.eval, hv, hvi, if_false, ret_bind, ofOpt_some, binOp, intOp, coordC]
    by_cases h : a.outLen - 1 = 0
    · have h3 : (a.outLen : Int) - (1 : Nat) = 0 := by omega
      simp only [h, h3, if_true]
      rfl
    · have h3 : ¬ (a.outLen : Int) - (1 : Nat) = 0 := by omega
      simp only [h, h3, if_false, ofOpt_some, ret_bind, asK, Val.toK]
      simp only [Nat.cast_one]
      rw [h1, h2, ← Nat.cast_mul, tdiv_nat]
      simp only [Int.cast_natCast]
      rfl
  | halfPixelSymmetric =>
    obtain ⟨h1, h2, h3⟩ := hsy
    have ht : (0 : K) ≤ (a.outLen : K) * a.scale := mul_nonneg (Nat.cast_nonneg _) hs.le
    have hfl : ((⌊(a.outLen : K) * a.scale⌋.toNat : Int) : K) = (⌊(a.outLen : K) * a.scale⌋ : K) := by
      rw [Int.toNat_of_nonneg (Int.floor_nonneg.2 ht)]
    have n1 : c.vId ≠ symAdj ∧ c.vId ≠ symCen ∧ c.vId ≠ symOff := by cases c <;> decide
    have n2 : c.xId ≠ symAdj ∧ c.xId ≠ symCen ∧ c.xId ≠ symOff := by cases c <;> decide
    have n3 : symAdj ≠ (.INFINITY, none) ∧ symCen ≠ (.INFINITY, none) ∧ symOff ≠ (.INFINITY, none) := by decide
    have n4 : symAdj ≠ symCen := by decide
    unfold coordS
    dsimp only [seqs]
    refine Sim.seq' (x := ()) (Sim.decl (val := fun _ => .flt ((⌊(a.outLen : K) * a.scale⌋ : K) / ((a.outLen : K) * a.scale))) (by simp [Expr.vars]) ?_) ?_
    · simp only [Expr.eval, ret_bind, binOp, fltOp, hfl, ofOpt_some, convertTy, Val.toK, Option.map_some]
    refine Sim.seq' (x := ()) (Sim.decl (val := fun _ => .flt ((a.inLen / 2 : Nat) : K)) (by simp [Expr.vars]) ?_) ?_
    · have : ((a.inLen : Int)).tdiv ((2 : Nat) : Int) = ((a.inLen / 2 : Nat) : Int) := tdiv_nat _ _
      have h20 : ¬ ((2 : Nat) : Int) = 0 := by decide
      simp only [Expr.eval, ret_bind, binOp, intOp, this, h20, if_false, ofOpt_some, convertTy, Val.toK, Option.map_some, Int.cast_natCast]
    refine Sim.seq' (x := ()) (Sim.decl (val := fun _ => .flt (((a.inLen / 2 : Nat) : K) * (1 - (⌊(a.outLen : K) * a.scale⌋ : K) / ((a.outLen : K) * a.scale)))) (by simp [Expr.vars, h1, h2]) ?_) ?_
    · simp [Expr.eval, n3, upd, n4, ret_andThen, binOp, fltOp, ofOpt_some, convertTy, Val.toK]
    refine (Sim.newF (q := liftOpt (coordC .halfPixelSymmetric a n)) (by simpa [upd, n2] using hx) (by simpa [halfE, Expr.vars] using ⟨h3, hvV⟩) (by simpa [halfE, Expr.vars] using ⟨n2.2.2, hxv⟩) ?_)
    simp only [Expr.eval, hH _ (show upd (upd (upd e symAdj _) symCen _) symOff _ c.vId = some (.int n) by simp [upd, n1, hv])]
    simp [n3, upd, ret_andThen, binOp, fltOp, ofOpt_some, asK, Val.toK, hhalf, coordC]
    rfl

/-! ## Cells -/

theorem symEnv_of_compiles2 {mode : CoordMode} (h : compiles2 mode = true) (a : RAxis K) (e : Env K) : symEnv mode a e = e := by
  cases mode <;> first | rfl | cases h

theorem not_tf_of_compiles2 {mode : CoordMode} (h : compiles2 mode = true) : mode ≠ .tfCropAndResize := by
  rintro rfl; cases h

theorem coordS_ne {mode : CoordMode} (h : mode ≠ .tfCropAndResize) (a : RAxis K) (c : CVar) : coordS mode a c ≠ [] := by
  unfold coordS
  cases mode <;> first | exact absurd rfl h | simp
  split <;> simp

theorem decls_flat (l : List (Stmt K)) : decls (seqs l) = l.flatMap decls := by
  induction l with
  | nil => rfl
  | cons x l ih =>
    cases l with
    | nil => simp [seqs]
    | cons y l => rw [seqs_cons x (by simp), decls, ih]; rfl

theorem coordS_decls {mode : CoordMode} (h : compiles2 mode = true) (a : RAxis K) (c : CVar) : (coordS mode a c).flatMap decls = [] := by
  unfold coordS
  cases mode <;> try first | rfl | cases h
  by_cases h2 : a.outLen > 1 <;> simp [h2, decls]

theorem Agree.updF {V : List Ident} {e e' : Env K} {x : Ident} {v : K} (h : Agree V e e') (hV : x ∈ V) (ht : sameTy (e' x) (some (.flt 0))) : Agree V (CText.upd e x (.flt v)) e' :=
  h.upd_left hV (sameTy_flt ht)

theorem Agree.updI {V : List Ident} {e e' : Env K} {x : Ident} {v : Int} (h : Agree V e e') (hV : x ∈ V) (ht : IsInt e' x) : Agree V (CText.upd e x (.int v)) e' :=
  h.upd_left hV (sameTy_int ht)

theorem upd_ty {e : Env K} {x y : Ident} {t : Val K} (v : Val K) (h : sameTy (e y) (some t)) (hxy : y ≠ x) : sameTy (upd e x v y) (some t) := by
  simpa [upd, hxy] using h

theorem round_eval (nm : NearestMode) {x : Ident} {v : K} (hx : x ≠ (.INFINITY, none)) (h : e x = some (.flt v)) :
    (roundE nm (.var x)).eval G e = ret (.flt ((nm.round v : Int) : K)) := by
  cases nm <;> simp [roundE, Expr.eval, hx, h, ret_andThen, ofOpt_some, asK, Val.toK, lib1, binOp, fltOp, NearestMode.round]

theorem nearest_renders (L : Lib K) (mode : CoordMode) (nm : NearestMode) (C size idx : Nat) (h w : RAxis K) (ext : SNum K) (act : CAct K) (src : Ref) (road : Nat)
    (hs : 0 < h.scale) (hl : 0 < h.inLen) (ws : 0 < w.scale) (wl : 0 < w.inLen) (p : Prog K Unit) (hp : nearestCode mode nm C size h w (act.fn (std L ints)) src.buf road = some p) :
    Renders (std L ints) Tpl.resizeNearest (nearestHash mode nm C size idx h w ext act src road)
      [((.f, none), .int), ((.i, none), .int), ((.j, none), .int), ((.k, none), .int), ((.x, none), .float), ((.y, none), .float), ((.x0, none), .int), ((.y0, none), .int)] p := by
  unfold nearestCode at hp
  split at hp
  case isFalse => cases hp
  rename_i hc
  cases hp
  have hm := not_tf_of_compiles2 hc
  refine Renders.of_sim (C + h.outLen + w.outLen + size + 1) (nearest_code mode hm nm C size idx h w ext act src road) fun e he F hF => ?_
  have hf := he.int (.f, none) (by simp)
  have hi := he.int (.i, none) (by simp)
  have hj := he.int (.j, none) (by simp)
  have hk := he.int (.k, none) (by simp)
  have hx := he.float (.x, none) (by simp)
  have hy := he.float (.y, none) (by simp)
  have hx0 := he.int (.x0, none) (by simp)
  have hy0 := he.int (.y0, none) (by simp)
  refine Sim.seq (Sim.loop3 (by simp) (by simp) (by simp) (by omega) hf hi hj fun f i j _ hi' hj' => Sim.block' ?_ ?_) fun _ =>
    Sim.copy (by simp) (by simp) (by omega) hk (by simp) (by simp) (by simp)
  · generalize he0 : upd (upd (upd e (.f, none) (.int f)) (.i, none) (.int i)) (.j, none) (.int j) = e0
    have ef : e0 (.f, none) = some (.int f) := by simp [← he0, upd]
    have ei : e0 (.i, none) = some (.int i) := by simp [← he0, upd]
    have ej : e0 (.j, none) = some (.int j) := by simp [← he0, upd]
    have tx : sameTy (e0 (.x, none)) (some (.flt 0)) := by simpa [← he0, upd] using hx
    have ty : sameTy (e0 (.y, none)) (some (.flt 0)) := by simpa [← he0, upd] using hy
    have tx0 : IsInt e0 (.x0, none) := by simpa [← he0, upd, IsInt] using hx0
    have ty0 : IsInt e0 (.y0, none) := by simpa [← he0, upd, IsInt] using hy0
    clear he0
    refine Sim.append (by simp [coordS_ne hm]) (fun x => ?_) (coordS_ne hm _ _) (Sim.coord mode hm h hs hl .ix hi' ei (by simp [CVar.vId]) tx (by simp [symAdj, symCen, symOff]))
    rw [symEnv_of_compiles2 hc]
    refine Sim.append (by simp) (fun y => ?_) (coordS_ne hm _ _) (Sim.coord mode hm w ws wl .jy hj' (by simpa [upd, CVar.vId, CVar.xId] using ej) (by simp [CVar.vId]) (by simpa [upd, CVar.vId, CVar.xId] using ty) (by simp [symAdj, symCen, symOff]))
    rw [symEnv_of_compiles2 hc]
    refine Sim.seq' (x := nm.round x) (Sim.newI (by simpa [upd, CVar.xId, IsInt] using tx0) (by cases nm <;> simp [roundE, Expr.vars, CVar.xId]) (by cases nm <;> simp [roundE, Expr.vars]) ?_) ?_
    · rw [round_eval nm (v := x) (by simp) (by simp [upd, CVar.xId]), ret_bind, toInt_cast]; rfl
    refine Sim.seq' (x := nm.round y) (Sim.newI (by simpa [upd, CVar.xId, IsInt] using ty0) (by cases nm <;> simp [roundE, Expr.vars, CVar.xId]) (by cases nm <;> simp [roundE, Expr.vars]) ?_) ?_
    · rw [round_eval nm (v := y) (by simp) (by simp [upd, CVar.xId]), ret_bind, toInt_cast]; rfl
    refine (Sim.storeAct (b := .temp) (za := at3 h.outLen w.outLen f i j) (q := load src.buf (nm.round y + w.inLen * (nm.round x + h.inLen * f))) (by simp) (by simp [Expr.vars, cellE, CVar.xId]) (by simp [Expr.vars, nearE, CVar.xId])
      (by simp only [cellE]; ceval [at3, ef, ei, ej, CVar.xId]) (Reads.load _ _) (by simp only [nearE]; ceval [ef, ei, ej, CVar.xId]) (by simp [isFlt, nearE])).weaken (fun _ => ?_) ?_
    · exact Agree.updI (Agree.updI (Agree.updF (Agree.updF (Agree.refl _ _) (by simp [CVar.xId]) tx) (by simp [CVar.xId]) ty) (by simp) tx0) (by simp) ty0
    · simp only [List.mem_filter]; tauto
  · simp only [decls_flat, nearestCell, List.flatMap_append, coordS_decls hc]; rfl

theorem clamp_eval {x : Ident} {v : K} {lo hi : Expr K} {a b : Int} (hx : x ≠ (.INFINITY, none)) (h : e x = some (.flt v)) (hlo : lo.eval G e = ret (.int a)) (hhi : hi.eval G e = ret (.int b)) :
    (clampE x lo hi).eval G e = ret (.flt (clampC (a : K) (b : K) v)) := by
  have hv : (Expr.var x).eval G e = ret (.flt v) := by simp [Expr.eval, hx, h, ofOpt_some]
  have hf : isFlt G e (.var x) = true := by simp [isFlt, h]
  unfold clampE clampC
  by_cases h1 : v < a
  · simp [Expr.eval, hx, h, hlo, hhi, isFlt, ret_andThen, ofOpt_some, binOp, fltOp, truth, boolVal, asK, Val.toK, h1]
  · by_cases h2 : (b : K) < v <;>
    simp [Expr.eval, hx, h, hlo, hhi, isFlt, ret_andThen, ofOpt_some, binOp, fltOp, truth, boolVal, asK, Val.toK, h1, h2]

/-- `c ? 0 : b[a]` -/
theorem condLoad {c r : Expr K} {P : Prop} [Decidable P] {b : Buf} {a : Int} (hc : (c.eval G e >>= truth) = ret (decide P)) (hr : r.eval G e = loadAt b a) (hf : isFlt G e r = true) :
    ((Expr.cond c (.num 0) r).eval G e >>= asK) = (if P then pure 0 else load b a : Prog K K) := by
  have h1 : (Expr.cond c (.num 0) r).eval G e = ((c.eval G e >>= truth) >>= fun t => ((if t then ret (.int 0) else r.eval G e : Prog K (Val K)) >>= asK) >>= fun x => ret (.flt x)) := by
    simp only [Expr.eval, bind_assoc', hf, Bool.or_true, if_true]
    rfl
  rw [h1, hc, hr]
  by_cases h : P <;> simp [h, ret_andThen, loadAt, asK, Val.toK, andThen_assoc, andThen_ret]

/-- the variables of the templates -/
def lin2Vars : List (Ident × Ty) :=
  [((.f, none), .int), ((.i, none), .int), ((.j, none), .int), ((.k, none), .int), ((.x, none), .float), ((.y, none), .float), ((.x0, none), .int), ((.y0, none), .int),
    ((.x1, none), .int), ((.y1, none), .int), ((.f11, none), .float), ((.f12, none), .float), ((.f21, none), .float), ((.f22, none), .float)]

set_option maxHeartbeats 1000000 in
theorem linear2_renders (L : Lib K) (mode : CoordMode) (C size idx : Nat) (h w : RAxis K) (ext : SNum K) (act : CAct K) (src : Ref) (road : Nat)
    (hs : 0 < h.scale) (hl : 0 < h.inLen) (ws : 0 < w.scale) (wl : 0 < w.inLen) (p : Prog K Unit) (hp : linear2Code mode C size h w (act.fn (std L ints)) src.buf road = some p) :
    Renders (std L ints) Tpl.resizeLinear2D (linear2Hash mode C size idx h w ext act src road) lin2Vars p := by
  unfold linear2Code at hp
  split at hp
  case isFalse => cases hp
  rename_i hc
  cases hp
  have hm := not_tf_of_compiles2 hc
  refine Renders.of_sim (C + h.outLen + w.outLen + size + 1) (linear2_code mode hm C size idx h w ext act src road) fun e he F hF => ?_
  unfold lin2Vars at he ⊢
  have hf := he.int (.f, none) (by simp)
  have hi := he.int (.i, none) (by simp)
  have hj := he.int (.j, none) (by simp)
  have hk := he.int (.k, none) (by simp)
  have hx := he.float (.x, none) (by simp)
  have hy := he.float (.y, none) (by simp)
  have hx0 := he.int (.x0, none) (by simp)
  have hy0 := he.int (.y0, none) (by simp)
  have hx1 := he.int (.x1, none) (by simp)
  have hy1 := he.int (.y1, none) (by simp)
  have h11 := he.float (.f11, none) (by simp)
  have h12 := he.float (.f12, none) (by simp)
  have h21 := he.float (.f21, none) (by simp)
  have h22 := he.float (.f22, none) (by simp)
  refine Sim.seq (Sim.loop3 (by simp) (by simp) (by simp) (by omega) hf hi hj fun f i j _ hi' hj' => Sim.block' ?_ ?_) fun _ =>
    Sim.copy (by simp) (by simp) (by omega) hk (by simp) (by simp) (by simp)
  · generalize he0 : upd (upd (upd e (.f, none) (.int f)) (.i, none) (.int i)) (.j, none) (.int j) = e0
    have ef : e0 (.f, none) = some (.int f) := by simp [← he0, upd]
    have ei : e0 (.i, none) = some (.int i) := by simp [← he0, upd]
    have ej : e0 (.j, none) = some (.int j) := by simp [← he0, upd]
    have tx : sameTy (e0 (.x, none)) (some (.flt 0)) := by simpa [← he0, upd] using hx
    have ty : sameTy (e0 (.y, none)) (some (.flt 0)) := by simpa [← he0, upd] using hy
    have tx0 : IsInt e0 (.x0, none) := by simpa [← he0, upd, IsInt] using hx0
    have ty0 : IsInt e0 (.y0, none) := by simpa [← he0, upd, IsInt] using hy0
    have tx1 : IsInt e0 (.x1, none) := by simpa [← he0, upd, IsInt] using hx1
    have ty1 : IsInt e0 (.y1, none) := by simpa [← he0, upd, IsInt] using hy1
    have t11 : sameTy (e0 (.f11, none)) (some (.flt 0)) := by simpa [← he0, upd] using h11
    have t12 : sameTy (e0 (.f12, none)) (some (.flt 0)) := by simpa [← he0, upd] using h12
    have t21 : sameTy (e0 (.f21, none)) (some (.flt 0)) := by simpa [← he0, upd] using h21
    have t22 : sameTy (e0 (.f22, none)) (some (.flt 0)) := by simpa [← he0, upd] using h22
    clear he0
    refine Sim.append (by simp [coordS_ne hm]) (fun x => ?_) (coordS_ne hm _ _) (Sim.coord mode hm h hs hl .ix hi' ei (by simp [CVar.vId]) tx (by simp [symAdj, symCen, symOff]))
    rw [symEnv_of_compiles2 hc]
    refine Sim.append (by simp) (fun y => ?_) (coordS_ne hm _ _) (Sim.coord mode hm w ws wl .jy hj' (by simpa [upd, CVar.vId, CVar.xId] using ej) (by simp [CVar.vId]) (by simpa [upd, CVar.vId, CVar.xId] using ty) (by simp [symAdj, symCen, symOff]))
    rw [symEnv_of_compiles2 hc]
    have vx : CVar.ix.xId = (.x, none) := rfl
    have vy : CVar.jy.xId = (.y, none) := rfl
    simp only [vx, vy]
    refine Sim.seq' (x := ()) (Sim.set (q := ret ()) (old := .flt x) (val := fun _ => .flt (clampC 0 ((h.inLen - 1 : Nat) : K) x)) (by simp [upd]) (by simp) (by simp [clampE, Expr.vars]) ?_) ?_
    · rw [clamp_eval (v := x) (a := 0) (b := (h.inLen - 1 : Nat)) (by simp) (by simp [upd]) (by simp [Expr.eval]) (by simp [Expr.eval])]
      simp [ret_andThen, aop, convert, Val.toK, ofOpt_some]
    refine Sim.seq' (x := ()) (Sim.set (q := ret ()) (old := .flt y) (val := fun _ => .flt (clampC 0 ((w.inLen - 1 : Nat) : K) y)) (by simp [upd]) (by simp) (by simp [clampE, Expr.vars]) ?_) ?_
    · rw [clamp_eval (v := y) (a := 0) (b := (w.inLen - 1 : Nat)) (by simp) (by simp [upd]) (by simp [Expr.eval]) (by simp [Expr.eval])]
      simp [ret_andThen, aop, convert, Val.toK, ofOpt_some]
    dsimp only
    generalize clampC 0 ((h.inLen - 1 : Nat) : K) x = x'
    generalize clampC 0 ((w.inLen - 1 : Nat) : K) y = y'
    refine Sim.seq' (x := ⌊x'⌋ + 1) (Sim.newI (by simpa [upd, IsInt] using tx1) (by simp [Expr.vars]) (by simp [Expr.vars]) ?_) ?_
    · exact floor1_eval (by simp) (by simp [upd])
    refine Sim.seq' (x := ⌊x'⌋) (Sim.newI (by simpa [upd, IsInt] using tx0) (by simp [Expr.vars]) (by simp [Expr.vars]) ?_) ?_
    · exact floor_eval (by simp) (by simp [upd])
    refine Sim.seq' (x := ⌊y'⌋) (Sim.newI (by simpa [upd, IsInt] using ty0) (by simp [Expr.vars]) (by simp [Expr.vars]) ?_) ?_
    · exact floor_eval (by simp) (by simp [upd])
    refine Sim.seq' (x := ⌊y'⌋ + 1) (Sim.newI (by simpa [upd, IsInt] using ty1) (by simp [Expr.vars]) (by simp [Expr.vars]) ?_) ?_
    · exact floor1_eval (by simp) (by simp [upd])
    refine Sim.seq (Sim.newF (q := load src.buf (⌊y'⌋ + w.inLen * (⌊x'⌋ + h.inLen * f))) (by simpa [upd] using t11) (by simp [Expr.vars, rdE]) (by simp [Expr.vars, rdE]) ?_) fun f11 => ?_
    · unfold rdE; ceval [ef]
    refine Sim.seq (Sim.newF (by simpa [upd] using t21) (by simp [Expr.vars, rdE]) (by simp [Expr.vars, rdE])
      (condLoad (P := ⌊x'⌋ + 1 ≥ (h.inLen : Int)) (b := src.buf) (a := ⌊y'⌋ + w.inLen * (⌊x'⌋ + 1 + h.inLen * f)) ?_ (by unfold rdE; ceval [ef]) (by simp [rdE, isFlt]))) fun f21 => ?_
    · exact (truth_cmp (x := ⌊x'⌋ + 1) (y := h.inLen) (eval_var (by simp) (by simp [upd])) rfl).2.2.2.1
    refine Sim.seq (Sim.newF (by simpa [upd] using t22) (by simp [Expr.vars, rdE]) (by simp [Expr.vars, rdE])
      (condLoad (P := ⌊x'⌋ + 1 ≥ (h.inLen : Int) ∨ ⌊y'⌋ + 1 ≥ (w.inLen : Int)) (b := src.buf) (a := ⌊y'⌋ + 1 + w.inLen * (⌊x'⌋ + 1 + h.inLen * f)) ?_ (by unfold rdE; ceval [ef]) (by simp [rdE, isFlt]))) fun f22 => ?_
    · exact truth_lor (truth_cmp (x := ⌊x'⌋ + 1) (y := h.inLen) (eval_var (by simp) (by simp [upd])) rfl).2.2.2.1 (truth_cmp (x := ⌊y'⌋ + 1) (y := w.inLen) (eval_var (by simp) (by simp [upd])) rfl).2.2.2.1
    refine Sim.seq (Sim.newF (by simpa [upd] using t12) (by simp [Expr.vars, rdE]) (by simp [Expr.vars, rdE])
      (condLoad (P := ⌊y'⌋ + 1 ≥ (w.inLen : Int)) (b := src.buf) (a := ⌊y'⌋ + 1 + w.inLen * (⌊x'⌋ + h.inLen * f)) ?_ (by unfold rdE; ceval [ef]) (by simp [rdE, isFlt]))) fun f12 => ?_
    · exact (truth_cmp (x := ⌊y'⌋ + 1) (y := w.inLen) (eval_var (by simp) (by simp [upd])) rfl).2.2.2.1
    refine Sim.seq ((Sim.store (b := .temp) (za := at3 h.outLen w.outLen f i j) (q := ret ((f11 * ((⌊x'⌋ + 1 : Int) - x') * ((⌊y'⌋ + 1 : Int) - y') + f21 * (x' - ⌊x'⌋) * ((⌊y'⌋ + 1 : Int) - y') + f12 * ((⌊x'⌋ + 1 : Int) - x') * (y' - ⌊y'⌋) +
          f22 * (x' - ⌊x'⌋) * (y' - ⌊y'⌋)) / (((⌊x'⌋ + 1 - ⌊x'⌋) * (⌊y'⌋ + 1 - ⌊y'⌋) : Int) : K))) (by simp) (by simp [Expr.vars, cellE]) (by simp [Expr.vars, lin2E]) (by simp only [cellE]; ceval [at3, ef, ei, ej]) ?_).congr (ret_bind _ _)) fun _ => ?_
    · simp only [lin2E]
      ceval
    refine (Sim.storeAct (b := .temp) (za := at3 h.outLen w.outLen f i j) (q := load .temp (at3 h.outLen w.outLen f i j : Int)) (by simp) (by simp [Expr.vars, cellE]) (by simp [Expr.vars, cellE])
      (by simp only [cellE]; ceval [at3, ef, ei, ej]) (Reads.load _ _) (by simp only [cellE]; ceval [at3, ef, ei, ej]) (by simp [isFlt])).weaken (fun _ => ?_) ?_
    · exact Agree.updF (Agree.updF (Agree.updF (Agree.updF (Agree.updI (Agree.updI (Agree.updI (Agree.updI (Agree.updF (Agree.updF (Agree.updF (Agree.updF (Agree.refl _ _) (by simp) tx) (by simp) ty) (by simp) tx) (by simp) ty)
        (by simp) tx1) (by simp) tx0) (by simp) ty0) (by simp) ty1) (by simp) t11) (by simp) t21) (by simp) t22) (by simp) t12
    · simp only [List.mem_filter]; tauto
  · simp only [decls_flat, linear2Cell, List.flatMap_append, coordS_decls hc]; rfl

/-! ## One dimension -/

theorem symEnv_get {mode : CoordMode} {a : RAxis K} {e : Env K} {y : Ident} (hy : y ≠ symAdj ∧ y ≠ symCen ∧ y ≠ symOff) : symEnv mode a e y = e y := by
  unfold symEnv
  cases mode <;> first | rfl | simp [upd, hy]

theorem restore_sym (mode : CoordMode) (a : RAxis K) (c : CVar) (e : Env K) : restore ((coordS mode a c).flatMap decls) e (symEnv mode a e) = e := by
  funext z
  cases mode with
  | halfPixelSymmetric =>
    show (if z ∈ [symAdj, symCen, symOff] then e z else _) = e z
    split
    · rfl
    · rename_i h
      simp only [List.mem_cons, List.not_mem_nil, or_false, not_or] at h
      exact symEnv_get h
  | _ => simp [restore, symEnv]

/-- the block of a template with one coordinate -/
theorem Sim.cell1 (mode : CoordMode) (hm : mode ≠ .tfCropAndResize) (a : RAxis K) (hs : 0 < a.scale) (hl : 0 < a.inLen) (c : CVar) {n : Nat} (hn : n < a.outLen) {rest : List (Stmt K)} {q : K → Prog K Unit}
    (hv : e c.vId = some (.int n)) (hvV : c.vId ∉ V) (hx : sameTy (e c.xId) (some (.flt 0))) (hsy : symAdj ∉ V ∧ symCen ∉ V ∧ symOff ∉ V) (hr0 : rest ≠ []) (hrd : rest.flatMap decls = [])
    (hr : ∀ es, (∀ y, y ≠ symAdj ∧ y ≠ symCen ∧ y ≠ symOff → es y = e y) → ∀ x, Sim G F (V.filter (· ≠ c.xId)) V (upd es c.xId (.flt x)) (seqs rest) (q x) (fun _ => es)) :
    Sim G F V V e (.block (seqs (coordS mode a c ++ rest))) (liftOpt (coordC mode a n) >>= q) (fun _ => e) := by
  have h1 := Sim.block (Sim.append (G := G) (F := F) hr0 (fun x => hr (symEnv mode a e) (fun y hy => symEnv_get hy) x) (coordS_ne hm a c) (Sim.coord mode hm a hs hl c hn hv hvV hx hsy)) fun _ h => h
  refine h1.weaken (fun _ => ?_) fun _ h => h
  rw [decls_flat, List.flatMap_append, hrd, List.append_nil, restore_sym]
  exact Agree.refl _ _

theorem choose_eval {D : Nat} {z lo hi mid : Expr K} {zz : Int} {b : Buf} {k : Int → Int} (hz : z.eval G e = ret (.int zz)) (hlo : lo.eval G e = loadAt b (k 0)) (hhi : hi.eval G e = loadAt b (k (D - 1)))
    (hmid : mid.eval G e = loadAt b (k zz)) (hf : isFlt G e lo = true) (hf' : isFlt G e mid = true) : ((chooseE D z lo hi mid).eval G e >>= asK) = load b (k (clampIdx D zz)) := by
  have h1 : ((Expr.bin .lt z (.num 0)).eval G e >>= truth) = ret (decide (zz < 0)) := (truth_cmp hz (show (Expr.num 0).eval G e = ret (.int 0) from rfl)).1
  have h2 : ((Expr.bin .ge z (.num D)).eval G e >>= truth) = ret (decide ((D : Int) ≤ zz)) := (truth_cmp hz (show (Expr.num D).eval G e = ret (.int D) from rfl)).2.2.2.1
  have h3 : (chooseE D z lo hi mid).eval G e = (((Expr.bin .lt z (.num 0)).eval G e >>= truth) >>= fun t => ((if t then lo.eval G e else
      (((Expr.bin .ge z (.num D)).eval G e >>= truth) >>= fun t => ((if t then hi.eval G e else mid.eval G e : Prog K (Val K)) >>= asK) >>= fun x => ret (.flt x)) : Prog K (Val K)) >>= asK) >>= fun x => ret (.flt x)) := by
    unfold chooseE
    simp only [Expr.eval, bind_assoc', hf, hf', Bool.or_true, Bool.true_or, if_true]
  rw [h3, h1, h2, hlo, hhi, hmid]
  unfold clampIdx
  by_cases h4 : zz < 0
  · simp [h4, ret_andThen, loadAt, asK, Val.toK, andThen_assoc, andThen_ret]
  · by_cases h5 : (D : Int) ≤ zz <;> simp [h4, h5, ret_andThen, loadAt, asK, Val.toK, andThen_assoc, andThen_ret]

theorem cub_eval {i1 i2 i3 i4 : Ident} {a s v1 v2 v3 v4 : K} (h1 : (Expr.var i1).eval G e = ret (.flt v1)) (h2 : (Expr.var i2).eval G e = ret (.flt v2)) (h3 : (Expr.var i3).eval G e = ret (.flt v3)) (h4 : (Expr.var i4).eval G e = ret (.flt v4))
    (hs : e (.s, none) = some (.flt s)) (ha : e (.a, none) = some (.flt a)) : (cubE i1 i2 i3 i4).eval G e = ret (.flt (cubicC a s v1 v2 v3 v4)) := by
  have ha' : (Expr.var (.a, none)).eval G e = ret (.flt a) := eval_var (by simp) ha
  have hs' : (Expr.var (.s, none)).eval G e = ret (.flt s) := eval_var (by simp) hs
  simp only [cubE, cubicC]
  have hb : ∀ o a b, (Expr.bin o a b).eval G e = (a.eval G e >>= fun u => b.eval G e >>= fun v => ofOpt (binOp o u v)) := fun _ _ _ => rfl
  have hn : ∀ n : Nat, (Expr.num n : Expr K).eval G e = ret (.int n) := fun _ => rfl
  have hg : (Expr.neg (.var (.s, none))).eval G e = ret (.flt (-s)) := by
    have : (Expr.neg (.var (.s, none))).eval G e = ((Expr.var (.s, none)).eval G e >>= fun v => match v with
      | .int z => ret (.int (-z))
      | .flt x => ret (.flt (-x))
      | .ptr .. => fail) := rfl
    rw [this, hs', ret_bind]
  simp only [hb, h1, h2, h3, h4, ha', hs', hn, hg, ret_bind, binOp, fltOp, ofOpt_some]
  push_cast
  rfl

/-- the variables of the cubic templates -/
def cubVars : List (Ident × Ty) :=
  [((.f, none), .int), ((.i, none), .int), ((.j, none), .int), ((.k, none), .int), ((.x, none), .float), ((.y, none), .float), ((.x0, none), .int), ((.y0, none), .int),
    ((.col_index, none), .int), ((.a, none), .float), ((.f, some ⟨false, 1⟩), .float), ((.f0, none), .float), ((.f1, none), .float), ((.f2, none), .float), ((.s, none), .float)]

theorem Dim1.xId (d : Dim1) : d.cvar.xId = (.x, none) := by cases d <;> rfl

set_option maxHeartbeats 1000000 in
theorem cubic1_renders (L : Lib K) (a : SNum K) (mode : CoordMode) (C size idx : Nat) (h w : RAxis K) (d : Dim1) (ext : SNum K) (act : CAct K) (src : Ref) (road : Nat)
    (hs : 0 < (d.axis h w).scale) (hl : 0 < (d.axis h w).inLen) (p : Prog K Unit) (hp : cubic1Code a.val mode C size h w (d.axis h w) d.pick (act.fn (std L ints)) src.buf road = some p) :
    Renders (std L ints) Tpl.resizeCubic1D (cubic1Hash a mode C size idx h w d ext act src road) cubVars p := by
  unfold cubic1Code at hp
  split at hp
  case isFalse => cases hp
  rename_i hc
  cases hp
  have hm : mode ≠ .tfCropAndResize := by rintro rfl; cases hc
  have hav : a.expr.vars = [] := by rcases a with ⟨_ | _, q⟩ <;> rfl
  refine Renders.of_sim (C + h.outLen + w.outLen + size + 1) (cubic1_code a mode hm C size idx h w d ext act src road) fun e he F hF => ?_
  unfold cubVars at he ⊢
  have ha := he.float (.a, none) (by simp)
  refine Sim.seq' (x := a.val) (Sim.newF ha (by simp [hav]) (by simp [hav]) (by rw [SNum.eval]; rfl)) ?_
  refine Sim.forget (.a, none) (val := fun _ => .flt a.val) ?_ (by simp) (fun _ => sameTy_flt ha)
  have hf : IsInt (upd e (.a, none) (.flt a.val)) (.f, none) := by simpa [IsInt, upd] using he.int (.f, none) (by simp)
  have hi : IsInt (upd e (.a, none) (.flt a.val)) (.i, none) := by simpa [IsInt, upd] using he.int (.i, none) (by simp)
  have hj : IsInt (upd e (.a, none) (.flt a.val)) (.j, none) := by simpa [IsInt, upd] using he.int (.j, none) (by simp)
  have hk : IsInt (upd e (.a, none) (.flt a.val)) (.k, none) := by simpa [IsInt, upd] using he.int (.k, none) (by simp)
  refine Sim.seq (Sim.loop3 (by simp) (by simp) (by simp) (by omega) hf hi hj fun f i j _ hi' hj' => ?_) fun _ =>
    Sim.copy (by simp) (by simp) (by omega) hk (by simp) (by simp) (by simp)
  generalize he0 : upd (upd (upd (upd e (.a, none) (.flt a.val)) (.f, none) (.int f)) (.i, none) (.int i)) (.j, none) (.int j) = e0
  have ef : e0 (.f, none) = some (.int f) := by simp [← he0, upd]
  have ei : e0 (.i, none) = some (.int i) := by simp [← he0, upd]
  have ej : e0 (.j, none) = some (.int j) := by simp [← he0, upd]
  have ea : e0 (.a, none) = some (.flt a.val) := by simp [← he0, upd]
  have tx : sameTy (e0 (.x, none)) (some (.flt 0)) := by simpa [← he0, upd] using he.float (.x, none) (by simp)
  have tx0 : IsInt e0 (.x0, none) := by simpa [← he0, upd, IsInt] using he.int (.x0, none) (by simp)
  have tm : sameTy (e0 (.f, some ⟨false, 1⟩)) (some (.flt 0)) := by simpa [← he0, upd] using he.float (.f, some ⟨false, 1⟩) (by simp)
  have t0 : sameTy (e0 (.f0, none)) (some (.flt 0)) := by simpa [← he0, upd] using he.float (.f0, none) (by simp)
  have t1 : sameTy (e0 (.f1, none)) (some (.flt 0)) := by simpa [← he0, upd] using he.float (.f1, none) (by simp)
  have t2 : sameTy (e0 (.f2, none)) (some (.flt 0)) := by simpa [← he0, upd] using he.float (.f2, none) (by simp)
  have ts : sameTy (e0 (.s, none)) (some (.flt 0)) := by simpa [← he0, upd] using he.float (.s, none) (by simp)
  clear he0
  have hv : e0 d.cvar.vId = some (.int (d.pick i j : Nat)) := by cases d <;> simpa [Dim1.cvar, CVar.vId, Dim1.pick] using by assumption
  have hn : d.pick i j < (d.axis h w).outLen := by cases d <;> assumption
  refine Sim.cell1 mode hm (d.axis h w) hs hl d.cvar hn hv (by cases d <;> simp [Dim1.cvar, CVar.vId]) (by rw [d.xId]; exact tx) (by simp [symAdj, symCen, symOff]) (by simp) rfl fun es hes x => ?_
  rw [d.xId]
  let D := (d.axis h w).inLen
  have sef := (hes (.f, none) (by decide)).trans ef
  have sei := (hes (.i, none) (by decide)).trans ei
  have sej := (hes (.j, none) (by decide)).trans ej
  have sea := (hes (.a, none) (by decide)).trans ea
  have stx : sameTy (es (.x, none)) (some (.flt 0)) := by rw [hes _ (by decide)]; exact tx
  have stx0 : IsInt es (.x0, none) := by unfold IsInt; rw [hes _ (by decide)]; exact tx0
  have stm : sameTy (es (.f, some ⟨false, 1⟩)) (some (.flt 0)) := by rw [hes _ (by decide)]; exact tm
  have st0 : sameTy (es (.f0, none)) (some (.flt 0)) := by rw [hes _ (by decide)]; exact t0
  have st1 : sameTy (es (.f1, none)) (some (.flt 0)) := by rw [hes _ (by decide)]; exact t1
  have st2 : sameTy (es (.f2, none)) (some (.flt 0)) := by rw [hes _ (by decide)]; exact t2
  have sts : sameTy (es (.s, none)) (some (.flt 0)) := by rw [hes _ (by decide)]; exact ts
  have hread : ∀ (e' : Env K) (z : Expr K) (zz : Int), e' (.f, none) = some (.int f) → z.eval (std L ints) e' = ret (.int zz) →
      ((cub1E src D z).eval (std L ints) e' >>= asK) = load src.buf (clampIdx D zz + D * f) := by
    intro e' z zz hf' hz
    refine choose_eval (k := fun u => u + D * f) hz ?_ ?_ ?_ (by simp [rd1E, isFlt]) (by simp [rd1E, isFlt])
    · unfold rd1E; ceval [hf']
    · unfold rd1E; ceval [hf']
    · unfold rd1E
      have hb : ∀ o a b, (Expr.bin o a b).eval (std L ints) e' = (a.eval (std L ints) e' >>= fun u => b.eval (std L ints) e' >>= fun v => ofOpt (binOp o u v)) := fun _ _ _ => rfl
      simp only [Expr.eval, hz]
      ceval [hf']
  refine Sim.seq' (x := ⌊x⌋) (Sim.newI (by simpa [upd, IsInt] using stx0) (by simp [Expr.vars]) (by simp [Expr.vars]) (floor_eval (by simp) (by simp [upd]))) ?_
  refine Sim.seq (Sim.newF (q := load src.buf (clampIdx D (⌊x⌋ - 1) + D * f)) (by simpa [upd] using stm) (by simp [Expr.vars, cub1E, chooseE, rd1E]) (by simp [Expr.vars, cub1E, chooseE, rd1E]) ?_) fun fm1 => ?_
  · exact hread _ _ (⌊x⌋ - 1) (by simpa [upd] using sef) (by ceval)
  refine Sim.seq (Sim.newF (by simpa [upd] using st0) (by simp [Expr.vars, cub1E, chooseE, rd1E]) (by simp [Expr.vars, cub1E, chooseE, rd1E]) (hread _ _ ⌊x⌋ (by simpa [upd] using sef) (by ceval))) fun f0 => ?_
  refine Sim.seq (Sim.newF (by simpa [upd] using st1) (by simp [Expr.vars, cub1E, chooseE, rd1E]) (by simp [Expr.vars, cub1E, chooseE, rd1E]) (hread _ _ (⌊x⌋ + 1) (by simpa [upd] using sef) (by ceval))) fun f1 => ?_
  refine Sim.seq (Sim.newF (by simpa [upd] using st2) (by simp [Expr.vars, cub1E, chooseE, rd1E]) (by simp [Expr.vars, cub1E, chooseE, rd1E]) (hread _ _ (⌊x⌋ + 2) (by simpa [upd] using sef) (by ceval))) fun f2 => ?_
  refine Sim.seq' (x := x - ⌊x⌋) (Sim.newF (by simpa [upd] using sts) (by simp [Expr.vars]) (by simp [Expr.vars]) (by ceval)) ?_
  refine Sim.seq ((Sim.store (b := .temp) (za := at3 h.outLen w.outLen f i j) (q := ret (cubicC a.val (x - ⌊x⌋) fm1 f0 f1 f2)) (by simp) (by simp [Expr.vars, cellE]) (by simp [Expr.vars, cubE]) (by simp only [cellE]; ceval [at3, sef, sei, sej]) ?_).congr (ret_bind _ _)) fun _ => ?_
  · rw [cub_eval (v1 := fm1) (v2 := f0) (v3 := f1) (v4 := f2) (s := x - ⌊x⌋) (a := a.val) (eval_var (by simp) (by simp [upd])) (eval_var (by simp) (by simp [upd])) (eval_var (by simp) (by simp [upd])) (eval_var (by simp) (by simp [upd]))
      (by simp [upd]) (by simpa [upd] using sea)]
    rfl
  refine (Sim.storeAct (b := .temp) (za := at3 h.outLen w.outLen f i j) (q := load .temp (at3 h.outLen w.outLen f i j : Int)) (by simp) (by simp [Expr.vars, cellE]) (by simp [Expr.vars, cellE])
      (by simp only [cellE]; ceval [at3, sef, sei, sej]) (Reads.load _ _) (by simp only [cellE]; ceval [at3, sef, sei, sej]) (by simp [isFlt])).weaken (fun _ => ?_) ?_
  · exact Agree.updF (Agree.updF (Agree.updF (Agree.updF (Agree.updF (Agree.updI (Agree.updF (Agree.refl _ _) (by simp) stx) (by simp) stx0) (by simp) stm) (by simp) st0) (by simp) st1) (by simp) st2) (by simp) sts
  · simp only [List.mem_filter]; tauto

/-- the variables that a column of `template_ResizeCubic2D.c.tpl` uses for itself -/
def colVars : List Ident := [(.col_index, none), (.f, some ⟨false, 1⟩), (.f0, none), (.f1, none), (.f2, none), (.s, none)]

theorem colS_eval {W : Nat} {z : Expr K} {zz : Int} (hz : z.eval G e = ret (.int zz)) (hf : isFlt G e z = false) :
    ((chooseE W z (.num 0) (.bin .sub (.num W) (.num 1)) z).eval G e >>= fun v => ofOpt v.toInt) = ret (clampIdx W zz) := by
  have h1 : ((Expr.bin .lt z (.num 0)).eval G e >>= truth) = ret (decide (zz < 0)) := (truth_cmp hz (show (Expr.num 0).eval G e = ret (.int 0) from rfl)).1
  have h2 : ((Expr.bin .ge z (.num W)).eval G e >>= truth) = ret (decide ((W : Int) ≤ zz)) := (truth_cmp hz (show (Expr.num W).eval G e = ret (.int W) from rfl)).2.2.2.1
  have h3 : (chooseE W z (.num 0) (.bin .sub (.num W) (.num 1)) z).eval G e = (((Expr.bin .lt z (.num 0)).eval G e >>= truth) >>= fun t => (if t then ret (.int 0) else
      (((Expr.bin .ge z (.num W)).eval G e >>= truth) >>= fun t => (if t then ret (.int (W - 1)) else z.eval G e : Prog K (Val K))) : Prog K (Val K))) := by
    unfold chooseE
    simp only [Expr.eval, bind_assoc', hf, isFlt, Bool.or_false, if_false, Bool.false_eq_true]
    simp [andThen_ret, ret_andThen, binOp, intOp, ofOpt_some]
  rw [h3, h1, h2, hz]
  unfold clampIdx
  by_cases h4 : zz < 0
  · simp [h4, ret_andThen, Val.toInt, ofOpt_some]
  · by_cases h5 : (W : Int) ≤ zz <;> simp [h4, h5, ret_andThen, Val.toInt, ofOpt_some]

set_option maxHeartbeats 1000000 in
/-- a column -/
theorem Sim.column (L : Lib K) (src : Ref) (H W f : Nat) (x a : K) (y0 c : Int) (z : Expr K) (b : Ident)
    (hz : ∀ e' : Env K, e' (.y0, none) = some (.int y0) → z.eval (std L ints) e' = ret (.int c) ∧ isFlt (std L ints) e' z = false) (hzv : ∀ y ∈ z.vars, y = (.y0, none))
    (hV : ∀ y ∈ colVars, y ∈ V) (hVn : ∀ y ∈ [(.f, none), (.x, none), (.x0, none), (.y0, none), (.a, none)], y ∉ V)
    (ef : e (.f, none) = some (.int f)) (ex : e (.x, none) = some (.flt x)) (ex0 : e (.x0, none) = some (.int ⌊x⌋)) (ey0 : e (.y0, none) = some (.int y0)) (ea : e (.a, none) = some (.flt a))
    (tc : IsInt e (.col_index, none)) (tm : sameTy (e (.f, some ⟨false, 1⟩)) (some (.flt 0))) (t0 : sameTy (e (.f0, none)) (some (.flt 0))) (t1 : sameTy (e (.f1, none)) (some (.flt 0)))
    (t2 : sameTy (e (.f2, none)) (some (.flt 0))) (ts : sameTy (e (.s, none)) (some (.flt 0))) :
    Sim (std L ints) F V V e (seqs [colS W z, setI (.f, some ⟨false, 1⟩) (cub2E src H W (.bin .sub (.var (.x0, none)) (.num 1))), setI (.f0, none) (cub2E src H W (.var (.x0, none))),
      setI (.f1, none) (cub2E src H W (.bin .add (.var (.x0, none)) (.num 1))), setI (.f2, none) (cub2E src H W (.bin .add (.var (.x0, none)) (.num 2))),
      setV .s (.bin .sub (.var (.x, none)) (.var (.x0, none))), .decl .float b (cubE (.f, some ⟨false, 1⟩) (.f0, none) (.f1, none) (.f2, none))])
      (do
        let col := clampIdx W c
        let fm1 ← load src.buf (col + W * (clampIdx H (⌊x⌋ - 1) + H * f))
        let f0 ← load src.buf (col + W * (clampIdx H ⌊x⌋ + H * f))
        let f1 ← load src.buf (col + W * (clampIdx H (⌊x⌋ + 1) + H * f))
        let f2 ← load src.buf (col + W * (clampIdx H (⌊x⌋ + 2) + H * f))
        pure (cubicC a (x - ⌊x⌋) fm1 f0 f1 f2)) (fun v => upd e b (.flt v)) := by
  simp only [List.mem_cons, List.not_mem_nil, or_false, forall_eq_or_imp, forall_eq, colVars] at hV hVn
  obtain ⟨nf, nx, nx0, ny0, na⟩ := hVn
  obtain ⟨vc, vm, v0, v1, v2, vs⟩ := hV
  have hread : ∀ (e' : Env K) (z : Expr K) (zz : Int), e' (.f, none) = some (.int f) → e' (.col_index, none) = some (.int (clampIdx W c)) → z.eval (std L ints) e' = ret (.int zz) →
      ((cub2E src H W z).eval (std L ints) e' >>= asK) = load src.buf (clampIdx W c + W * (clampIdx H zz + H * f)) := by
    intro e' z zz hf' hc' hz
    refine choose_eval (k := fun u => clampIdx W c + W * (u + H * f)) hz ?_ ?_ ?_ (by simp [rdE, isFlt]) (by simp [rdE, isFlt])
    · unfold rdE; ceval [hf', hc']
    · unfold rdE; ceval [hf', hc']
    · unfold rdE
      simp only [Expr.eval, hz]
      ceval [hf', hc']
  refine Sim.seq' (x := clampIdx W c) (Sim.newI tc ?_ ?_ (colS_eval (hz e ey0).1 (hz e ey0).2)) ?_
  · intro y hy
    simp only [chooseE, Expr.vars, List.mem_append, List.append_nil, List.nil_append] at hy
    rcases hy with hy | hy | hy <;> rw [hzv y hy] <;> exact ny0
  · intro hy
    simp only [chooseE, Expr.vars, List.mem_append, List.append_nil, List.nil_append] at hy
    rcases hy with hy | hy | hy <;> cases hzv _ hy
  refine Sim.seq (Sim.newF (by simpa [upd] using tm) (by simp [Expr.vars, cub2E, chooseE, rdE, nf, nx0]) (by simp [Expr.vars, cub2E, chooseE, rdE]) (hread _ _ (⌊x⌋ - 1) (by simpa [upd] using ef) (by simp [upd]) (by ceval [ex0]))) fun fm1 => ?_
  refine Sim.seq (Sim.newF (by simpa [upd] using t0) (by simp [Expr.vars, cub2E, chooseE, rdE, nf, nx0]) (by simp [Expr.vars, cub2E, chooseE, rdE]) (hread _ _ ⌊x⌋ (by simpa [upd] using ef) (by simp [upd]) (by ceval [ex0]))) fun f0 => ?_
  refine Sim.seq (Sim.newF (by simpa [upd] using t1) (by simp [Expr.vars, cub2E, chooseE, rdE, nf, nx0]) (by simp [Expr.vars, cub2E, chooseE, rdE]) (hread _ _ (⌊x⌋ + 1) (by simpa [upd] using ef) (by simp [upd]) (by ceval [ex0]))) fun f1 => ?_
  refine Sim.seq (Sim.newF (by simpa [upd] using t2) (by simp [Expr.vars, cub2E, chooseE, rdE, nf, nx0]) (by simp [Expr.vars, cub2E, chooseE, rdE]) (hread _ _ (⌊x⌋ + 2) (by simpa [upd] using ef) (by simp [upd]) (by ceval [ex0]))) fun f2 => ?_
  refine Sim.seq' (x := x - ⌊x⌋) (Sim.newF (by simpa [upd] using ts) (by simp [Expr.vars, nx, nx0]) (by simp [Expr.vars]) (by ceval [ex, ex0])) ?_
  refine (Sim.decl (q := ret (cubicC a (x - ⌊x⌋) fm1 f0 f1 f2)) (val := fun v => .flt v) (by simp [Expr.vars, cubE, na]) ?_).weaken (fun _ => ?_) ?_
  · rw [cub_eval (v1 := fm1) (v2 := f0) (v3 := f1) (v4 := f2) (s := x - ⌊x⌋) (a := a) (eval_var (by simp) (by simp [upd])) (eval_var (by simp) (by simp [upd])) (eval_var (by simp) (by simp [upd])) (eval_var (by simp) (by simp [upd]))
      (by simp [upd]) (by simpa [upd] using ea)]
    rfl
  · refine Agree.upd ?_ _ _
    exact Agree.updF (Agree.updF (Agree.updF (Agree.updF (Agree.updF (Agree.updI (Agree.refl _ _) vc tc) vm tm) v0 t0) v1 t1) v2 t2) vs ts
  · simp only [List.mem_filter]; tauto

theorem Agree.upd₂ {V : List Ident} {e e' : Env K} {x : Ident} {u v : K} (h : Agree V e e') (hV : x ∈ V) : Agree V (CText.upd e x (.flt u)) (CText.upd e' x (.flt v)) := by
  intro y
  by_cases hy : y = x
  · subst hy; rw [if_pos hV, upd_same, upd_same]; trivial
  · have := h y
    simpa [CText.upd, hy] using this

set_option maxHeartbeats 4000000 in
theorem cubic2_renders (L : Lib K) (a : SNum K) (mode : CoordMode) (C size idx : Nat) (h w : RAxis K) (ext : SNum K) (act : CAct K) (src : Ref) (road : Nat)
    (hs : 0 < h.scale) (hl : 0 < h.inLen) (ws : 0 < w.scale) (wl : 0 < w.inLen) (p : Prog K Unit) (hp : cubic2Code a.val mode C size h w (act.fn (std L ints)) src.buf road = some p) :
    Renders (std L ints) Tpl.resizeCubic2D (cubic2Hash a mode C size idx h w ext act src road) cubVars p := by
  unfold cubic2Code at hp
  split at hp
  case isFalse => cases hp
  rename_i hc
  cases hp
  have hm := not_tf_of_compiles2 hc
  have hav : a.expr.vars = [] := by rcases a with ⟨_ | _, q⟩ <;> rfl
  refine Renders.of_sim (C + h.outLen + w.outLen + size + 1) (cubic2_code a mode hm C size idx h w ext act src road) fun e he F hF => ?_
  unfold cubVars at he ⊢
  have ha := he.float (.a, none) (by simp)
  refine Sim.seq' (x := a.val) (Sim.newF ha (by simp [hav]) (by simp [hav]) (by rw [SNum.eval]; rfl)) ?_
  refine Sim.forget (.a, none) (val := fun _ => .flt a.val) ?_ (by simp) (fun _ => sameTy_flt ha)
  have hf : IsInt (upd e (.a, none) (.flt a.val)) (.f, none) := by simpa [IsInt, upd] using he.int (.f, none) (by simp)
  have hi : IsInt (upd e (.a, none) (.flt a.val)) (.i, none) := by simpa [IsInt, upd] using he.int (.i, none) (by simp)
  have hj : IsInt (upd e (.a, none) (.flt a.val)) (.j, none) := by simpa [IsInt, upd] using he.int (.j, none) (by simp)
  have hk : IsInt (upd e (.a, none) (.flt a.val)) (.k, none) := by simpa [IsInt, upd] using he.int (.k, none) (by simp)
  refine Sim.seq (Sim.loop3 (by simp) (by simp) (by simp) (by omega) hf hi hj fun f i j _ hi' hj' => ?_) fun _ =>
    Sim.copy (by simp) (by simp) (by omega) hk (by simp) (by simp) (by simp)
  generalize he0 : upd (upd (upd (upd e (.a, none) (.flt a.val)) (.f, none) (.int f)) (.i, none) (.int i)) (.j, none) (.int j) = e0
  have ef : e0 (.f, none) = some (.int f) := by simp [← he0, upd]
  have ei : e0 (.i, none) = some (.int i) := by simp [← he0, upd]
  have ej : e0 (.j, none) = some (.int j) := by simp [← he0, upd]
  have ea : e0 (.a, none) = some (.flt a.val) := by simp [← he0, upd]
  have tx : sameTy (e0 (.x, none)) (some (.flt 0)) := by simpa [← he0, upd] using he.float (.x, none) (by simp)
  have ty : sameTy (e0 (.y, none)) (some (.flt 0)) := by simpa [← he0, upd] using he.float (.y, none) (by simp)
  have tx0 : IsInt e0 (.x0, none) := by simpa [← he0, upd, IsInt] using he.int (.x0, none) (by simp)
  have ty0 : IsInt e0 (.y0, none) := by simpa [← he0, upd, IsInt] using he.int (.y0, none) (by simp)
  have tc : IsInt e0 (.col_index, none) := by simpa [← he0, upd, IsInt] using he.int (.col_index, none) (by simp)
  have tm : sameTy (e0 (.f, some ⟨false, 1⟩)) (some (.flt 0)) := by simpa [← he0, upd] using he.float (.f, some ⟨false, 1⟩) (by simp)
  have t0 : sameTy (e0 (.f0, none)) (some (.flt 0)) := by simpa [← he0, upd] using he.float (.f0, none) (by simp)
  have t1 : sameTy (e0 (.f1, none)) (some (.flt 0)) := by simpa [← he0, upd] using he.float (.f1, none) (by simp)
  have t2 : sameTy (e0 (.f2, none)) (some (.flt 0)) := by simpa [← he0, upd] using he.float (.f2, none) (by simp)
  have ts : sameTy (e0 (.s, none)) (some (.flt 0)) := by simpa [← he0, upd] using he.float (.s, none) (by simp)
  clear he0
  have hd : decls (seqs (cubic2Cell mode h w act src)) = [(.b, some ⟨false, 1⟩), (.b0, none), (.b1, none), (.b2, none)] := by
    rw [decls_flat]
    simp only [cubic2Cell, List.flatMap_append, List.flatMap_cons, coordS_decls hc]
    rfl
  let V0 : List Ident := [(.k, none), (.x, none), (.y, none), (.x0, none), (.y0, none), (.col_index, none), (.f, some ⟨false, 1⟩), (.f0, none), (.f1, none), (.f2, none), (.s, none)]
  show Sim _ _ V0 V0 _ _ _ _
  refine (Sim.blockD (V := V0) (V' := V0 ++ [(.b, some ⟨false, 1⟩), (.b0, none), (.b1, none), (.b2, none)])
    (post := fun _ => upd (upd (upd (upd e0 (.b, some ⟨false, 1⟩) (.flt 0)) (.b0, none) (.flt 0)) (.b1, none) (.flt 0)) (.b2, none) (.flt 0)) ?_ (by rw [hd]; simp only [List.mem_append]; tauto)).weaken (fun _ => ?_) (fun _ h => h)
  · refine Sim.append (by simp) (fun x => ?_) (coordS_ne hm _ _) (Sim.coord mode hm h hs hl .ix hi' ei (by simp [CVar.vId, V0]) tx (by simp [symAdj, symCen, symOff, V0]))
    rw [symEnv_of_compiles2 hc, seqs_cons _ (by simp)]
    have vx : CVar.ix.xId = (.x, none) := rfl
    have vy : CVar.jy.xId = (.y, none) := rfl
    simp only [vx]
    refine Sim.seq' (x := ⌊x⌋) (Sim.newI (by simpa [upd, IsInt] using tx0) (by simp [Expr.vars]) (by simp [Expr.vars]) (floor_eval (by simp) (by simp [upd]))) ?_
    refine Sim.append (by simp) (fun y => ?_) (coordS_ne hm _ _) (Sim.coord mode hm w ws wl .jy hj' (by simpa [upd, CVar.vId] using ej) (by simp [CVar.vId, V0]) (by simpa [upd, CVar.xId] using ty) (by simp [symAdj, symCen, symOff, V0]))
    rw [symEnv_of_compiles2 hc, seqs_cons _ (by simp)]
    simp only [vy]
    refine Sim.seq' (x := ⌊y⌋) (Sim.newI (by simpa [upd, IsInt] using ty0) (by simp [Expr.vars]) (by simp [Expr.vars]) (floor_eval (by simp) (by simp [upd]))) ?_
    let V1 : List Ident := [(.k, none), (.col_index, none), (.f, some ⟨false, 1⟩), (.f0, none), (.f1, none), (.f2, none), (.s, none)]
    show Sim _ _ V1 _ _ _ _ _
    refine Sim.append (by simp) (fun bm1 => ?_) (List.cons_ne_nil _ _) (Sim.column (V := V1) L src h.inLen w.inLen f x a.val ⌊y⌋ (⌊y⌋ - 1) (.bin .sub (.var (.y0, none)) (.num 1)) (.b, some ⟨false, 1⟩)
      (fun e' h' => ⟨by ceval [h'], by simp [isFlt, h']⟩) (by simp [Expr.vars]) (by simp [colVars, V1]) (by simp [V1]) (by simpa [upd] using ef) (by simp [upd]) (by simp [upd]) (by simp [upd]) (by simpa [upd] using ea)
      (by simpa [upd, IsInt] using tc) (by simpa [upd] using tm) (by simpa [upd] using t0) (by simpa [upd] using t1) (by simpa [upd] using t2) (by simpa [upd] using ts))
    refine Sim.append (by simp) (fun b0 => ?_) (List.cons_ne_nil _ _) (Sim.column (V := V1) L src h.inLen w.inLen f x a.val ⌊y⌋ ⌊y⌋ (.var (.y0, none)) (.b0, none)
      (fun e' h' => ⟨by ceval [h'], by simp [isFlt, h']⟩) (by simp [Expr.vars]) (by simp [colVars, V1]) (by simp [V1]) (by simpa [upd] using ef) (by simp [upd]) (by simp [upd]) (by simp [upd]) (by simpa [upd] using ea)
      (by simpa [upd, IsInt] using tc) (by simpa [upd] using tm) (by simpa [upd] using t0) (by simpa [upd] using t1) (by simpa [upd] using t2) (by simpa [upd] using ts))
    refine Sim.append (by simp) (fun b1 => ?_) (List.cons_ne_nil _ _) (Sim.column (V := V1) L src h.inLen w.inLen f x a.val ⌊y⌋ (⌊y⌋ + 1) (.bin .add (.var (.y0, none)) (.num 1)) (.b1, none)
      (fun e' h' => ⟨by ceval [h'], by simp [isFlt, h']⟩) (by simp [Expr.vars]) (by simp [colVars, V1]) (by simp [V1]) (by simpa [upd] using ef) (by simp [upd]) (by simp [upd]) (by simp [upd]) (by simpa [upd] using ea)
      (by simpa [upd, IsInt] using tc) (by simpa [upd] using tm) (by simpa [upd] using t0) (by simpa [upd] using t1) (by simpa [upd] using t2) (by simpa [upd] using ts))
    refine Sim.append (by simp) (fun b2 => ?_) (List.cons_ne_nil _ _) (Sim.column (V := V1) L src h.inLen w.inLen f x a.val ⌊y⌋ (⌊y⌋ + 2) (.bin .add (.var (.y0, none)) (.num 2)) (.b2, none)
      (fun e' h' => ⟨by ceval [h'], by simp [isFlt, h']⟩) (by simp [Expr.vars]) (by simp [colVars, V1]) (by simp [V1]) (by simpa [upd] using ef) (by simp [upd]) (by simp [upd]) (by simp [upd]) (by simpa [upd] using ea)
      (by simpa [upd, IsInt] using tc) (by simpa [upd] using tm) (by simpa [upd] using t0) (by simpa [upd] using t1) (by simpa [upd] using t2) (by simpa [upd] using ts))
    refine Sim.seq' (x := y - ⌊y⌋) (Sim.newF (by simpa [upd] using ts) (by simp [Expr.vars, V1]) (by simp [Expr.vars]) (by ceval)) ?_
    refine Sim.seq ((Sim.store (b := .temp) (za := at3 h.outLen w.outLen f i j) (q := ret (cubicC a.val (y - ⌊y⌋) bm1 b0 b1 b2)) (by simp) (by simp [Expr.vars, cellE, V1]) (by simp [Expr.vars, cubE, V1]) (by simp only [cellE]; ceval [at3, ef, ei, ej]) ?_).congr (ret_bind _ _)) fun _ => ?_
    · rw [cub_eval (v1 := bm1) (v2 := b0) (v3 := b1) (v4 := b2) (s := y - ⌊y⌋) (a := a.val) (eval_var (by simp) (by simp [upd])) (eval_var (by simp) (by simp [upd])) (eval_var (by simp) (by simp [upd])) (eval_var (by simp) (by simp [upd]))
        (by simp [upd]) (by simpa [upd] using ea)]
      rfl
    refine (Sim.storeAct (b := .temp) (za := at3 h.outLen w.outLen f i j) (q := load .temp (at3 h.outLen w.outLen f i j : Int)) (by simp) (by simp [Expr.vars, cellE, V1]) (by simp [Expr.vars, cellE, V1])
        (by simp only [cellE]; ceval [at3, ef, ei, ej]) (Reads.load _ _) (by simp only [cellE]; ceval [at3, ef, ei, ej]) (by simp [isFlt])).weaken (fun _ => ?_) ?_
    · refine Agree.updF ?_ (by simp [V0]) (by simpa [upd] using ts)
      refine Agree.upd₂ (Agree.upd₂ (Agree.upd₂ (Agree.upd₂ ?_ (by simp)) (by simp)) (by simp)) (by simp)
      exact Agree.updI (Agree.updF (Agree.updI (Agree.updF (Agree.refl _ _) (by simp [V0]) tx) (by simp [V0]) tx0) (by simp [V0]) ty) (by simp [V0]) ty0
    · simp only [List.mem_filter, V1, V0, List.mem_append, List.mem_cons]; tauto
  · rw [hd]
    refine Agree.of_eq ?_
    funext z
    by_cases h1 : z = (.b, some ⟨false, 1⟩)
    · simp [restore, h1]
    by_cases h2 : z = (.b0, none)
    · simp [restore, h2]
    by_cases h3 : z = (.b1, none)
    · simp [restore, h3]
    by_cases h4 : z = (.b2, none)
    · simp [restore, h4]
    simp [restore, upd, h1, h2, h3, h4]

set_option maxHeartbeats 1000000 in
theorem linear1_renders (L : Lib K) (mode : CoordMode) (C size idx : Nat) (h w : RAxis K) (d : Dim1) (ext : SNum K) (act : CAct K) (src : Ref) (road : Nat)
    (hs : 0 < (d.axis h w).scale) (hl : 0 < (d.axis h w).inLen) (p : Prog K Unit) (hp : linear1Code mode C size h w (d.axis h w) d.pick (act.fn (std L ints)) src.buf road = some p) :
    Renders (std L ints) Tpl.resizeLinear1D (linear1Hash mode C size idx h w d ext act src road) lin2Vars p := by
  unfold linear1Code at hp
  split at hp
  case isFalse => cases hp
  rename_i hc
  cases hp
  have hm : mode ≠ .tfCropAndResize := by rintro rfl; cases hc
  refine Renders.of_sim (C + h.outLen + w.outLen + size + 1) (linear1_code mode hm C size idx h w d ext act src road) fun e he F hF => ?_
  unfold lin2Vars at he ⊢
  have hx0 := he.int (.x0, none) (by simp)
  have hx1 := he.int (.x1, none) (by simp)
  let x1 : Int := (((d.axis h w).inLen - 1 : Nat) : Int)
  refine Sim.seq' (x := x1) (Sim.newI hx1 (by simp [Expr.vars]) (by simp [Expr.vars]) (by ceval [x1])) ?_
  refine Sim.forget (.x1, none) (val := fun _ => .int x1) ?_ (by simp) (fun _ => sameTy_int hx1)
  refine Sim.seq' (x := 0) (Sim.newI (by simpa [upd, IsInt] using hx0) (by simp [Expr.vars]) (by simp [Expr.vars]) (by ceval)) ?_
  refine Sim.forget (.x0, none) (val := fun _ => .int 0) ?_ (by simp) (fun _ => by simpa [upd] using sameTy_int hx0)
  have hf : IsInt (upd (upd e (.x1, none) (.int x1)) (.x0, none) (.int 0)) (.f, none) := by simpa [IsInt, upd] using he.int (.f, none) (by simp)
  have hk : IsInt (upd (upd e (.x1, none) (.int x1)) (.x0, none) (.int 0)) (.k, none) := by simpa [IsInt, upd] using he.int (.k, none) (by simp)
  refine Sim.seq (Sim.for' (by simp) (by simp) (by omega) hf rfl fun f _ => ?_) fun _ =>
    Sim.copy (by simp) (by simp) (by omega) hk (by simp) (by simp) (by simp)
  generalize he0 : upd (upd (upd e (.x1, none) (.int x1)) (.x0, none) (.int 0)) (.f, none) (.int f) = e0
  have ef : e0 (.f, none) = some (.int f) := by simp [← he0, upd]
  have ex1 : e0 (.x1, none) = some (.int x1) := by simp [← he0, upd]
  have ex0 : e0 (.x0, none) = some (.int 0) := by simp [← he0, upd]
  have tx : sameTy (e0 (.x, none)) (some (.flt 0)) := by simpa [← he0, upd] using he.float (.x, none) (by simp)
  have t11 : sameTy (e0 (.f11, none)) (some (.flt 0)) := by simpa [← he0, upd] using he.float (.f11, none) (by simp)
  have t22 : sameTy (e0 (.f22, none)) (some (.flt 0)) := by simpa [← he0, upd] using he.float (.f22, none) (by simp)
  have ti : IsInt e0 (.i, none) := by simpa [← he0, upd, IsInt] using he.int (.i, none) (by simp)
  have tj : IsInt e0 (.j, none) := by simpa [← he0, upd, IsInt] using he.int (.j, none) (by simp)
  clear he0
  refine Sim.seq (Sim.newF (q := load src.buf (0 + (d.axis h w).inLen * f)) t11 (by simp [Expr.vars, rd1E]) (by simp [Expr.vars, rd1E]) ?_) fun f11 => ?_
  · unfold rd1E; ceval [ef, ex0]
  refine Sim.forget (.f11, none) (val := fun _ => .flt f11) ?_ (by simp) (fun _ => sameTy_flt t11)
  refine Sim.seq (Sim.newF (q := load src.buf (x1 + (d.axis h w).inLen * f)) (by simpa [upd] using t22) (by simp [Expr.vars, rd1E]) (by simp [Expr.vars, rd1E]) ?_) fun f22 => ?_
  · unfold rd1E; ceval [ef, ex1]
  refine Sim.forget (.f22, none) (val := fun _ => .flt f22) ?_ (by simp) (fun _ => by simpa [upd] using sameTy_flt t22)
  refine Sim.for' (by simp) (by simp) (by omega) (by simpa [IsInt, upd] using ti) rfl fun i hi' => ?_
  refine Sim.for (by simp) (by simp) (by omega) (by simpa [IsInt, upd] using tj) fun j hj' => ?_
  have hv : (upd (upd (upd (upd e0 (.f11, none) (.flt f11)) (.f22, none) (.flt f22)) (.i, none) (.int i)) (.j, none) (.int j)) d.cvar.vId = some (.int (d.pick i j : Nat)) := by
    cases d <;> simp [Dim1.cvar, CVar.vId, Dim1.pick, upd]
  have hn : d.pick i j < (d.axis h w).outLen := by cases d <;> assumption
  refine Sim.cell1 mode hm (d.axis h w) hs hl d.cvar hn hv (by cases d <;> simp [Dim1.cvar, CVar.vId]) (by rw [d.xId]; simpa [upd] using tx) (by simp [symAdj, symCen, symOff]) (by simp) rfl fun es hes x => ?_
  rw [d.xId]
  have sef : es (.f, none) = some (.int f) := by rw [hes _ (by decide)]; simpa [upd] using ef
  have sei : es (.i, none) = some (.int i) := by rw [hes _ (by decide)]; simp [upd]
  have sej : es (.j, none) = some (.int j) := by rw [hes _ (by decide)]; simp [upd]
  have sex0 : es (.x0, none) = some (.int 0) := by rw [hes _ (by decide)]; simpa [upd] using ex0
  have sex1 : es (.x1, none) = some (.int x1) := by rw [hes _ (by decide)]; simpa [upd] using ex1
  have s11 : es (.f11, none) = some (.flt f11) := by rw [hes _ (by decide)]; simp [upd]
  have s22 : es (.f22, none) = some (.flt f22) := by rw [hes _ (by decide)]; simp [upd]
  have stx : sameTy (es (.x, none)) (some (.flt 0)) := by rw [hes _ (by decide)]; simpa [upd] using tx
  refine Sim.seq' (x := ()) (Sim.set (q := ret ()) (old := .flt x) (val := fun _ => .flt (clampC ((0 : Int) : K) (x1 : K) x)) (by simp [upd]) (by simp) (by simp [clampE, Expr.vars]) ?_) ?_
  · rw [clamp_eval (v := x) (a := 0) (b := x1) (by simp) (by simp [upd]) (eval_var (by simp) (by simpa [upd] using sex0)) (eval_var (by simp) (by simpa [upd] using sex1))]
    simp [ret_andThen, aop, convert, Val.toK, ofOpt_some]
  dsimp only
  rw [upd_upd]
  generalize clampC ((0 : Int) : K) (x1 : K) x = x'
  refine Sim.seq ((Sim.store (b := .temp) (za := at3 h.outLen w.outLen f i j) (q := ret ((f11 * (x1 - x') + f22 * (x' - (0 : Int))) / ((x1 - 0 : Int) : K))) (by simp) (by simp [Expr.vars, cellE]) (by simp [Expr.vars, lin1E]) (by simp only [cellE]; ceval [at3, sef, sei, sej]) ?_).congr (ret_bind _ _)) fun _ => ?_
  · simp only [lin1E]
    ceval [s11, s22, sex0, sex1]
  refine (Sim.storeAct (b := .temp) (za := at3 h.outLen w.outLen f i j) (q := load .temp (at3 h.outLen w.outLen f i j : Int)) (by simp) (by simp [Expr.vars, cellE]) (by simp [Expr.vars, cellE])
      (by simp only [cellE]; ceval [at3, sef, sei, sej]) (Reads.load _ _) (by simp only [cellE]; ceval [at3, sef, sei, sej]) (by simp [isFlt])).weaken (fun _ => ?_) ?_
  · exact Agree.updF (Agree.refl _ _) (by simp) stx
  · simp only [List.mem_filter]; tauto

/-! ## Which texts are C

A text that is not a sequence of statements of the C subset has `code .. = none`; C also forbids two declarations of the
same identifier in the same block. -/

theorem noRedecl_seqs (l : List (Stmt K)) : noRedecl (seqs l) = l.all noRedecl := by
  induction l with
  | nil => rfl
  | cons x l ih =>
    cases l with
    | nil => simp [seqs]
    | cons y l => rw [seqs_cons x (by simp), noRedecl, ih]; rfl

theorem coordS_noRedecl (mode : CoordMode) (a : RAxis K) (c : CVar) : (coordS mode a c).all noRedecl = true := by
  unfold coordS
  cases mode <;> try rfl
  by_cases h2 : a.outLen > 1 <;> simp [h2, noRedecl]

theorem coordS_nodup (mode : CoordMode) (a : RAxis K) (c : CVar) : ((coordS mode a c).flatMap decls).Nodup := by
  unfold coordS
  cases mode <;> simp only [List.flatMap_cons, List.flatMap_nil, decls, List.append_nil] <;> try first | exact List.nodup_nil | (show [symAdj, symCen, symOff].Nodup; decide)
  by_cases h2 : a.outLen > 1 <;> simp [h2, decls]

/-- the block of a cell with the declarations of two coordinates -/
theorem cell2_noRedecl (mode : CoordMode) (hm : mode ≠ .tfCropAndResize) {l : List (Stmt K)} (h w : RAxis K) (ds : List Ident) (hds : ds.Nodup)
    (hl : l.flatMap decls = (coordS mode h .ix).flatMap decls ++ ((coordS mode w .jy).flatMap decls ++ ds)) (hn : l.all noRedecl = true) :
    noRedecl (.block (seqs l)) = compiles2 mode := by
  rw [noRedecl, decls_flat, noRedecl_seqs, hn, hl, Bool.and_true]
  cases mode with
  | tfCropAndResize => exact absurd rfl hm
  | halfPixelSymmetric =>
    show decide ([symAdj, symCen, symOff] ++ ([symAdj, symCen, symOff] ++ ds)).Nodup = false
    simp
  | _ => all_goals (rw [coordS_decls rfl, coordS_decls rfl]; show decide _ = true; simpa using hds)

/-- The text of a ResizeNearest layer is C exactly for the coordinate modes for which `nearestCode` gives a program. -/
theorem nearest_isC_iff (mode : CoordMode) (nm : NearestMode) (C size idx : Nat) (h w : RAxis K) (ext : SNum K) (act : CAct K) (src : Ref) (road : Nat) (f : K → K) :
    IsC Tpl.resizeNearest (nearestHash mode nm C size idx h w ext act src road) ↔ (nearestCode mode nm C size h w f src.buf road).isSome = true := by
  have hr : (nearestCode mode nm C size h w f src.buf road).isSome = compiles2 mode := by unfold nearestCode; split <;> simp_all
  rw [hr]
  by_cases hm : mode = .tfCropAndResize
  · subst hm
    simp [IsC, nearest_tf, compiles2]
  · unfold IsC
    rw [nearest_code mode hm]
    simp only [Option.some.injEq, exists_eq_left']
    have hb := cell2_noRedecl mode hm (l := nearestCell mode nm h w act src) h w [] List.nodup_nil (by simp only [nearestCell, List.flatMap_append]; rfl)
      (by simp only [nearestCell, List.all_append, coordS_noRedecl]; rfl)
    simp only [closeS, noRedecl, Bool.true_and, Bool.and_true, decls, List.nodup_nil, decide_true] at *
    rw [hb]

theorem linear2_isC_iff (mode : CoordMode) (C size idx : Nat) (h w : RAxis K) (ext : SNum K) (act : CAct K) (src : Ref) (road : Nat) (f : K → K) :
    IsC Tpl.resizeLinear2D (linear2Hash mode C size idx h w ext act src road) ↔ (linear2Code mode C size h w f src.buf road).isSome = true := by
  have hr : (linear2Code mode C size h w f src.buf road).isSome = compiles2 mode := by unfold linear2Code; split <;> simp_all
  rw [hr]
  by_cases hm : mode = .tfCropAndResize
  · subst hm
    simp [IsC, linear2_tf, compiles2]
  · unfold IsC
    rw [linear2_code mode hm]
    simp only [Option.some.injEq, exists_eq_left']
    have hb := cell2_noRedecl mode hm (l := linear2Cell mode h w act src) h w [] List.nodup_nil (by simp only [linear2Cell, List.flatMap_append]; rfl)
      (by simp only [linear2Cell, List.all_append, coordS_noRedecl]; rfl)
    simp only [closeS, loopsS, noRedecl, Bool.true_and, Bool.and_true, decls, List.nodup_nil, decide_true] at *
    rw [hb]

theorem cubic2_isC_iff (a : SNum K) (mode : CoordMode) (C size idx : Nat) (h w : RAxis K) (ext : SNum K) (act : CAct K) (src : Ref) (road : Nat) (f : K → K) :
    IsC Tpl.resizeCubic2D (cubic2Hash a mode C size idx h w ext act src road) ↔ (cubic2Code a.val mode C size h w f src.buf road).isSome = true := by
  have hr : (cubic2Code a.val mode C size h w f src.buf road).isSome = compiles2 mode := by unfold cubic2Code; split <;> simp_all
  rw [hr]
  by_cases hm : mode = .tfCropAndResize
  · subst hm
    simp [IsC, cubic2_tf, compiles2]
  · unfold IsC
    rw [cubic2_code a mode hm]
    simp only [Option.some.injEq, exists_eq_left']
    have hb := cell2_noRedecl mode hm (l := cubic2Cell mode h w act src) h w [(.b, some ⟨false, 1⟩), (.b0, none), (.b1, none), (.b2, none)] (by decide)
      (by simp only [cubic2Cell, List.flatMap_append, List.flatMap_cons]; rfl) (by simp only [cubic2Cell, List.all_append, List.all_cons, coordS_noRedecl]; rfl)
    simp only [closeS, loopsS, setV, noRedecl, Bool.true_and, Bool.and_true, decls, List.nodup_nil, decide_true] at *
    rw [hb]

theorem linear1_isC_iff (mode : CoordMode) (C size idx : Nat) (h w : RAxis K) (d : Dim1) (ext : SNum K) (act : CAct K) (src : Ref) (road : Nat) (f : K → K) :
    IsC Tpl.resizeLinear1D (linear1Hash mode C size idx h w d ext act src road) ↔ (linear1Code mode C size h w (d.axis h w) d.pick f src.buf road).isSome = true := by
  have hr : (linear1Code mode C size h w (d.axis h w) d.pick f src.buf road).isSome = compiles1 mode := by unfold linear1Code; split <;> simp_all
  rw [hr]
  by_cases hm : mode = .tfCropAndResize
  · subst hm
    simp [IsC, linear1_tf, compiles1]
  · unfold IsC
    rw [linear1_code mode hm]
    have hc : compiles1 mode = true := by cases mode <;> first | rfl | exact absurd rfl hm
    have h1 : decls (seqs (linear1Cell mode h w d act)) = (coordS mode (d.axis h w) d.cvar).flatMap decls := by
      rw [decls_flat, linear1Cell, List.flatMap_append]
      exact List.append_nil _
    have h2 : noRedecl (seqs (linear1Cell mode h w d act)) = true := by
      rw [noRedecl_seqs, linear1Cell, List.all_append, coordS_noRedecl]; rfl
    simp only [hc, iff_true]
    refine ⟨_, rfl, ?_⟩
    unfold linear1Ast
    rw [noRedecl_seqs, List.all_append]
    simp only [List.all_cons, List.all_nil, noRedecl, decls_flat, noRedecl_seqs, List.all_append, List.flatMap_append, List.flatMap_cons, closeS] at h1 h2 ⊢
    rw [h1, h2]
    simp [coordS_nodup, decls, noRedecl, lin1P, lin1Q, setV]

theorem cubic1_isC_iff (a : SNum K) (mode : CoordMode) (C size idx : Nat) (h w : RAxis K) (d : Dim1) (ext : SNum K) (act : CAct K) (src : Ref) (road : Nat) (f : K → K) :
    IsC Tpl.resizeCubic1D (cubic1Hash a mode C size idx h w d ext act src road) ↔ (cubic1Code a.val mode C size h w (d.axis h w) d.pick f src.buf road).isSome = true := by
  have hr : (cubic1Code a.val mode C size h w (d.axis h w) d.pick f src.buf road).isSome = compiles1 mode := by unfold cubic1Code; split <;> simp_all
  rw [hr]
  by_cases hm : mode = .tfCropAndResize
  · subst hm
    simp [IsC, cubic1_tf, compiles1]
  · unfold IsC
    rw [cubic1_code a mode hm]
    have hc : compiles1 mode = true := by cases mode <;> first | rfl | exact absurd rfl hm
    have h1 : decls (seqs (cubic1Cell mode h w d act src)) = (coordS mode (d.axis h w) d.cvar).flatMap decls := by
      rw [decls_flat, cubic1Cell, List.flatMap_append]
      exact List.append_nil _
    have h2 : noRedecl (seqs (cubic1Cell mode h w d act src)) = true := by
      rw [noRedecl_seqs, cubic1Cell, List.all_append, coordS_noRedecl]; rfl
    simp only [hc, iff_true]
    refine ⟨_, rfl, ?_⟩
    simp only [loopsS, noRedecl, closeS, h1, h2]
    simp [coordS_nodup, decls, noRedecl, setV]

/-! ## The choice of the template -/

/-- `ResizeLinearDefault.generate_inference_code_layer` (`ResizeLinearDefault.py` 66-92): the template and what is passed
to it; nothing for an input of height and width 1 (`UnboundLocalError`). -/
def linearText (mode : CoordMode) (C size idx : Nat) (h w : RAxis K) (ext : SNum K) (act : CAct K) (src : Ref) (road : Nat) : Option (List Char × Hash K) :=
  if h.inLen = 1 ∧ w.inLen > 1 then some (Tpl.resizeLinear1D, linear1Hash mode C size idx h w .w ext act src road)
  else if h.inLen > 1 ∧ w.inLen = 1 then some (Tpl.resizeLinear1D, linear1Hash mode C size idx h w .h ext act src road)
  else if h.inLen > 1 ∧ w.inLen > 1 then some (Tpl.resizeLinear2D, linear2Hash mode C size idx h w ext act src road)
  else none

/-- `ResizeCubicDefault.generate_inference_code_layer` (`ResizeCubicDefault.py` 62-90) -/
def cubicText (a : SNum K) (mode : CoordMode) (C size idx : Nat) (h w : RAxis K) (ext : SNum K) (act : CAct K) (src : Ref) (road : Nat) : Option (List Char × Hash K) :=
  if h.inLen = 1 ∧ w.inLen > 1 then some (Tpl.resizeCubic1D, cubic1Hash a mode C size idx h w .w ext act src road)
  else if h.inLen > 1 ∧ w.inLen = 1 then some (Tpl.resizeCubic1D, cubic1Hash a mode C size idx h w .h ext act src road)
  else if h.inLen > 1 ∧ w.inLen > 1 then some (Tpl.resizeCubic2D, cubic2Hash a mode C size idx h w ext act src road)
  else none

/-- The text of a ResizeLinear layer does what `linearCode` does. -/
theorem resizeLinear_renders (L : Lib K) (mode : CoordMode) (C size idx : Nat) (h w : RAxis K) (ext : SNum K) (act : CAct K) (src : Ref) (road : Nat)
    (hs : 0 < h.scale) (ws : 0 < w.scale) (p : Prog K Unit) (hp : linearCode mode C size h w (act.fn (std L ints)) src.buf road = some p) :
    ∃ text hash, linearText mode C size idx h w ext act src road = some (text, hash) ∧ Renders (std L ints) text hash lin2Vars p := by
  unfold linearCode at hp
  unfold linearText
  split at hp
  · rename_i h1
    rw [if_pos h1]
    exact ⟨_, _, rfl, linear1_renders L mode C size idx h w .w ext act src road ws (by show 0 < w.inLen; omega) p hp⟩
  rename_i h1
  rw [if_neg h1]
  split at hp
  · rename_i h2
    rw [if_pos h2]
    exact ⟨_, _, rfl, linear1_renders L mode C size idx h w .h ext act src road hs (by show 0 < h.inLen; omega) p hp⟩
  rename_i h2
  rw [if_neg h2]
  split at hp
  · rename_i h3
    rw [if_pos h3]
    exact ⟨_, _, rfl, linear2_renders L mode C size idx h w ext act src road hs (by omega) ws (by omega) p hp⟩
  · cases hp

/-- The text of a ResizeCubic layer does what `cubicCode` does. -/
theorem resizeCubic_renders (L : Lib K) (a : SNum K) (mode : CoordMode) (C size idx : Nat) (h w : RAxis K) (ext : SNum K) (act : CAct K) (src : Ref) (road : Nat)
    (hs : 0 < h.scale) (ws : 0 < w.scale) (p : Prog K Unit) (hp : cubicCode a.val mode C size h w (act.fn (std L ints)) src.buf road = some p) :
    ∃ text hash, cubicText a mode C size idx h w ext act src road = some (text, hash) ∧ Renders (std L ints) text hash cubVars p := by
  unfold cubicCode at hp
  unfold cubicText
  split at hp
  · rename_i h1
    rw [if_pos h1]
    exact ⟨_, _, rfl, cubic1_renders L a mode C size idx h w .w ext act src road ws (by show 0 < w.inLen; omega) p hp⟩
  rename_i h1
  rw [if_neg h1]
  split at hp
  · rename_i h2
    rw [if_pos h2]
    exact ⟨_, _, rfl, cubic1_renders L a mode C size idx h w .h ext act src road hs (by show 0 < h.inLen; omega) p hp⟩
  rename_i h2
  rw [if_neg h2]
  split at hp
  · rename_i h3
    rw [if_pos h3]
    exact ⟨_, _, rfl, cubic2_renders L a mode C size idx h w ext act src road hs (by omega) ws (by omega) p hp⟩
  · cases hp

/-- the hypotheses are met: 2 × 3 to 4 × 6, scale 2 -/
example : let h : RAxis ℚ := ⟨2, 4, 2, 0, 1⟩
    let w : RAxis ℚ := ⟨3, 6, 2, 0, 1⟩
    (0 < h.scale ∧ 0 < w.scale) ∧ (∃ p, nearestCode .halfPixel .roundPreferFloor 1 24 h w id (.out 0) 1 = some p) ∧
      (∃ p, linearCode .asymmetric 1 24 h w id (.out 0) 1 = some p) ∧ (∃ p, cubicCode (-3 / 4) .alignCorners 1 24 h w id (.out 0) 1 = some p) :=
  ⟨⟨by decide, by decide⟩, ⟨_, rfl⟩, ⟨_, rfl⟩, ⟨_, rfl⟩⟩

end Verif.CText

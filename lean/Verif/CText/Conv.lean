import Verif.CText.ConvCode
import Verif.CText.Rules

/-!
# The texts of Conv2D (six loops), MaxPooling2D and AveragePooling2D
-/

namespace Verif.CText
open Prog Layers
set_option linter.unusedVariables false
set_option linter.unusedSectionVars false
variable {K : Type} [Field K] [LinearOrder K] [FloorRing K]
variable {ints : Ident → Option (List Nat)}

/-- the block `{ int ii = ..; int jj = ..; if (ii >= 0 && ii < H && jj >= 0 && jj < W) s }` -/
theorem Sim.window {G : Globals K} {F : Nat} {V : List Ident} {e : Env K} {β : Type} {ei ej : Expr K} {s : Stmt K} {zi zj : Int} {H W : Nat} {q r : Prog K β} {post : β → Env K}
    (hdi : ∀ y ∈ ei.vars, y ∉ V) (hdj : ∀ y ∈ ej.vars, y ∉ V) (hii : (.ii, none) ∉ V) (hjj : (.jj, none) ∉ V)
    (hi : ei.eval G e = ret (.int zi)) (hj : ej.eval G (upd e (.ii, none) (.int zi)) = ret (.int zj))
    (hq : Sim G F V V (upd (upd e (.ii, none) (.int zi)) (.jj, none) (.int zj)) s q
      fun b => upd (upd (post b) (.ii, none) (.int zi)) (.jj, none) (.int zj))
    (hr : Sim G F V V (upd (upd e (.ii, none) (.int zi)) (.jj, none) (.int zj)) .skip r
      fun b => upd (upd (post b) (.ii, none) (.int zi)) (.jj, none) (.int zj))
    (hpost : ∀ b, post b (.ii, none) = e (.ii, none) ∧ post b (.jj, none) = e (.jj, none)) :
    Sim G F V V e
      (.block (.seq (.decl .int (.ii, none) ei) (.seq (.decl .int (.jj, none) ej)
        (.ite (.land (.land (.land (.bin .ge (.var (.ii, none)) (.num 0)) (.bin .lt (.var (.ii, none)) (.num H)))
          (.bin .ge (.var (.jj, none)) (.num 0))) (.bin .lt (.var (.jj, none)) (.num W))) s .skip))))
      (if zi ≥ 0 ∧ zi < H ∧ zj ≥ 0 ∧ zj < W then q else r) post := by
  refine (Sim.blockD (V' := V) (Sim.seq' (x := ()) (mid := fun _ => upd e (.ii, none) (.int zi))
    (Sim.decl (val := fun _ => .int zi) hdi (by rw [hi]; rfl))
    (Sim.seq' (x := ()) (mid := fun _ => upd (upd e (.ii, none) (.int zi)) (.jj, none) (.int zj))
      (Sim.decl (val := fun _ => .int zj) hdj (by rw [hj]; rfl))
      (Sim.congr (Sim.ite (P := (((0 ≤ zi ∧ zi < H) ∧ 0 ≤ zj) ∧ zj < W)) ?_ ?_ (fun _ => hq) (fun _ => hr)) ?_))) (fun x hx => .inl hx)).weaken ?_ (fun _ h => h)
  · simp [Expr.vars, hii, hjj]
  · exact truth_land (truth_land (truth_land (truth_cmp (eval_var (by simp) (by simp [upd])) rfl).2.2.2.1
      (truth_cmp (eval_var (by simp) (by simp [upd])) rfl).1) (truth_cmp (eval_var (by simp) (by simp [upd])) rfl).2.2.2.1)
      (truth_cmp (eval_var (by simp) (by simp [upd])) rfl).1
  · simp only [ge_iff_le, and_assoc]
  · intro b
    refine Agree.of_eq ?_
    funext y
    simp only [decls, restore, upd, List.cons_append, List.nil_append, List.append_nil, List.mem_cons, List.not_mem_nil, or_false]
    by_cases h1 : y = (.ii, none)
    · subst h1; simp [(hpost b).1]
    · by_cases h2 : y = (.jj, none)
      · subst h2; simp [(hpost b).2]
      · simp [h1, h2]

set_option maxHeartbeats 1000000 in
theorem conv6_renders (L : Lib K) (c : ConvP) (size idx : Nat) (act : CAct K) (src : Ref) (road : Nat) :
    Renders (std L ints) Tpl.conv_6loops (conv6Hash c size idx act src road)
      [((.f, none), .int), ((.i, none), .int), ((.j, none), .int), ((.k, none), .int), ((.p, none), .int),
       ((.h, none), .int), ((.w, none), .int), ((.sum, none), .float)]
      (conv6Code c size idx (act.fn (std L ints)) src.buf road) := by
  refine Renders.of_sim (c.filters + c.outH + c.outW + c.inC + c.kh + c.kw + size + 1) (conv6_code ..) fun e he F hF => ?_
  have hf := he.int (.f, none) (by simp)
  have hi := he.int (.i, none) (by simp)
  have hj := he.int (.j, none) (by simp)
  have hk := he.int (.k, none) (by simp)
  have hp := he.int (.p, none) (by simp)
  have hh := he.int (.h, none) (by simp)
  have hw := he.int (.w, none) (by simp)
  have hs := he.float (.sum, none) (by simp)
  refine Sim.seq (Sim.loop3 (by simp) (by simp) (by simp) (by omega) hf hi hj fun f i j _ _ _ => Sim.block' ?_ rfl)
    fun _ => Sim.copy (by simp) (by simp) (by omega) hk (by simp) (by simp) (.inl rfl)
  refine Sim.float (.sum, none) (by simpa [upd] using hs) fun v => ?_
  refine Sim.seq' (x := ()) (Sim.set (old := .flt v) (val := fun _ => .flt 0) (by simp [upd]) (by simp)
    (by simp [Expr.vars]) (by ceval)) ?_
  rw [upd_upd]
  refine Sim.seq (Sim.fold (base := fun s => upd (upd (upd (upd e (.f, none) (.int f)) (.i, none) (.int i)) (.j, none) (.int j)) (.sum, none) (.flt s))
    (by simp) (by simp) (by omega) (fun _ => by simpa [upd, IsInt] using hp) fun p _ s => Sim.block' ?_ rfl) fun s => ?_
  · refine (Sim.start (Sim.fold (base := fun s => upd (upd (upd (upd (upd e (.f, none) (.int f)) (.i, none) (.int i)) (.j, none) (.int j)) (.p, none) (.int p)) (.sum, none) (.flt s))
      (by simp) (by simp) (by omega) (fun _ => by simpa [upd, IsInt] using hh) fun h _ s => Sim.block' ?_ rfl) ?_).weaken ?_ (fun _ h => h)
    · refine (Sim.start (Sim.fold (base := fun s => upd (upd (upd (upd (upd (upd e (.f, none) (.int f)) (.i, none) (.int i)) (.j, none) (.int j)) (.p, none) (.int p)) (.h, none) (.int h)) (.sum, none) (.flt s))
        (by simp) (by simp) (by omega) (fun _ => by simpa [upd, IsInt] using hw) fun w _ s => ?_) ?_).weaken ?_ (fun _ h => h)
      · refine Sim.window (by simp [Expr.vars]) (by simp [Expr.vars]) (by simp) (by simp)
          (by ceval) (by ceval) ?_ ?_ (by simp [upd])
        · refine Sim.set' (old := .flt s) (val := fun x => .flt x) (by simp [upd]) (by simp) (by simp [Expr.vars])
            (by ceval) fun b => by env_rfl
        · exact fun e₁ h1 m => ⟨e₁, h1, rfl⟩
      · env_rfl
      · intro s; env_rfl
    · env_rfl
    · intro s; env_rfl
  · refine Sim.seq (mid := fun b => upd (upd (upd (upd e (.f, none) (.int f)) (.i, none) (.int i)) (.j, none) (.int j)) (.sum, none) (.flt (s + b)))
      (Sim.set' (q := load (.par .biases idx) (f : Int)) (old := .flt s) (val := fun b => .flt (s + b)) (by simp [upd]) (by simp) (by simp [Expr.vars]) (by ceval) fun b => by rw [upd_upd]; exact Agree.refl _ _)
      fun b => ?_
    refine Sim.forget (.sum, none) (val := fun _ => .flt (s + b)) ?_ (by simp) (fun _ => sameTy_flt (by simpa [upd] using hs))
    refine (Sim.storeAct (b := .temp) (za := at3 c.outH c.outW f i j) (q := ret (s + b)) (by simp) (by simp [Expr.vars]) (by simp [Expr.vars]) (by ceval [at3]) (Reads.ret _) (by ceval) (by simp [isFlt, upd])).congr ?_
    rfl

/-- `if (a > x) x = a;` where `a` reads the memory -/
theorem Sim.iteGt {G : Globals K} {F : Nat} {V : List Ident} {e : Env K} {x : Ident} {a : Expr K} {b : Buf} {za : Int} {z : K}
    (hx : e x = some (.flt z)) (hxi : x.1 ≠ .INFINITY) (hV : x ∉ V) (hda : ∀ y ∈ a.vars, y ∉ V) (ha : a.eval G e = (load b za >>= fun v => ret (.flt v))) :
    Sim G F V V e (.ite (.bin .gt a (.var x)) (.assign (.var x) .set a) .skip)
      (load b za >>= fun v => (if v > z then load b za else pure z : Prog K K)) (fun v => upd e x (.flt v)) := by
  apply Sim.of_run
  intro e₁ h1
  refine ⟨fun v => upd e₁ x (.flt v), fun _ => h1.upd x _, ?_⟩
  have hid : upd e₁ x (.flt z) = e₁ := by
    funext y; unfold upd; split
    · rename_i h; subst h; rw [h1.get hV, hx]
    · rfl
  have hxx : x ≠ (.INFINITY, none) := fun h => hxi (by rw [h])
  simp only [Stmt.run, assignTo, Expr.eval]
  rw [eval_congr G h1 a hda, h1.get hV, hx, ha]
  funext m
  by_cases hl : 0 ≤ za ∧ za < m.size b
  · by_cases hg : z < m.val b za.toNat <;>
      simp [bind, andThen, ret, load, hl, hxx, ofOpt, binOp, fltOp, truth, boolVal, aop, convert, Val.toK, hg, hid, pure, Val.toK]
  · simp [bind, andThen, load, hl]

set_option maxHeartbeats 1000000 in
theorem maxPool_renders (L : Lib K) (c : PoolP) (size idx : Nat) (act : CAct K) (src : Ref) (road : Nat) :
    Renders (std L ints) Tpl.pooling2D (maxPoolHash c size idx act src road)
      [((.f, none), .int), ((.i, none), .int), ((.j, none), .int), ((.k, none), .int),
       ((.h, none), .int), ((.w, none), .int), ((.max, none), .float)]
      (maxPoolCode c size (-L.inf) (act.fn (std L ints)) src.buf road) := by
  refine Renders.of_sim (c.C + c.Ho + c.Wo + c.pool + size + 1) (maxPool_code ..) fun e he F hF => ?_
  have hf := he.int (.f, none) (by simp)
  have hi := he.int (.i, none) (by simp)
  have hj := he.int (.j, none) (by simp)
  have hk := he.int (.k, none) (by simp)
  have hh := he.int (.h, none) (by simp)
  have hw := he.int (.w, none) (by simp)
  have hs := he.float (.max, none) (by simp)
  refine Sim.seq (Sim.loop3 (by simp) (by simp) (by simp) (by omega) hf hi hj fun f i j _ _ _ => Sim.block' ?_ rfl)
    fun _ => Sim.copy (by simp) (by simp) (by omega) hk (by simp) (by simp) (.inl rfl)
  refine Sim.float (.max, none) (by simpa [upd] using hs) fun v => ?_
  refine Sim.seq' (x := ()) (Sim.set (old := .flt v) (val := fun _ => .flt (-L.inf)) (by simp [upd]) (by simp)
    (by simp [Expr.vars]) (by ceval)) ?_
  rw [upd_upd]
  refine Sim.seq (Sim.fold (base := fun s => upd (upd (upd (upd e (.f, none) (.int f)) (.i, none) (.int i)) (.j, none) (.int j)) (.max, none) (.flt s))
    (by simp) (by simp) (by omega) (fun _ => by simpa [upd, IsInt] using hh) fun h _ s => Sim.block' ?_ rfl) fun s => ?_
  · refine (Sim.start (Sim.fold (base := fun s => upd (upd (upd (upd (upd e (.f, none) (.int f)) (.i, none) (.int i)) (.j, none) (.int j)) (.h, none) (.int h)) (.max, none) (.flt s))
      (by simp) (by simp) (by omega) (fun _ => by simpa [upd, IsInt] using hw) fun w _ s => ?_) ?_).weaken ?_ (fun _ h => h)
    · refine Sim.window (by simp [Expr.vars]) (by simp [Expr.vars]) (by simp) (by simp)
        (by ceval) (by ceval) ?_ ?_ (by simp [upd])
      · refine (Sim.block' (Sim.iteGt (by simp [upd]) (by simp) (by simp) (by simp [Expr.vars]) (by ceval)) rfl).weaken (fun b => by env_rfl) (fun _ h => h)
      · exact fun e₁ h1 m => ⟨e₁, h1, rfl⟩
    · env_rfl
    · intro s; env_rfl
  · refine Sim.forget (.max, none) (val := fun _ => .flt s) ?_ (by simp) (fun _ => sameTy_flt (by simpa [upd] using hs))
    exact (Sim.storeAct (b := .temp) (za := at3 c.Ho c.Wo f i j) (q := ret s) (by simp) (by simp [Expr.vars]) (by simp [Expr.vars]) (by ceval [at3]) (Reads.ret _) (by ceval) (by simp [isFlt, upd])).congr rfl

/-- The text of an activation whose argument is the text `a/b` computes the function of the quotient. -/
theorem CAct.eval_quot (G : Globals K) {e : Env K} (act : CAct K) {a b : Expr K} {x : K} {n : Int}
    (ha : a.eval G e = ret (.flt x)) (hb : b.eval G e = ret (.int n)) (hf : isFlt G e a = true) :
    ((act.quot a b).eval G e >>= asK) = ret (act.fn G (x / n)) := by
  have h1 : lit K 1 0 = 1 := by simp [lit]
  have h0 : lit K 0 0 = 0 := by simp [lit]
  have h2 : lit K 2 0 = 2 := by simp [lit]
  have q1 : (-x) / (n : K) = -(x / n) := neg_div _ _
  have q2 : ∀ y : K, y * x / (n : K) = y * (x / n) := fun y => mul_div_assoc _ _ _
  have q4 : -(2 * x) / (n : K) = -(2 * (x / n)) := by rw [neg_div, mul_div_assoc]
  cases act with
  | sigmoid =>
    by_cases hx : x / n < 0 <;>
      simp [CAct.quot, Expr.eval, ret_andThen, ha, hb, CAct.fn, asK, Val.toK, binOp, fltOp, ofOpt, truth, boolVal, lib1, isFlt, h1, hx, q1]
  | silu => simp [CAct.quot, Expr.eval, ret_andThen, ha, hb, CAct.fn, asK, Val.toK, binOp, fltOp, ofOpt, lib1, q1]
  | relu =>
    by_cases hx : 0 < x / n <;>
      simp [CAct.quot, Expr.eval, ret_andThen, ha, hb, CAct.fn, asK, Val.toK, binOp, fltOp, ofOpt, truth, boolVal, isFlt, hf, hx]
  | leakyRelu al =>
    by_cases hx : 0 < x / n <;>
      simp [CAct.quot, Expr.eval, ret_andThen, ha, hb, CAct.fn, asK, Val.toK, binOp, fltOp, ofOpt, truth, boolVal, isFlt, hf, hx, SNum.eval, h0, q2]
  | tanh =>
    by_cases hx : x / n < 0 <;>
      simp [CAct.quot, Expr.eval, ret_andThen, ha, hb, CAct.fn, asK, Val.toK, binOp, fltOp, ofOpt, truth, boolVal, lib1, isFlt, hx, h0, h1, h2, q2, q4]
  | linear => simp [CAct.quot, Expr.eval, ret_andThen, ha, hb, CAct.fn, asK, Val.toK, binOp, fltOp, ofOpt]
  | exponential => simp [CAct.quot, Expr.eval, ret_andThen, ha, hb, CAct.fn, asK, Val.toK, binOp, fltOp, ofOpt, lib1]
  | logarithm => simp [CAct.quot, Expr.eval, ret_andThen, ha, hb, CAct.fn, asK, Val.toK, binOp, fltOp, ofOpt, lib1]
  | clip mx mn =>
    by_cases hx : mx.val < x / n
    · simp [CAct.quot, Expr.eval, ret_andThen, ha, hb, CAct.fn, asK, Val.toK, binOp, fltOp, ofOpt, truth, boolVal, isFlt, SNum.flt, hx, SNum.eval]
    · by_cases hy : x / n < mn.val <;>
        simp [CAct.quot, Expr.eval, ret_andThen, ha, hb, CAct.fn, asK, Val.toK, binOp, fltOp, ofOpt, truth, boolVal, isFlt, SNum.flt, hf, hx, hy, SNum.eval]

omit [LinearOrder K] [FloorRing K] in
theorem CAct.quot_vars {V : List Ident} {act : CAct K} {a b : Expr K} (ha : ∀ y ∈ a.vars, y ∉ V) (hb : ∀ y ∈ b.vars, y ∉ V) :
    ∀ y ∈ (act.quot a b).vars, y ∉ V := by
  have hs : ∀ q : SNum K, q.expr.vars = [] := by rintro ⟨_ | _, q⟩ <;> rfl
  cases act <;> simp only [CAct.quot, Expr.vars, List.append_nil, List.nil_append, List.mem_append, hs, or_self] <;> grind

/-- `avgPoolCode` with a division that never fails -/
def avgPoolTotal (c : PoolP) (size : Nat) (act : K → K) (src : Buf) (road : Nat) : Prog K Unit := do
  loop3 c.C c.Ho c.Wo fun f i j => do
    let sc ← foldN c.pool ((0 : K), 0) fun h sc => foldN c.pool sc fun w sc =>
      let ii : Int := (i : Int) * c.stride + h - c.padLeft
      let jj : Int := (j : Int) * c.stride + w - c.padTop
      if ii ≥ 0 ∧ ii < c.H ∧ jj ≥ 0 ∧ jj < c.W then do
        let x ← load src (jj + c.W * (ii + c.H * f))
        pure (sc.1 + x, sc.2 + 1)
      else pure sc
    store .temp (at3 c.Ho c.Wo f i j : Int) (act (sc.1 / (sc.2 : Nat)))
  copyMap size .temp (.out road) id

set_option maxHeartbeats 1000000 in
theorem avgPoolTotal_renders (L : Lib K) (c : PoolP) (size idx : Nat) (act : CAct K) (src : Ref) (road : Nat) :
    Renders (std L ints) Tpl.pooling2D (avgPoolHash c size idx act src road)
      [((.f, none), .int), ((.i, none), .int), ((.j, none), .int), ((.k, none), .int),
       ((.h, none), .int), ((.w, none), .int), ((.sum, none), .float), ((.count, none), .int)]
      (avgPoolTotal c size (act.fn (std L ints)) src.buf road) := by
  refine Renders.of_sim (c.C + c.Ho + c.Wo + c.pool + size + 1) (avgPool_code ..) fun e he F hF => ?_
  have hf := he.int (.f, none) (by simp)
  have hi := he.int (.i, none) (by simp)
  have hj := he.int (.j, none) (by simp)
  have hk := he.int (.k, none) (by simp)
  have hh := he.int (.h, none) (by simp)
  have hw := he.int (.w, none) (by simp)
  have hs := he.float (.sum, none) (by simp)
  have hc := he.int (.count, none) (by simp)
  refine Sim.seq (Sim.loop3 (by simp) (by simp) (by simp) (by omega) hf hi hj fun f i j _ _ _ => Sim.block' ?_ rfl)
    fun _ => Sim.copy (by simp) (by simp) (by omega) hk (by simp) (by simp) (.inl rfl)
  refine Sim.float (.sum, none) (by simpa [upd] using hs) fun v => ?_
  refine Sim.seq' (x := ()) (Sim.set (old := .flt v) (val := fun _ => .flt 0) (by simp [upd]) (by simp)
    (by simp [Expr.vars]) (by ceval)) ?_
  rw [upd_upd]
  refine Sim.int (.count, none) (by simpa [IsInt, upd] using hc) fun v => ?_
  refine Sim.seq' (x := ()) (Sim.set (old := .int v) (val := fun _ => .int 0) (by simp [upd]) (by simp)
    (by simp [Expr.vars]) (by ceval)) ?_
  rw [upd_upd]
  refine Sim.seq (Sim.start (Sim.fold (base := fun s : K × Nat => upd (upd (upd (upd (upd e (.f, none) (.int f)) (.i, none) (.int i)) (.j, none) (.int j)) (.sum, none) (.flt s.1)) (.count, none) (.int s.2)) (init := ((0 : K), 0))
    (by simp) (by simp) (by omega) (fun _ => by simpa [upd, IsInt] using hh) fun h _ s => Sim.block' ?_ rfl) (Agree.refl _ _)) fun s => ?_
  · refine (Sim.start (Sim.fold (base := fun s : K × Nat => upd (upd (upd (upd (upd (upd e (.f, none) (.int f)) (.i, none) (.int i)) (.j, none) (.int j)) (.h, none) (.int h)) (.sum, none) (.flt s.1)) (.count, none) (.int s.2))
      (by simp) (by simp) (by omega) (fun _ => by simpa [upd, IsInt] using hw) fun w _ s => ?_) ?_).weaken ?_ (fun _ h => h)
    · refine Sim.window (by simp [Expr.vars]) (by simp [Expr.vars]) (by simp) (by simp)
        (by ceval) (by ceval) ?_ ?_ (by simp [upd])
      · refine Sim.block' (Sim.seq (Sim.set (old := .flt s.1) (val := fun x => .flt (s.1 + x)) (by simp [upd]) (by simp) (by simp [Expr.vars]) (by ceval))
          fun x => Sim.incr (z := s.2) (by simp [upd]) (by simp) (by env_rfl)) rfl
      · exact fun e₁ h1 m => ⟨e₁, h1, rfl⟩
    · env_rfl
    · intro s; env_rfl
  · refine Sim.forget (.sum, none) (val := fun _ => .flt s.1) ?_ (by simp) (fun _ => sameTy_flt (by simpa [upd] using hs))
    refine Sim.forget (.count, none) (val := fun _ => .int s.2) ?_ (by simp) (fun _ => sameTy_int (by simpa [upd, IsInt] using hc))
    refine (Sim.store (b := .temp) (za := at3 c.Ho c.Wo f i j) (q := ret (act.fn (std L ints) (s.1 / (s.2 : Nat)))) (by simp) (by simp [Expr.vars]) (CAct.quot_vars (by simp [Expr.vars]) (by simp [Expr.vars])) (by ceval [at3])
      ((CAct.eval_quot (x := s.1) (n := s.2) (std L ints) act (eval_var (by simp) (by simp [upd])) (eval_var (by simp) (by simp [upd])) (by simp [isFlt, upd])).trans (by push_cast; rfl))).congr rfl

/-- `sum/count` of an empty window is not a number: there `avgPoolCode` fails and nothing is claimed. -/
theorem avgPool_renders (L : Lib K) (c : PoolP) (size idx : Nat) (act : CAct K) (src : Ref) (road : Nat) :
    RendersOk (std L ints) Tpl.pooling2D (avgPoolHash c size idx act src road)
      [((.f, none), .int), ((.i, none), .int), ((.j, none), .int), ((.k, none), .int),
       ((.h, none), .int), ((.w, none), .int), ((.sum, none), .float), ((.count, none), .int)]
      (avgPoolCode c size (act.fn (std L ints)) src.buf road) := by
  refine (avgPoolTotal_renders L c size idx act src road).ok ?_
  refine PLe.bind (PLe.loop3 _ _ _ fun f i j => PLe.bind (PLe.refl _) fun sc => ?_) fun _ => PLe.refl _
  intro m r h
  simp only [bind_eq, andThen, divCount] at h
  by_cases h0 : sc.2 = 0
  · simp [h0] at h
  · simpa [h0] using h

end Verif.CText

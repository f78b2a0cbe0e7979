import Verif.CText.StdGemmCode
import Verif.CText.Rules

/-!
# The text of the convolution by im2col and gemm
-/

namespace Verif.CText
open Prog Layers
set_option linter.unusedVariables false
set_option linter.unusedSectionVars false
variable {K : Type} [Field K] [LinearOrder K] [FloorRing K]
variable {ints : Ident → Option (List Nat)}

/-- a declaration, after which the variable is followed -/
theorem Sim.declF {G : Globals K} {F : Nat} {V : List Ident} {e : Env K} {β : Type} {t : Ty} {x : Ident} {ex : Expr K} {q : Prog K β} {val : β → Val K}
    (hdx : ∀ y ∈ ex.vars, y ∉ V) (hq : (ex.eval G e >>= fun v => ofOpt (convertTy t v)) = (q >>= fun b => ret (val b))) :
    Sim G F V (V.filter (· ≠ x)) e (.decl t x ex) q (fun b => upd e x (val b)) := by
  intro e₁ h1 m
  have hrun : (Stmt.decl t x ex).run G F e₁ = andThen q fun b => ret (upd e₁ x (val b)) := by
    simp only [Stmt.run]
    rw [eval_congr G h1 ex hdx]
    have : (ex.eval G e >>= fun v => ofOpt (convertTy t v) >>= fun v' => ret (upd e₁ x v')) =
        ((ex.eval G e >>= fun v => ofOpt (convertTy t v)) >>= fun v' => ret (upd e₁ x v')) := (bind_assoc' _ _ _).symm
    rw [this, hq]
    exact bind_assoc' _ _ _
  rw [hrun]
  unfold andThen
  split
  · rename_i hn; rw [hn]
  · rename_i b m' hs
    rw [hs]
    refine ⟨_, ?_, rfl⟩
    intro y
    by_cases hy : y = x
    · subst hy; simp [upd]
    · have := h1 y
      simpa [upd, hy] using this

/-- the text of `template_im2col.c.tpl` -/
def im2colS (c : ConvP) (x : Ident) (road : Nat) : Stmt K :=
  loop (.i, none) (c.inC * c.kh * c.kw) (.block
    (.seq (.decl .int (.i_offset, none) (.bin .mod (.bin .div (.var (.i, none)) (.num c.kw)) (.num c.kh)))
    (.seq (.decl .int (.j_offset, none) (.bin .mod (.var (.i, none)) (.num c.kw)))
    (.seq (.decl .int (.c_offset, none) (.bin .div (.bin .div (.var (.i, none)) (.num c.kh)) (.num c.kw)))
    (loop (.h, none) c.outH (.block (loop (.w, none) c.outW (.block
      (.seq (.decl .int (.ii, none) (.bin .add (.bin .sub (.bin .mul (.var (.h, none)) (.num c.stride)) (.num c.padTop)) (.var (.i_offset, none))))
      (.seq (.decl .int (.jj, none) (.bin .add (.bin .sub (.bin .mul (.var (.w, none)) (.num c.stride)) (.num c.padLeft)) (.var (.j_offset, none))))
      (.seq (.decl .int (.j, none) (.bin .add (.bin .mul (.var (.h, none)) (.num c.outW)) (.var (.w, none))))
      (.ite (.land (.land (.land (.bin .ge (.var (.ii, none)) (.num 0)) (.bin .lt (.var (.ii, none)) (.num c.inH)))
          (.bin .ge (.var (.jj, none)) (.num 0))) (.bin .lt (.var (.jj, none)) (.num c.inW)))
        (.assign (.idx true (.output, some ⟨false, road⟩) (.bin .add (.bin .mul (.var (.i, none)) (.num (c.outH * c.outW))) (.var (.j, none)))) .set
          (.idx true x (.bin .add (.bin .mul (.bin .add (.bin .mul (.var (.c_offset, none)) (.num c.inH)) (.var (.ii, none))) (.num c.inW)) (.var (.jj, none)))))
        (.assign (.idx true (.output, some ⟨false, road⟩) (.bin .add (.bin .mul (.var (.i, none)) (.num (c.outH * c.outW))) (.var (.j, none)))) .set
          (.num 0))))))))))))))

abbrev gemmVars : List Ident := [(.i, none), (.j, none), (.k, none), (.p, none), (.h, none), (.w, none)]

theorem tdiv_nat (a b : Nat) : (a : Int).tdiv b = ((a / b : Nat) : Int) := by
  rw [Int.tdiv_eq_ediv_of_nonneg (by omega)]; rfl

set_option maxHeartbeats 1000000 in
theorem Sim.im2col (L : Lib K) {F : Nat} {e : Env K} (c : ConvP) {x : Ident} {b : Buf} (road : Nat) (hb : (std L ints).buf true x = some b)
    (hF : c.inC * c.kh * c.kw + c.outH + c.outW < F)
    (ti : IsInt e (.i, none)) (tj : IsInt e (.j, none)) (th : IsInt e (.h, none)) (tw : IsInt e (.w, none)) :
    Sim (std L ints) F gemmVars gemmVars e (im2colS c x road) (im2colCode c b road) (fun _ => e) := by
  unfold im2colS im2colCode
  refine Sim.for (by simp) (by simp) (by omega) ti fun i hi => ?_
  have hkh : c.kh ≠ 0 := by rintro h; simp [h] at hi
  have hkw : c.kw ≠ 0 := by rintro h; simp [h] at hi
  set e1 := upd e (.i, none) (.int i) with he1
  set e2 := upd (upd (upd e1 (.i_offset, none) (.int ((i / c.kw % c.kh : Nat) : Int))) (.j_offset, none) (.int ((i % c.kw : Nat) : Int))) (.c_offset, none) (.int ((i / c.kh / c.kw : Nat) : Int)) with he2
  refine (Sim.blockD (V' := gemmVars.filter (· ≠ (.i, none))) (post := fun _ => e2) (Sim.seq' (x := ()) (mid := fun _ => upd e1 (.i_offset, none) (.int ((i / c.kw % c.kh : Nat) : Int)))
    (Sim.decl (val := fun _ => .int ((i / c.kw % c.kh : Nat) : Int)) (by simp [Expr.vars]) ?_)
    (Sim.seq' (x := ()) (mid := fun _ => upd (upd e1 (.i_offset, none) (.int ((i / c.kw % c.kh : Nat) : Int))) (.j_offset, none) (.int ((i % c.kw : Nat) : Int)))
      (Sim.decl (val := fun _ => .int ((i % c.kw : Nat) : Int)) (by simp [Expr.vars]) ?_)
      (Sim.seq' (x := ()) (mid := fun _ => e2)
        (Sim.decl (val := fun _ => .int ((i / c.kh / c.kw : Nat) : Int)) (by simp [Expr.vars]) ?_)
        (Sim.for' (by simp) (by simp) (by omega) (by simpa [IsInt, upd, he2, he1] using th) rfl fun h _ =>
          Sim.for (by simp) (by simp) (by omega) (by simpa [IsInt, upd, he2, he1] using tw) fun w _ => ?_)))) (fun x hx => .inl hx)).weaken ?_ (fun _ h => h)
  · ceval [he1, hkw, hkh, tdiv_nat]
    rw [Int.tmod_eq_emod_of_nonneg (Int.ediv_nonneg (by omega) (by omega))]
  · ceval [he1, hkw, tmod_nat]
  · ceval [he1, hkw, hkh, tdiv_nat]
    rw [Int.tdiv_eq_ediv_of_nonneg (Int.ediv_nonneg (by omega) (by omega))]
  · refine (Sim.blockD (V' := [(.k, none), (.p, none)]) (post := fun _ => upd (upd (upd (upd (upd e2 (.h, none) (.int h)) (.w, none) (.int w)) (.ii, none) (.int ((h : Int) * c.stride - c.padTop + (i / c.kw % c.kh : Nat)))) (.jj, none) (.int ((w : Int) * c.stride - c.padLeft + (i % c.kw : Nat)))) (.j, none) (.int ((h * c.outW + w : Nat) : Int)))
      (Sim.seq' (x := ()) (mid := fun _ => upd (upd (upd e2 (.h, none) (.int h)) (.w, none) (.int w)) (.ii, none) (.int ((h : Int) * c.stride - c.padTop + (i / c.kw % c.kh : Nat))))
        (Sim.decl (val := fun _ => .int ((h : Int) * c.stride - c.padTop + (i / c.kw % c.kh : Nat))) (by simp [Expr.vars]) (by ceval [he2]))
        (Sim.seq' (x := ()) (mid := fun _ => upd (upd (upd (upd e2 (.h, none) (.int h)) (.w, none) (.int w)) (.ii, none) (.int ((h : Int) * c.stride - c.padTop + (i / c.kw % c.kh : Nat)))) (.jj, none) (.int ((w : Int) * c.stride - c.padLeft + (i % c.kw : Nat))))
          (Sim.decl (val := fun _ => .int ((w : Int) * c.stride - c.padLeft + (i % c.kw : Nat))) (by simp [Expr.vars]) (by ceval [he2]))
          (Sim.seq' (x := ()) (mid := fun _ => upd (upd (upd (upd (upd e2 (.h, none) (.int h)) (.w, none) (.int w)) (.ii, none) (.int ((h : Int) * c.stride - c.padTop + (i / c.kw % c.kh : Nat)))) (.jj, none) (.int ((w : Int) * c.stride - c.padLeft + (i % c.kw : Nat)))) (.j, none) (.int ((h * c.outW + w : Nat) : Int)))
            (Sim.declF (val := fun _ => .int ((h * c.outW + w : Nat) : Int)) (by simp [Expr.vars]) (by ceval [he2]))
            (Sim.congr (Sim.ite (p := load b (((i / c.kh / c.kw : Nat) * c.inH + ((h : Int) * c.stride - c.padTop + (i / c.kw % c.kh : Nat))) * c.inW + ((w : Int) * c.stride - c.padLeft + (i % c.kw : Nat))) >>= fun v => Prog.store (.out road) ((i * (c.outH * c.outW) + (h * c.outW + w) : Nat) : Int) v)
              (q := Prog.store (.out road) ((i * (c.outH * c.outW) + (h * c.outW + w) : Nat) : Int) 0) (P := ((((0 : Int) ≤ ((h : Int) * c.stride - c.padTop + (i / c.kw % c.kh : Nat)) ∧ ((h : Int) * c.stride - c.padTop + (i / c.kw % c.kh : Nat)) < c.inH) ∧ 0 ≤ ((w : Int) * c.stride - c.padLeft + (i % c.kw : Nat))) ∧ ((w : Int) * c.stride - c.padLeft + (i % c.kw : Nat)) < c.inW)) ?_ ?_ (fun _ => ?_) (fun _ => ?_)) ?_))))
      (by simp [decls])).weaken ?_ (fun _ h => h)
    · simp [Expr.vars]
    · exact truth_land (truth_land (truth_land (truth_cmp (eval_var (by simp) (by simp [upd])) rfl).2.2.2.1
        (truth_cmp (eval_var (by simp) (by simp [upd])) rfl).1) (truth_cmp (eval_var (by simp) (by simp [upd])) rfl).2.2.2.1)
        (truth_cmp (eval_var (by simp) (by simp [upd])) rfl).1
    · refine Sim.store (b := .out road) (za := ((i * (c.outH * c.outW) + (h * c.outW + w) : Nat) : Int)) (q := load b (((i / c.kh / c.kw : Nat) * c.inH + ((h : Int) * c.stride - c.padTop + (i / c.kw % c.kh : Nat))) * c.inW + ((w : Int) * c.stride - c.padLeft + (i % c.kw : Nat))))
        (by simp) (by simp [Expr.vars]) (by simp [Expr.vars]) (by ceval [he2, he1]) ?_
      ceval [he2, he1, hb]
    · exact (Sim.store (b := .out road) (za := ((i * (c.outH * c.outW) + (h * c.outW + w) : Nat) : Int)) (q := ret 0)
        (by simp) (by simp [Expr.vars]) (by simp [Expr.vars]) (by ceval [he2, he1]) (by ceval)).congr (ret_andThen _ _)
    · simp only [ge_iff_le, and_assoc]
    · intro _
      refine Agree.of_eq ?_
      funext z
      simp only [restore, decls, List.mem_append, List.mem_cons, List.not_mem_nil, or_false, List.append_nil, upd]
      by_cases h1 : z = (.ii, none)
      · simp [h1]
      · by_cases h2 : z = (.jj, none)
        · simp [h2]
        · by_cases h3 : z = (.j, none)
          · simp [h3]
          · simp [h1, h2, h3]
  · intro _
    refine Agree.of_eq ?_
    funext z
    simp only [restore, decls, List.mem_append, List.mem_cons, List.not_mem_nil, or_false, List.append_nil, he2, upd]
    by_cases h1 : z = (.i_offset, none)
    · simp [h1]
    · by_cases h2 : z = (.j_offset, none)
      · simp [h2]
      · by_cases h3 : z = (.c_offset, none)
        · simp [h3]
        · simp [h1, h2, h3]

/-- the text of `template_Conv_gemm_nn.c.tpl` -/
def convGemmNNS (m n k idx : Nat) (act : CAct K) (road : Nat) : Stmt K :=
  loop (.i, none) m (.block (.seq
    (loop (.p, none) k (.block (.seq
      (.decl .float (.weight, none) (.idx false (.other (chars! "weights_Conv2D"), some ⟨decide (idx < 10), idx⟩) (.bin .add (.bin .mul (.var (.i, none)) (.num k)) (.var (.p, none)))))
      (loop (.j, none) n (.block
        (.assign (.idx true (.tensor_temp, none) (.bin .add (.bin .mul (.var (.i, none)) (.num n)) (.var (.j, none)))) .add
          (.bin .mul (.var (.weight, none)) (.idx true (.output, some ⟨false, road⟩) (.bin .add (.bin .mul (.var (.p, none)) (.num n)) (.var (.j, none)))))))))))
    (loop (.j, none) n (.block
      (.seq (.decl .float (.output, none) (.idx true (.tensor_temp, none) (.bin .add (.bin .mul (.var (.i, none)) (.num n)) (.var (.j, none)))))
      (.seq (.assign (.var (.output, none)) .add (.idx false (.other (chars! "biases_Conv2D"), some ⟨decide (idx < 10), idx⟩) (.var (.i, none))))
        (.assign (.idx true (.tensor_temp, none) (.bin .add (.bin .mul (.var (.i, none)) (.num n)) (.var (.j, none)))) .set (act.expr (.var (.output, none))))))))))

set_option maxHeartbeats 1000000 in
theorem Sim.convGemmNN (L : Lib K) {F : Nat} {e : Env K} (m n k idx : Nat) (act : CAct K) (road : Nat) (hF : m + n + k < F)
    (ti : IsInt e (.i, none)) (tj : IsInt e (.j, none)) (tp : IsInt e (.p, none)) :
    Sim (std L ints) F gemmVars gemmVars e (convGemmNNS m n k idx act road) (gemmNNCode m n k idx (act.fn (std L ints)) road) (fun _ => e) := by
  unfold convGemmNNS gemmNNCode
  refine Sim.for' (by simp) (by simp) (by omega) ti rfl fun i _ => ?_
  refine Sim.seq (Sim.for (by simp) (by simp) (by omega) (by simpa [IsInt, upd] using tp) fun p _ => ?_) fun _ =>
    Sim.for (by simp) (by simp) (by omega) (by simpa [IsInt, upd] using tj) fun j _ => ?_
  · refine (Sim.blockD (V' := [(.weight, none), (.j, none), (.k, none), (.h, none), (.w, none)]) (post := fun _ => upd (upd (upd e (.i, none) (.int i)) (.p, none) (.int p)) (.weight, none) (.flt 0)) (Sim.seq (mid := fun wt => upd (upd (upd e (.i, none) (.int i)) (.p, none) (.int p)) (.weight, none) (.flt wt))
      (Sim.decl (q := load (.par .weights idx) ((i * k + p : Nat) : Int)) (val := fun wt => .flt wt) (by simp [Expr.vars]) (by ceval)) fun wt => ?_) (by simp [decls])).weaken ?_ (fun _ h => h)
    · refine Sim.forget (.weight, none) (val := fun _ => .flt wt) ?_ (by simp) (fun _ => by simp [upd, sameTy])
      simp only [upd_upd]
      refine Sim.for' (by simp) (by simp) (by omega) (by simpa [IsInt, upd] using tj) rfl fun j _ => ?_
      refine (Sim.storeOp (b := .temp) (za := ((i * n + j : Nat) : Int)) (o := .add) (f := (· + ·)) (q := load (.out road) ((p * n + j : Nat) : Int) >>= fun b => ret (wt * b)) (by simp) (by simp) (by simp [Expr.vars]) (by simp [Expr.vars]) (by ceval) (by ceval) (fun _ _ => rfl)).congr ?_
      simp only [bind_eq, andThen_assoc, ret_andThen]
      exact load_comm ..
    · intro b
      refine Agree.of_eq ?_
      funext z
      by_cases hz : z = (.weight, none) <;> simp [restore, decls, upd, hz]
  · refine (Sim.blockD (V' := [(.output, none), (.k, none), (.p, none), (.h, none), (.w, none)]) (post := fun _ => upd (upd (upd e (.i, none) (.int i)) (.j, none) (.int j)) (.output, none) (.flt 0)) (Sim.seq (mid := fun t => upd (upd (upd e (.i, none) (.int i)) (.j, none) (.int j)) (.output, none) (.flt t))
      (Sim.decl (q := load .temp ((i * n + j : Nat) : Int)) (val := fun t => .flt t) (by simp [Expr.vars]) (by ceval)) fun t => ?_) (by simp [decls])).weaken ?_ (fun _ h => h)
    · refine Sim.seq (mid := fun b => upd (upd (upd e (.i, none) (.int i)) (.j, none) (.int j)) (.output, none) (.flt (t + b)))
        (Sim.set' (q := load (.par .biases idx) (i : Int)) (old := .flt t) (val := fun b => .flt (t + b)) (by simp [upd]) (by simp) (by simp [Expr.vars]) (by ceval) fun b => by rw [upd_upd]; exact Agree.refl _ _) fun b => ?_
      refine Sim.forget (.output, none) (val := fun _ => .flt (t + b)) ?_ (by simp) (fun _ => by simp [upd, sameTy])
      simp only [upd_upd]
      exact (Sim.storeAct (b := .temp) (za := ((i * n + j : Nat) : Int)) (q := ret (t + b)) (by simp) (by simp [Expr.vars]) (by simp [Expr.vars]) (by ceval) (Reads.ret _) (by ceval) (by simp [isFlt, upd])).congr rfl
    · intro b
      refine Agree.of_eq ?_
      funext z
      by_cases hz : z = (.output, none) <;> simp [restore, decls, upd, hz]

/-- what `Conv2DStdGemm.py` 101-127 passes to the template -/
def stdGemmHash (c : ConvP) (size idx : Nat) (act : CAct K) (src : Ref) (road : Nat) : Hash K :=
  match src with
  | .out _ => stdGemmOutHash c size idx act road
  | .cst n => stdGemmCstHash c size idx act n road

set_option maxHeartbeats 1000000 in
theorem stdGemm_renders (L : Lib K) (c : ConvP) (size idx : Nat) (act : CAct K) (src : Ref) (road : Nat) :
    Renders (std L ints) Tpl.conv_std_gemm (stdGemmHash c size idx act src road)
      [((.i, none), .int), ((.j, none), .int), ((.k, none), .int), ((.p, none), .int), ((.h, none), .int), ((.w, none), .int)]
      (stdGemmCode c size idx (act.fn (std L ints)) src.buf road) := by
  cases src with
  | out n =>
    refine Renders.of_sim (c.inC * c.inH * c.inW + c.inC * c.kh * c.kw + c.outH + c.outW + c.filters * (c.outH * c.outW) + c.filters + c.outH * c.outW + size + 1) (stdGemmOut_code ..) fun e he F hF => ?_
    have ti := he.int (.i, none) (by simp)
    have tj := he.int (.j, none) (by simp)
    have tk := he.int (.k, none) (by simp)
    have tp := he.int (.p, none) (by simp)
    have th := he.int (.h, none) (by simp)
    have tw := he.int (.w, none) (by simp)
    refine (Sim.seq (Sim.copy (src := .out road) (dst := .temp) (by simp) (by simp) (by omega) tk (by simp) (by simp) (.inl rfl)) fun _ =>
      Sim.seq (Sim.im2col L c (b := .temp) road (by simp) (by omega) ti tj th tw) fun _ =>
      Sim.seq (Sim.for' (by simp) (by simp) (by omega) tk rfl fun q _ => (Sim.store (b := .temp) (za := q) (q := ret 0) (by simp) (by simp [Expr.vars]) (by simp [Expr.vars]) (by ceval) (by ceval)).congr (ret_andThen _ _)) fun _ =>
      Sim.seq (Sim.convGemmNN L c.filters (c.outH * c.outW) (c.inC * c.kh * c.kw) idx act road (by omega) ti tj tp) fun _ =>
      Sim.copy (src := .temp) (dst := .out road) (by simp) (by simp) (by omega) tk (by simp) (by simp) (.inl rfl)).congr ?_
    simp only [stdGemmCode, Ref.buf, bind_eq, andThen_assoc]
  | cst n =>
    refine Renders.of_sim (c.inC * c.inH * c.inW + c.inC * c.kh * c.kw + c.outH + c.outW + c.filters * (c.outH * c.outW) + c.filters + c.outH * c.outW + size + 1) (stdGemmCst_code ..) fun e he F hF => ?_
    have ti := he.int (.i, none) (by simp)
    have tj := he.int (.j, none) (by simp)
    have tk := he.int (.k, none) (by simp)
    have tp := he.int (.p, none) (by simp)
    have th := he.int (.h, none) (by simp)
    have tw := he.int (.w, none) (by simp)
    refine (Sim.seq (Sim.im2col L c (b := .cst n) road (std_ref L _ (.cst n)) (by omega) ti tj th tw) fun _ =>
      Sim.seq (Sim.for' (by simp) (by simp) (by omega) tk rfl fun q _ => (Sim.store (b := .temp) (za := q) (q := ret 0) (by simp) (by simp [Expr.vars]) (by simp [Expr.vars]) (by ceval) (by ceval)).congr (ret_andThen _ _)) fun _ =>
      Sim.seq (Sim.convGemmNN L c.filters (c.outH * c.outW) (c.inC * c.kh * c.kw) idx act road (by omega) ti tj tp) fun _ =>
      Sim.copy (src := .temp) (dst := .out road) (by simp) (by simp) (by omega) tk (by simp) (by simp) (.inl rfl)).congr ?_
    simp only [stdGemmCode, Ref.buf, bind_eq]

end Verif.CText

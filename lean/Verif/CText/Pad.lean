import Verif.CText.PadCode
import Verif.CText.Rules

/-!
# The texts of the pads
-/

namespace Verif.CText
open Prog Layers
set_option linter.unusedVariables false
set_option linter.unusedSectionVars false
variable {K : Type} [Field K] [LinearOrder K] [FloorRing K]
variable {ints : Ident → Option (List Nat)}

/-! ## Constant pad -/

theorem constantPad_renders (L : Lib K) (Hi Wi Co Ho Wo cf cb hf hb wf wb size idx : Nat) (c : SNum K) (act : CAct K)
    (src : Ref) (road : Nat) (hC : cb ≤ Co) (hH : hb ≤ Ho) (hW : wb ≤ Wo) :
    Renders (std L ints) Tpl.constant_Pad (constantPadHash Hi Wi Co Ho Wo cf cb hf hb wf wb size idx c act src road)
      [((.f, none), .int), ((.i, none), .int), ((.j, none), .int), ((.k, none), .int)]
      (constantPadCode Hi Wi Co Ho Wo cf cb hf hb wf wb size c.val (act.fn (std L ints)) src.buf road) := by
  refine Renders.of_sim (Co + Ho + Wo + size + 1) (constantPad_code ..) fun e he F hF => ?_
  refine Sim.seq (Sim.loop3 (by simp) (by simp) (by simp) (by omega) (he.int _ (by simp)) (he.int _ (by simp))
    (he.int _ (by simp)) fun f i j _ _ _ => Sim.block' ?_ rfl)
    fun _ => Sim.copy (by simp) (by simp) (by omega) (he.int _ (by simp)) rfl rfl (.inl rfl)
  have hf' : ∀ n : Nat, ((Expr.num n : Expr K).eval (std L ints) e) = ret (.int n) := fun _ => rfl
  have ev : ∀ (x : Ident) (v : Nat) (e : Env K), x.1 ≠ .INFINITY → e x = some (.int v) →
      (Expr.var x).eval (std L ints) e = ret (.int v) := fun x v e h1 h2 => eval_var h1 h2
  refine Sim.seq (mid := fun _ => upd (upd (upd e (.f, none) (.int f)) (.i, none) (.int i)) (.j, none) (.int j))
    (Sim.ite (by simp [Expr.vars]) ?_ (fun _ => Sim.block' (Sim.store (b := .temp) (za := at3 Ho Wo f i j) (by simp) (by simp [Expr.vars])
      (by simp [Expr.vars]) (by ceval [at3]) (by ceval)) rfl) fun _ => Sim.block' ?_ rfl) fun _ =>
    Sim.storeAct (b := .temp) (za := at3 Ho Wo f i j) (q := load .temp (at3 Ho Wo f i j : Int)) (by simp) (by simp [Expr.vars])
      (by simp [Expr.vars]) (by ceval [at3]) (Reads.load _ _) (by ceval [at3]) (by simp [isFlt])
  · rw [truth_land (truth_land (truth_land (truth_land (truth_land
      (truth_cmp (ev _ f _ (by simp) (by simp [upd])) rfl).2.2.2.1 (truth_cmp (ev _ f _ (by simp) (by simp [upd])) rfl).1)
      (truth_cmp (ev _ i _ (by simp) (by simp [upd])) rfl).2.2.2.1) (truth_cmp (ev _ i _ (by simp) (by simp [upd])) rfl).1)
      (truth_cmp (ev _ j _ (by simp) (by simp [upd])) rfl).2.2.2.1) (truth_cmp (ev _ j _ (by simp) (by simp [upd])) rfl).1]
    congr 1
    rw [Nat.cast_sub hC, Nat.cast_sub hH, Nat.cast_sub hW]
    simp only [and_assoc, ge_iff_le]
  · refine (Sim.store (b := .temp) (za := at3 Ho Wo f i j) (q := ret c.val) (by simp) (by simp [Expr.vars]) ?_ (by ceval [at3]) ?_).congr
      (ret_andThen _ _)
    · rcases c with ⟨_ | _, q⟩ <;> simp [SNum.expr, Expr.vars]
    · rw [SNum.eval]; ceval

/-! ## The other pads -/

section
variable {G : Globals K} {F : Nat} {V : List Ident} {e : Env K}

theorem liftO_some {β : Type} (z : β) : (liftO (some z) : Prog K β) = ret z := rfl

theorem edge_axis {x nw : Ident} {n p v : Nat} (hn : 0 < n) (hxI : x.1 ≠ .INFINITY) (hx : e x = some (.int v))
    (hnw : e nw = some (.int ((v : Int) - p))) (hxV : x ∉ V) (hV : nw ∉ V) (hne : x ≠ nw) :
    Sim G F V V e
      (.seq
        (.ite (.bin .lt (.var x) (.num p)) (.block (.assign (.var nw) .set (.num 0))) .skip)
        (.ite (.bin .ge (.var x) (.num (n + p))) (.block (.assign (.var nw) .set (.num (n - 1)))) .skip))
      (liftO (edgeIdx n p v)) (fun z => upd e nw (.int z)) := by
  refine (Sim.seq (Sim.iteSet (q := ret 0) hnw hV (by simpa [Expr.vars] using hxV) (by simp [Expr.vars])
    (truth_cmp (eval_var hxI hx) rfl).1 fun _ => by ceval) fun z => ?_).congr (p := ((if (v : Int) < p then ret 0 else ret ((v : Int) - p) : Prog K Int) >>= fun z =>
      (if ((n + p : Nat) : Int) ≤ v then ret ((n : Int) - 1) else ret z : Prog K Int))) ?_
  · refine (Sim.iteSet (P := ((n + p : Nat) : Int) ≤ v) (q := ret ((n : Int) - 1)) (upd_same _ _ _) hV (by simpa [Expr.vars] using hxV) (by simp [Expr.vars])
      (truth_cmp (eval_var hxI (by simpa [upd, hne] using hx)) rfl).2.2.2.1 fun _ => ?_).weaken (fun b => ?_) fun _ h => h
    · have : ((n - 1 : Nat) : Int) = n - 1 := by omega
      ceval [this]
    · rw [upd_upd]; exact Agree.refl _ _
  · unfold edgeIdx
    rw [liftO_some]
    by_cases h1 : v < p <;> by_cases h2 : n + p ≤ v <;>
      simp [h1, h2, ret_andThen, show (((n : Int) + p ≤ v) ↔ n + p ≤ v) by omega]

theorem reflect_axis {x nw : Ident} {n p v : Nat} (hn : 0 < n) (hxI : x.1 ≠ .INFINITY) (hnI : nw.1 ≠ .INFINITY) (hx : e x = some (.int v))
    {z₀ : Int} (hnw : e nw = some (.int z₀)) (hxV : x ∉ V) (hV : nw ∉ V) :
    Sim G F V V e
      (.seq
        (.assign (.var nw) .set (.bin .mod (.bin .sub (.num p) (.var x)) (.bin .mul (.num 2) (.num (n - 1)))))
        (.seq
          (.ite (.bin .lt (.var nw) (.num 0)) (.block (.assign (.var nw) .set
            (.bin .add (.bin .mul (.num 2) (.num (n - 1))) (.var nw)))) .skip)
          (.ite (.bin .gt (.var nw) (.num (n - 1))) (.block (.assign (.var nw) .set
            (.bin .sub (.bin .mul (.num 2) (.num (n - 1))) (.var nw)))) .skip)))
      (liftO (reflectIdx n p v)) (fun z => upd e nw (.int z)) := by
  have hxx : x ≠ (.INFINITY, none) := fun h => hxI (by rw [h])
  have hnn : nw ≠ (.INFINITY, none) := fun h => hnI (by rw [h])
  have hcast : ((n - 1 : Nat) : Int) = n - 1 := by omega
  have key : (liftO (reflectIdx n p v) : Prog K Int) =
      ((liftO (if 2 * ((n : Int) - 1) = 0 then none else some (Int.tmod ((p : Int) - v) (2 * ((n : Int) - 1)))) : Prog K Int) >>= fun z =>
        (if z < 0 then ret (2 * ((n : Int) - 1) + z) else ret z : Prog K Int) >>= fun z =>
        (if ((n - 1 : Nat) : Int) < z then ret (2 * ((n : Int) - 1) - z) else ret z : Prog K Int)) := by
    unfold reflectIdx
    rw [hcast]
    by_cases h0 : 2 * ((n : Int) - 1) = 0
    · simp only [h0, if_true]; rfl
    · simp only [h0, if_false, liftO_some, bind_eq, ret_andThen, gt_iff_lt]
      generalize Int.tmod ((p : Int) - v) (2 * ((n : Int) - 1)) = t
      by_cases h1 : t < 0 <;> simp only [h1, if_true, if_false, ret_andThen] <;> split <;> rfl
  rw [key]
  refine Sim.seq (mid := fun z => upd e nw (.int z)) (Sim.set hnw hV (by simpa [Expr.vars] using hxV) ?_) fun z => Sim.seq (V' := V) (mid := fun z => upd e nw (.int z)) ?_ fun z => ?_
  · by_cases h0 : 2 * ((n : Int) - 1) = 0
    · simp [Expr.eval, hxx, hx, binOp, intOp, ofOpt, ret_andThen, hcast, h0]; rfl
    · simp [Expr.eval, hxx, hx, binOp, intOp, ofOpt, ret_andThen, hcast, h0, liftO_some, aop, convert, Val.toInt]
  · refine (Sim.iteSet (P := z < 0) (q := ret (2 * ((n : Int) - 1) + z)) (upd_same _ _ _) hV (by simpa [Expr.vars] using hV) (by simpa [Expr.vars] using hV)
      (truth_cmp (eval_var hnI (upd_same _ _ _)) rfl).1 fun _ => ?_).weaken (fun b => ?_) fun _ h => h
    · simp [Expr.eval, hnn, upd, binOp, intOp, ofOpt, ret_andThen, hcast]
    · rw [upd_upd]; exact Agree.refl _ _
  · refine (Sim.iteSet (P := ((n - 1 : Nat) : Int) < z) (q := ret (2 * ((n : Int) - 1) - z)) (upd_same _ _ _) hV (by simpa [Expr.vars] using hV) (by simpa [Expr.vars] using hV)
      (truth_cmp (eval_var hnI (upd_same _ _ _)) rfl).2.1 fun _ => ?_).weaken (fun b => ?_) fun _ h => h
    · simp [Expr.eval, hnn, upd, binOp, intOp, ofOpt, ret_andThen, hcast]
    · rw [upd_upd]; exact Agree.refl _ _

theorem wrap_axis {x nw : Ident} {n p v : Nat} (hxI : x.1 ≠ .INFINITY) (hnI : nw.1 ≠ .INFINITY) (hx : e x = some (.int v))
    (hnw : e nw = some (.int ((v : Int) - p))) (hxV : x ∉ V) (hV : nw ∉ V) (hne : x ≠ nw) :
    Sim G F V V e
      (.seq
        (.ite (.bin .ge (.var x) (.num (n + p))) (.block (.assign (.var nw) .set (.bin .mod (.var nw) (.num n)))) .skip)
        (.ite (.bin .lt (.var x) (.num p)) (.block (.assign (.var nw) .set
          (.bin .add (.bin .mod (.var nw) (.num n)) (.num n)))) .skip))
      (liftO (wrapIdx n p v)) (fun z => upd e nw (.int z)) := by
  have hnn : nw ≠ (.INFINITY, none) := fun h => hnI (by rw [h])
  have hm : ∀ (z : Int) (e : Env K), e nw = some (.int z) → (Expr.bin .mod (.var nw) (.num n)).eval G e =
      ((liftO (if n = 0 then none else some (z.tmod n)) : Prog K Int) >>= fun b => ret (.int b)) := by
    intro z e hz
    by_cases h0 : n = 0
    · simp [Expr.eval, hnn, hz, binOp, intOp, ofOpt, ret_andThen, h0]; rfl
    · simp [Expr.eval, hnn, hz, binOp, intOp, ofOpt, ret_andThen, h0, liftO_some]
  have key : (liftO (wrapIdx n p v) : Prog K Int) =
      ((if ((n + p : Nat) : Int) ≤ v then liftO (if n = 0 then none else some (((v : Int) - p).tmod n)) else ret ((v : Int) - p) : Prog K Int) >>= fun z =>
        (if (v : Int) < p then (liftO (if n = 0 then none else some (z.tmod n)) : Prog K Int) >>= fun z => ret (z + n) else ret z : Prog K Int)) := by
    unfold wrapIdx
    by_cases h0 : n = 0
    · subst h0
      by_cases h1 : p ≤ v
      · simp [h1, show ((p : Int) ≤ v) by omega]; rfl
      · simp [h1, show ¬ ((p : Int) ≤ v) by omega, ret_andThen, show v < p by omega]; rfl
    · by_cases h1 : n + p ≤ v <;> by_cases h2 : v < p <;>
        simp [h0, h1, h2, liftO_some, ret_andThen, show (((n : Int) + p ≤ v) ↔ n + p ≤ v) by omega]
  rw [key]
  refine Sim.seq (Sim.iteSet hnw hV (by simpa [Expr.vars] using hxV) (by simpa [Expr.vars] using hV)
    (truth_cmp (eval_var hxI hx) rfl).2.2.2.1 fun _ => hm _ _ hnw) fun z => ?_
  refine (Sim.iteSet (P := (v : Int) < p) (upd_same _ _ _) hV (by simpa [Expr.vars] using hxV) (by simpa [Expr.vars] using hV)
      (truth_cmp (eval_var hxI (by simpa [upd, hne] using hx)) rfl).1 fun _ => ?_).weaken (fun b => ?_) fun _ h => h
  · have := hm z (upd e nw (.int z)) (upd_same _ _ _)
    rw [Expr.eval, this]
    simp [Expr.eval, ofOpt, binOp, intOp, ret_andThen, andThen_assoc]
  · rw [upd_upd]; exact Agree.refl _ _

end

/-- the statements after the indices have been changed -/
theorem pad_tail (L : Lib K) {F : Nat} {V : List Ident} {e : Env K} (Hi Wi Ho Wo f i j : Nat) (act : CAct K) (src : Ref)
    (z1 z2 z3 : Int) (hf : e (.f, none) = some (.int f)) (hi : e (.i, none) = some (.int i)) (hj : e (.j, none) = some (.int j))
    (h1 : e (.new_f, none) = some (.int z1)) (h2 : e (.new_i, none) = some (.int z2)) (h3 : e (.new_j, none) = some (.int z3))
    (hV : ∀ x ∈ ([(.f, none), (.i, none), (.j, none), (.new_f, none), (.new_i, none), (.new_j, none)] : List Ident), x ∉ V) :
    Sim (std L ints) F V V e
      (.seq
        (.assign (.idx true (.tensor_temp, none) (.bin .add (.var (.j, none)) (.bin .mul (.num Wo) (.bin .add (.var (.i, none))
          (.bin .mul (.num Ho) (.var (.f, none))))))) .set (.idx true src.ident (.bin .add (.var (.new_j, none))
          (.bin .mul (.num Wi) (.bin .add (.var (.new_i, none)) (.bin .mul (.num Hi) (.var (.new_f, none))))))))
        (.seq
          (.assign (.idx true (.tensor_temp, none) (.bin .add (.var (.j, none)) (.bin .mul (.num Wo) (.bin .add (.var (.i, none))
            (.bin .mul (.num Ho) (.var (.f, none))))))) .set (act.expr (.idx true (.tensor_temp, none)
            (.bin .add (.var (.j, none)) (.bin .mul (.num Wo) (.bin .add (.var (.i, none))
              (.bin .mul (.num Ho) (.var (.f, none)))))))))
          (.assign (.idx true (.tensor_temp, none) (.bin .add (.var (.j, none)) (.bin .mul (.num Wo) (.bin .add (.var (.i, none))
            (.bin .mul (.num Ho) (.var (.f, none))))))) .set (act.expr (.idx true (.tensor_temp, none)
            (.bin .add (.var (.j, none)) (.bin .mul (.num Wo) (.bin .add (.var (.i, none))
              (.bin .mul (.num Ho) (.var (.f, none)))))))))))
      ((load src.buf (z3 + Wi * (z2 + Hi * z1)) >>= fun x => store .temp (at3 Ho Wo f i j : Int) x) >>= fun _ =>
        (load .temp (at3 Ho Wo f i j : Int) >>= fun t => store .temp (at3 Ho Wo f i j : Int) (act.fn (std L ints) t)) >>= fun _ =>
        (load .temp (at3 Ho Wo f i j : Int) >>= fun t => store .temp (at3 Ho Wo f i j : Int) (act.fn (std L ints) t))) (fun _ => e) := by
  simp only [List.mem_cons, List.not_mem_nil, or_false, forall_eq_or_imp, forall_eq] at hV
  obtain ⟨v1, v2, v3, v4, v5, v6⟩ := hV
  have hact : ∀ V' : List Ident, V' = V → Sim (std L ints) F V V e (.assign (.idx true (.tensor_temp, none) (.bin .add (.var (.j, none)) (.bin .mul (.num Wo) (.bin .add (.var (.i, none))
            (.bin .mul (.num Ho) (.var (.f, none))))))) .set (act.expr (.idx true (.tensor_temp, none)
            (.bin .add (.var (.j, none)) (.bin .mul (.num Wo) (.bin .add (.var (.i, none))
              (.bin .mul (.num Ho) (.var (.f, none)))))))))
      (load .temp (at3 Ho Wo f i j : Int) >>= fun t => store .temp (at3 Ho Wo f i j : Int) (act.fn (std L ints) t)) (fun _ => e) := by
    intro _ _
    exact Sim.storeAct (b := .temp) (za := at3 Ho Wo f i j) (q := load .temp (at3 Ho Wo f i j : Int)) (by simp)
      (by simp [Expr.vars, v1, v2, v3]) (by simp [Expr.vars, v1, v2, v3]) (by ceval [at3, hf, hi, hj]) (Reads.load _ _)
      (by ceval [at3, hf, hi, hj]) (by simp [isFlt])
  exact Sim.seq (Sim.store (b := .temp) (za := at3 Ho Wo f i j) (by simp) (by simp [Expr.vars, v1, v2, v3])
    (by simp [Expr.vars, v4, v5, v6]) (by ceval [at3, hf, hi, hj]) (by ceval [h1, h2, h3])) fun _ =>
    Sim.seq (hact _ rfl) fun _ => hact _ rfl

/-- the declarations, and what becomes of them at the end of the block -/
theorem pad_body (L : Lib K) {F : Nat} {V : List Ident} {e : Env K} (g : Nat → Nat → Nat → Option Int)
    (Ci Hi Wi Ho Wo cf hf wf f i j : Nat) (act : CAct K) (src : Ref) {A : Stmt K}
    (hf' : e (.f, none) = some (.int f)) (hi : e (.i, none) = some (.int i)) (hj : e (.j, none) = some (.int j))
    (hV : ∀ x ∈ ([(.f, none), (.i, none), (.j, none), (.new_f, none), (.new_i, none), (.new_j, none)] : List Ident), x ∉ V)
    (hA : ∀ e, e (.f, none) = some (.int f) → e (.i, none) = some (.int i) → e (.j, none) = some (.int j) →
      e (.new_f, none) = some (.int ((f : Int) - cf)) → e (.new_i, none) = some (.int ((i : Int) - hf)) →
      e (.new_j, none) = some (.int ((j : Int) - wf)) → Sim (std L ints) F V (V ++ [(.new_f, none), (.new_i, none), (.new_j, none)]) e A
      ((liftO (g Ci cf f) : Prog K Int) >>= fun newF => (liftO (g Hi hf i) : Prog K Int) >>= fun newI => (liftO (g Wi wf j) : Prog K Int) >>= fun newJ =>
        ((load src.buf (newJ + Wi * (newI + Hi * newF)) >>= fun x => store .temp (at3 Ho Wo f i j : Int) x) >>= fun _ =>
        (load .temp (at3 Ho Wo f i j : Int) >>= fun t => store .temp (at3 Ho Wo f i j : Int) (act.fn (std L ints) t)) >>= fun _ =>
        (load .temp (at3 Ho Wo f i j : Int) >>= fun t => store .temp (at3 Ho Wo f i j : Int) (act.fn (std L ints) t)))) (fun _ => e))
    (hd : decls A = []) :
    Sim (std L ints) F V V e
      (.block (.seq (.decl .int (.new_f, none) (.bin .sub (.var (.f, none)) (.num cf)))
        (.seq (.decl .int (.new_i, none) (.bin .sub (.var (.i, none)) (.num hf)))
        (.seq (.decl .int (.new_j, none) (.bin .sub (.var (.j, none)) (.num wf))) A))))
      (do
        (do
          (do
            let newF ← liftO (g Ci cf f)
            let newI ← liftO (g Hi hf i)
            let newJ ← liftO (g Wi wf j)
            let x ← load src.buf (newJ + Wi * (newI + Hi * newF))
            store .temp (at3 Ho Wo f i j : Int) x)
          let t ← load .temp (at3 Ho Wo f i j : Int)
          store .temp (at3 Ho Wo f i j : Int) (act.fn (std L ints) t))
        let t ← load .temp (at3 Ho Wo f i j : Int)
        store .temp (at3 Ho Wo f i j : Int) (act.fn (std L ints) t)) (fun _ => e) := by
  simp only [List.mem_cons, List.not_mem_nil, or_false, forall_eq_or_imp, forall_eq] at hV
  obtain ⟨v1, v2, v3, v4, v5, v6⟩ := hV
  refine ((Sim.blockD (V' := V ++ [(.new_f, none), (.new_i, none), (.new_j, none)]) (post := fun _ => upd (upd (upd e (.new_f, none) (.int ((f : Int) - cf))) (.new_i, none) (.int ((i : Int) - hf)))
    (.new_j, none) (.int ((j : Int) - wf))) (Sim.seq' (x := ()) (Sim.decl (val := fun _ => .int ((f : Int) - cf)) (by simpa [Expr.vars] using v1) (by ceval [hf']))
    (Sim.seq' (x := ()) (Sim.decl (val := fun _ => .int ((i : Int) - hf)) (by simpa [Expr.vars] using v2) (by ceval [hi]))
    (Sim.seq' (x := ()) (Sim.decl (val := fun _ => .int ((j : Int) - wf)) (by simpa [Expr.vars] using v3) (by ceval [hj]))
      (hA _ (by simpa [upd] using hf') (by simpa [upd] using hi) (by simpa [upd] using hj) (by simp [upd]) (by simp [upd]) (by simp [upd]))))) ?_).weaken
      (fun _ => ?_) fun _ h => h).congr ?_
  · intro x hx
    rcases List.mem_append.1 hx with h | h
    · exact .inl h
    · right; simp only [decls, hd]; simpa using h
  · refine Agree.of_eq ?_
    funext y
    simp only [restore, decls, hd, upd, List.nil_append, List.cons_append, List.mem_cons, List.not_mem_nil, or_false]
    by_cases h1 : y = (.new_f, none) <;> by_cases h2 : y = (.new_i, none) <;> by_cases h3 : y = (.new_j, none) <;> simp [h1, h2, h3]
  · simp only [bind_eq, andThen_assoc]

/-- the environment at the end of the block -/
theorem pad_agree {V : List Ident} {e : Env K} {a b c a' b' c' : Int} (h1 : e (.new_f, none) = some (.int a'))
    (h2 : e (.new_i, none) = some (.int b')) (h3 : e (.new_j, none) = some (.int c')) :
    Agree (V ++ [(.new_f, none), (.new_i, none), (.new_j, none)])
      (upd (upd (upd e (.new_f, none) (.int a)) (.new_i, none) (.int b)) (.new_j, none) (.int c)) e := by
  intro y
  by_cases g1 : y = (.new_f, none)
  · subst g1; simp [upd, h1, sameTy]
  · by_cases g2 : y = (.new_i, none)
    · subst g2; simp [upd, h2, sameTy]
    · by_cases g3 : y = (.new_j, none)
      · subst g3; simp [upd, h3, sameTy]
      · have : upd (upd (upd e (.new_f, none) (.int a)) (.new_i, none) (.int b)) (.new_j, none) (.int c) y = e y := by
          simp [upd, g1, g2, g3]
        rw [this]
        split
        · exact sameTy.refl _
        · rfl

theorem edgePad_renders (L : Lib K) (Ci Hi Wi Co Ho Wo cf hf wf size idx : Nat) (act : CAct K) (src : Ref) (road : Nat) (hC : 0 < Ci) (hH : 0 < Hi) (hW : 0 < Wi) :
    Renders (std L ints) Tpl.pad_Non_Constant (edgePadHash Ci Hi Wi Co Ho Wo cf hf wf size idx act src road)
      [((.f, none), .int), ((.i, none), .int), ((.j, none), .int), ((.k, none), .int)]
      (padCode edgeIdx Ci Hi Wi Co Ho Wo cf hf wf size (act.fn (std L ints)) src.buf road) := by
  refine Renders.of_sim (Co + Ho + Wo + size + 1) (edgePad_code ..) fun e he F hF => ?_
  refine Sim.seq (Sim.loop3 (by simp) (by simp) (by simp) (by omega) (he.int _ (by simp)) (he.int _ (by simp))
    (he.int _ (by simp)) fun f i j _ _ _ => ?_)
    fun _ => Sim.copy (by simp) (by simp) (by omega) (he.int _ (by simp)) rfl rfl (.inl rfl)
  refine pad_body L edgeIdx Ci Hi Wi Ho Wo cf hf wf f i j act src (by simp [upd]) (by simp [upd]) (by simp [upd]) (by simp)
    (fun e h1 h2 h3 h4 h5 h6 => ?_) rfl
  refine Sim.assoc (Sim.seq (edge_axis hC (by simp) (h1) (h4) (by simp) (by simp) (by simp)) fun z1 => Sim.assoc (Sim.seq (edge_axis hH (by simp) (by simpa [upd] using h2) (by simpa [upd] using h5) (by simp) (by simp) (by simp)) fun z2 => Sim.assoc (Sim.seq (edge_axis hW (by simp) (by simpa [upd] using h3) (by simpa [upd] using h6) (by simp) (by simp) (by simp)) fun z3 =>
    (pad_tail L Hi Wi Ho Wo f i j act src z1 z2 z3 (by simpa [upd] using h1) (by simpa [upd] using h2) (by simpa [upd] using h3)
      (by simp [upd]) (by simp [upd]) (by simp [upd]) (by simp)).weaken (fun _ => pad_agree h4 h5 h6) (by simp))))

theorem reflectPad_renders (L : Lib K) (Ci Hi Wi Co Ho Wo cf hf wf size idx : Nat) (act : CAct K) (src : Ref) (road : Nat) (hC : 0 < Ci) (hH : 0 < Hi) (hW : 0 < Wi) :
    Renders (std L ints) Tpl.pad_Non_Constant (reflectPadHash Ci Hi Wi Co Ho Wo cf hf wf size idx act src road)
      [((.f, none), .int), ((.i, none), .int), ((.j, none), .int), ((.k, none), .int)]
      (padCode reflectIdx Ci Hi Wi Co Ho Wo cf hf wf size (act.fn (std L ints)) src.buf road) := by
  refine Renders.of_sim (Co + Ho + Wo + size + 1) (reflectPad_code ..) fun e he F hF => ?_
  refine Sim.seq (Sim.loop3 (by simp) (by simp) (by simp) (by omega) (he.int _ (by simp)) (he.int _ (by simp))
    (he.int _ (by simp)) fun f i j _ _ _ => ?_)
    fun _ => Sim.copy (by simp) (by simp) (by omega) (he.int _ (by simp)) rfl rfl (.inl rfl)
  refine pad_body L reflectIdx Ci Hi Wi Ho Wo cf hf wf f i j act src (by simp [upd]) (by simp [upd]) (by simp [upd]) (by simp)
    (fun e h1 h2 h3 h4 h5 h6 => ?_) rfl
  refine Sim.assoc (Sim.assoc (Sim.seq (Sim.assoc' (reflect_axis hC (by simp) (by simp) (h1) (h4) (by simp) (by simp))) fun z1 => Sim.assoc (Sim.assoc (Sim.seq (Sim.assoc' (reflect_axis hH (by simp) (by simp) (by simpa [upd] using h2) (by simpa [upd] using h5) (by simp) (by simp))) fun z2 => Sim.assoc (Sim.assoc (Sim.seq (Sim.assoc' (reflect_axis hW (by simp) (by simp) (by simpa [upd] using h3) (by simpa [upd] using h6) (by simp) (by simp))) fun z3 =>
    (pad_tail L Hi Wi Ho Wo f i j act src z1 z2 z3 (by simpa [upd] using h1) (by simpa [upd] using h2) (by simpa [upd] using h3)
      (by simp [upd]) (by simp [upd]) (by simp [upd]) (by simp)).weaken (fun _ => pad_agree h4 h5 h6) (by simp)))))))

theorem wrapPad_renders (L : Lib K) (Ci Hi Wi Co Ho Wo cf hf wf size idx : Nat) (act : CAct K) (src : Ref) (road : Nat) :
    Renders (std L ints) Tpl.pad_Non_Constant (wrapPadHash Ci Hi Wi Co Ho Wo cf hf wf size idx act src road)
      [((.f, none), .int), ((.i, none), .int), ((.j, none), .int), ((.k, none), .int)]
      (padCode wrapIdx Ci Hi Wi Co Ho Wo cf hf wf size (act.fn (std L ints)) src.buf road) := by
  refine Renders.of_sim (Co + Ho + Wo + size + 1) (wrapPad_code ..) fun e he F hF => ?_
  refine Sim.seq (Sim.loop3 (by simp) (by simp) (by simp) (by omega) (he.int _ (by simp)) (he.int _ (by simp))
    (he.int _ (by simp)) fun f i j _ _ _ => ?_)
    fun _ => Sim.copy (by simp) (by simp) (by omega) (he.int _ (by simp)) rfl rfl (.inl rfl)
  refine pad_body L wrapIdx Ci Hi Wi Ho Wo cf hf wf f i j act src (by simp [upd]) (by simp [upd]) (by simp [upd]) (by simp)
    (fun e h1 h2 h3 h4 h5 h6 => ?_) rfl
  refine Sim.assoc (Sim.seq (wrap_axis (by simp) (by simp) (h1) (h4) (by simp) (by simp) (by simp)) fun z1 => Sim.assoc (Sim.seq (wrap_axis (by simp) (by simp) (by simpa [upd] using h2) (by simpa [upd] using h5) (by simp) (by simp) (by simp)) fun z2 => Sim.assoc (Sim.seq (wrap_axis (by simp) (by simp) (by simpa [upd] using h3) (by simpa [upd] using h6) (by simp) (by simp) (by simp)) fun z3 =>
    (pad_tail L Hi Wi Ho Wo f i j act src z1 z2 z3 (by simpa [upd] using h1) (by simpa [upd] using h2) (by simpa [upd] using h3)
      (by simp [upd]) (by simp [upd]) (by simp [upd]) (by simp)).weaken (fun _ => pad_agree h4 h5 h6) (by simp))))

end Verif.CText

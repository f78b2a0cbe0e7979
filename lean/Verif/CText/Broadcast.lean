import Verif.CText.BroadcastCode
import Verif.CText.Rules

/-!
# The text of Broadcast
-/

namespace Verif.CText
open Prog Layers
set_option linter.unusedVariables false
set_option linter.unusedSectionVars false
variable {K : Type} [Field K] [LinearOrder K] [FloorRing K]
variable {ints : Ident → Option (List Nat)}

/-- the environment of a cell -/
def AtCell (e : Env K) (f i j : Nat) : Prop := e (.f, none) = some (.int f) ∧ e (.i, none) = some (.int i) ∧ e (.j, none) = some (.int j)

/-- no dimension is zero -/
def Pos3 (C H W : Nat) : Prop := 0 < C ∧ 0 < H ∧ 0 < W

theorem bcIdx_eval (G : Globals K) {e : Env K} {f i j C H W : Nat} (he : AtCell e f i j) (hp : Pos3 C H W) :
    (bcIdx C H W : Expr K).eval G e = ret (.int ((j % W + W * (i % H + H * (f % C)) : Nat) : Int)) := by
  obtain ⟨ef, ei, ej⟩ := he
  obtain ⟨h1, h2, h3⟩ := hp
  simp [bcIdx, Expr.eval, ef, ei, ej, ret_andThen, ofOpt_some, binOp, intOp, tmod_nat, Nat.pos_iff_ne_zero.1 h1, Nat.pos_iff_ne_zero.1 h2, Nat.pos_iff_ne_zero.1 h3]

theorem readE_eval (L : Lib K) {e : Env K} {f i j : Nat} (he : AtCell e f i j) (o : ROp) (hp : Pos3 o.C o.H o.W) :
    (readE o : Expr K).eval (std L ints) e = (o.op.read f i j >>= fun x => ret (.flt x)) := by
  simp only [readE, Expr.eval, bcIdx_eval (std L ints) he hp, ret_bind, std_ref]
  rfl

/-- the array of the constant -/
def CDim.op (c : CDim) (idx : Nat) : Operand := ⟨.par .constant idx, c.C, c.H, c.W⟩

theorem cstE_eval (L : Lib K) {e : Env K} {f i j : Nat} (he : AtCell e f i j) (op : BOp) (idx : Nat) (c : CDim) (hp : Pos3 c.C c.H c.W) :
    (cstE op idx c : Expr K).eval (std L ints) e = ((c.op idx).read f i j >>= fun x => ret (.flt x)) := by
  have : (std L ints).buf false (.other (chars! "constant_" ++ bcName op), some ⟨decide (idx < 10), idx⟩) = some (.par .constant idx) := by
    rw [std_par]; cases op <;> rfl
  simp only [cstE, Expr.eval, bcIdx_eval (std L ints) he hp, ret_bind, this]
  rfl

/-- a chain of operators -/
theorem opsE_eval (G : Globals K) {e : Env K} (op : BOp) (hop : op ≠ .max ∧ op ≠ .min) (f i j : Nat) :
    ∀ (l : List (Expr K × Operand)) (x : Expr K) (q : Prog K K), (∀ y ∈ l, y.1.eval G e = (y.2.read f i j >>= fun x => ret (.flt x))) →
      x.eval G e = (q >>= fun x => ret (.flt x)) →
      (opsE op x (l.map (·.1))).eval G e = ((q >>= Layers.chain op.fn f i j (l.map (·.2))) >>= fun x => ret (.flt x))
  | [], x, q, _, hx => by
    simp only [List.map_nil, opsE, List.foldl_nil, hx]
    rw [bind_assoc']
    rfl
  | y :: l, x, q, hl, hx => by
    have ih := opsE_eval G op hop f i j l (.bin (bcBin op) x y.1) (q >>= fun a => y.2.read f i j >>= fun b => ret (op.fn a b))
      (fun z hz => hl z (List.mem_cons_of_mem _ hz)) (by
        simp only [Expr.eval, hx, hl y (List.mem_cons_self ..), bind_assoc', ret_bind]
        congr 1; funext a
        congr 1; funext b
        cases op <;> first | exact absurd rfl hop.1 | exact absurd rfl hop.2 | rfl)
    simp only [List.map_cons]
    have : opsE op x (y.1 :: l.map (·.1)) = opsE op (.bin (bcBin op) x y.1) (l.map (·.1)) := rfl
    rw [this, ih]
    simp only [bind_assoc', ret_bind, Layers.chain]

theorem mem_vars_opsE (op : BOp) : ∀ (l : List (Expr K)) (x : Expr K) (z : Ident), z ∈ (opsE op x l).vars → z ∈ x.vars ∨ ∃ y ∈ l, z ∈ y.vars
  | [], x, z, h => .inl h
  | y :: l, x, z, h => by
    rcases mem_vars_opsE op l (.bin (bcBin op) x y) z h with h | ⟨w, hw, h⟩
    · simp only [Expr.vars, List.mem_append] at h
      rcases h with h | h
      · exact .inl h
      · exact .inr ⟨y, List.mem_cons_self .., h⟩
    · exact .inr ⟨w, List.mem_cons_of_mem _ hw, h⟩

variable {F : Nat} {e : Env K}

theorem cell_store (L : Lib K) {V : List Ident} {H W f i j : Nat} (hV : ∀ y ∈ V, y = (.k, none)) (he : AtCell e f i j)
    {x : Expr K} {q : Prog K K} (hd : (.k, none) ∉ x.vars) (hq : (x.eval (std L ints) e >>= asK) = q) :
    Sim (std L ints) F V V e (setCell H W x) (q >>= fun v => Prog.store .temp (at3 H W f i j : Int) v) (fun _ => e) := by
  obtain ⟨ef, ei, ej⟩ := he
  refine Sim.store (b := .temp) (za := at3 H W f i j) (by simp) (fun y hy h => ?_) (fun y hy h => ?_) (by ceval [cellE, at3, ef, ei, ej]) hq
  · have := hV y h
    subst this
    simp [cellE, Expr.vars] at hy
  · have := hV y h
    subst this
    exact hd hy

theorem k_read (o : ROp) : (.k, none) ∉ (readE o : Expr K).vars := by simp [readE, bcIdx, Expr.vars]
theorem k_cst (op : BOp) (idx : Nat) (c : CDim) : (.k, none) ∉ (cstE op idx c : Expr K).vars := by simp [cstE, bcIdx, Expr.vars]
theorem k_cell (H W : Nat) : (.k, none) ∉ (cellE H W : Expr K).vars := by simp [cellE, Expr.vars]

theorem asK_flt (p : Prog K K) : ((p >>= fun x => ret (.flt x)) >>= asK) = p := by
  rw [bind_assoc']
  exact bind_ret' p

/-- `tensor_temp[..] = fmax(tensor_temp[..], o[..]);` -/
theorem call_eval (L : Lib K) {H W f i j : Nat} (he : AtCell e f i j) (fn : Name) (g : K → K → K) (hg : ∀ x y, lib2 (fn, none) x y = some (.flt (g x y)))
    (o : ROp) (hp : Pos3 o.C o.H o.W) :
    ((Expr.call2 (fn, none) (.idx true (.tensor_temp, none) (cellE H W)) (readE o)).eval (std L ints) e >>= asK) =
      (load .temp (at3 H W f i j : Int) >>= fun t => o.op.read f i j >>= fun y => ret (g t y)) := by
  have hc : (cellE H W : Expr K).eval (std L ints) e = ret (.int (at3 H W f i j : Int)) := by
    obtain ⟨ef, ei, ej⟩ := he
    ceval [cellE, at3, ef, ei, ej]
  simp only [Expr.eval, hc, ret_bind, std_temp, readE_eval L he o hp, loadAt, bind_assoc', asK, Val.toK, hg, ofOpt]

theorem Sim.calls (L : Lib K) {V : List Ident} {H W f i j : Nat} (hV : ∀ y ∈ V, y = (.k, none)) (he : AtCell e f i j) (fn : Name) (g : K → K → K)
    (hg : ∀ x y, lib2 (fn, none) x y = some (.flt (g x y))) : ∀ os : List ROp, (∀ o ∈ os, Pos3 o.C o.H o.W) →
    Sim (std L ints) F V V e (seqs (os.map fun o => setCell H W (.call2 (fn, none) (.idx true (.tensor_temp, none) (cellE H W)) (readE o))))
      (chainTemp g H W f i j (os.map ROp.op)) (fun _ => e) := by
  have one : ∀ o : ROp, Pos3 o.C o.H o.W → Sim (std L ints) F V V e (setCell H W (.call2 (fn, none) (.idx true (.tensor_temp, none) (cellE H W)) (readE o)))
      (load .temp (at3 H W f i j : Int) >>= fun t => o.op.read f i j >>= fun y => Prog.store .temp (at3 H W f i j : Int) (g t y)) (fun _ => e) := by
    intro o ho
    refine (cell_store L hV he (q := load .temp (at3 H W f i j : Int) >>= fun t => o.op.read f i j >>= fun y => ret (g t y)) (by
      simp only [Expr.vars, List.mem_append, not_or]
      exact ⟨k_cell H W, k_read o⟩) (call_eval L he fn g hg o ho)).congr ?_
    simp only [bind_assoc', ret_bind]
  intro os
  induction os with
  | nil => exact fun _ => Sim.skip
  | cons o os ih =>
    intro h
    have ho := one o (h o (List.mem_cons_self ..))
    have ih := ih fun z hz => h z (List.mem_cons_of_mem _ hz)
    cases os with
    | nil =>
      refine ho.congr ?_
      simp only [List.map_cons, List.map_nil, chainTemp]
      congr 1; funext t
      congr 1; funext y
      exact (bind_ret' _).symm
    | cons o' os =>
      refine (Sim.seq ho fun _ => ih).congr ?_
      simp only [List.map_cons, chainTemp, bind_assoc']

/-- a constant operand only counts in the section `other` -/
theorem Sim.bcCell (L : Lib K) {V : List Ident} {H W f i j : Nat} (hV : ∀ y ∈ V, y = (.k, none)) (he : AtCell e f i j) (op : BOp) (idx : Nat)
    (o : ROp) (os : List ROp) (cst : Option CDim) (ho : ∀ x ∈ o :: os, Pos3 x.C x.H x.W) (hc : ∀ c ∈ cst, Pos3 c.C c.H c.W) :
    Sim (std L ints) F V V e (bcCell op H W idx o os cst)
      (match op, (o :: os).map ROp.op with
      | _, [] => fun _ => none
      | .max, o :: os => do
        let x ← o.read f i j
        Prog.store .temp (at3 H W f i j : Int) x
        chainTemp Max.max H W f i j os
      | .min, o :: os => do
        let x ← o.read f i j
        Prog.store .temp (at3 H W f i j : Int) x
        chainTemp Min.min H W f i j os
      | .avg, o :: os => do
        let x ← o.read f i j
        let s ← Layers.chain (· + ·) f i j os x
        Prog.store .temp (at3 H W f i j : Int) (s / ((os.length + 1 : Nat) : K))
      | op, o :: os => do
        let x ← o.read f i j
        let s ← Layers.chain op.fn f i j os x
        match cst.map fun c => c.op idx with
        | none => Prog.store .temp (at3 H W f i j : Int) s
        | some c => do
          let y ← c.read f i j
          Prog.store .temp (at3 H W f i j : Int) (op.fn s y)) (fun _ => e) := by
  have hr := readE_eval (ints := ints) L he o (ho o (List.mem_cons_self ..))
  have hos : ∀ x ∈ os, Pos3 x.C x.H x.W := fun x hx => ho x (List.mem_cons_of_mem _ hx)
  have hl : ∀ y ∈ os.map (fun o => ((readE o, o.op) : Expr K × Operand)), y.1.eval (std L ints) e = (y.2.read f i j >>= fun x => ret (.flt x)) := by
    intro y hy
    obtain ⟨z, hz, rfl⟩ := List.mem_map.1 hy
    exact readE_eval L he z (hos z hz)
  have hcall : ∀ (fn : Name) (g : K → K → K) (hg : ∀ x y, lib2 (fn, none) x y = some (.flt (g x y))),
      Sim (std L ints) F V V e (seqs (setCell H W (readE o) :: os.map fun o => setCell H W (.call2 (fn, none) (.idx true (.tensor_temp, none) (cellE H W)) (readE o))))
        (o.op.read f i j >>= fun x => Prog.store .temp (at3 H W f i j : Int) x >>= fun _ => chainTemp g H W f i j (os.map ROp.op)) (fun _ => e) := by
    intro fn g hg
    have h0 := cell_store (F := F) (H := H) (W := W) L hV he (x := readE o) (q := o.op.read f i j) (k_read o) (by rw [hr, asK_flt])
    have hcs := Sim.calls (ints := ints) (F := F) (H := H) (W := W) L hV he fn g hg os hos
    cases os with
    | nil =>
      refine h0.congr ?_
      congr 1; funext x
      exact (bind_ret' _).symm
    | cons o' os => exact Sim.seq₂ h0 fun _ => hcs
  have hother : ∀ op : BOp, op ≠ .max ∧ op ≠ .min → Sim (std L ints) F V V e (setCell H W (opsE op (readE o) (os.map readE ++ cst.toList.map (cstE op idx))))
      (o.op.read f i j >>= fun x => Layers.chain op.fn f i j (os.map ROp.op) x >>= fun s =>
        (match cst.map fun c => c.op idx with
        | none => Prog.store .temp (at3 H W f i j : Int) s
        | some c => do
          let y ← c.read f i j
          Prog.store .temp (at3 H W f i j : Int) (op.fn s y))) (fun _ => e) := by
    intro op hop
    have h1 := opsE_eval (std L ints) op hop f i j (os.map (fun o => ((readE o, o.op) : Expr K × Operand))) (readE o) (o.op.read f i j) hl hr
    simp only [List.map_map, Function.comp_def] at h1
    have hd : (.k, none) ∉ (opsE op (readE o) (os.map readE) : Expr K).vars := by
      intro h
      rcases mem_vars_opsE op _ _ _ h with h | ⟨y, hy, h⟩
      · exact k_read o h
      · obtain ⟨z, _, rfl⟩ := List.mem_map.1 hy
        exact k_read z h
    cases cst with
    | none =>
      simp only [Option.toList_none, List.map_nil, List.append_nil, Option.map_none]
      refine (cell_store (F := F) (H := H) (W := W) L hV he (q := o.op.read f i j >>= Layers.chain op.fn f i j (os.map ROp.op)) hd (by rw [h1, asK_flt])).congr ?_
      rw [bind_assoc']
    | some c =>
      have h2 := cstE_eval (ints := ints) L he op idx c (hc c rfl)
      have e1 : opsE op (readE o) (os.map readE ++ [cstE op idx c]) = .bin (bcBin op) (opsE op (readE o) (os.map readE)) (cstE (K := K) op idx c) := by
        simp [opsE]
      simp only [Option.toList_some, List.map_cons, List.map_nil, Option.map_some]
      rw [e1]
      refine (cell_store (F := F) (H := H) (W := W) L hV he (q := o.op.read f i j >>= fun x => Layers.chain op.fn f i j (os.map ROp.op) x >>= fun s =>
        (c.op idx).read f i j >>= fun y => ret (op.fn s y)) (by
          simp only [Expr.vars, List.mem_append, not_or]
          exact ⟨hd, k_cst op idx c⟩) ?_).congr ?_
      · simp only [Expr.eval, h1, h2, bind_assoc', ret_bind]
        congr 1; funext x
        congr 1; funext s
        congr 1; funext y
        cases op <;> first | exact absurd rfl hop.1 | exact absurd rfl hop.2 | rfl
      · simp only [bind_assoc', ret_bind]
  cases op with
  | max => exact hcall .fmax max fun _ _ => rfl
  | min => exact hcall .fmin min fun _ _ => rfl
  | add => exact hother .add (by decide)
  | sub => exact hother .sub (by decide)
  | mul => exact hother .mul (by decide)
  | div => exact hother .div (by decide)
  | avg =>
    have h1 := opsE_eval (std L ints) .avg (by decide) f i j (os.map (fun o => ((readE o, o.op) : Expr K × Operand))) (readE o) (o.op.read f i j) hl hr
    simp only [List.map_map, Function.comp_def] at h1
    have hd : (.k, none) ∉ (opsE .avg (readE o) (os.map readE) : Expr K).vars := by
      intro h
      rcases mem_vars_opsE .avg _ _ _ h with h | ⟨y, hy, h⟩
      · exact k_read o h
      · obtain ⟨z, _, rfl⟩ := List.mem_map.1 hy
        exact k_read z h
    refine (cell_store (F := F) (H := H) (W := W) L hV he (x := .bin .div (opsE .avg (readE o) (os.map readE)) (.num (os.length + 1)))
      (q := o.op.read f i j >>= fun x => Layers.chain (BOp.fn .avg) f i j (os.map ROp.op) x >>= fun s => ret (s / ((os.length + 1 : Nat) : K))) (by
        simp only [Expr.vars, List.append_nil]; exact hd) ?_).congr ?_
    · simp only [Expr.eval, h1, bind_assoc', ret_bind]
      congr 1; funext x
      congr 1; funext s
      simp [binOp, fltOp, ofOpt, ret_andThen, asK, Val.toK]
    · simp only [bind_assoc', ret_bind, List.map_cons, List.length_map]
      rfl

theorem decls_seqs : ∀ l : List (Stmt K), (∀ s ∈ l, decls s = []) → decls (seqs l) = []
  | [], _ => rfl
  | [a], h => h a (List.mem_cons_self ..)
  | a :: b :: l, h => by
    have := decls_seqs (b :: l) fun s hs => h s (List.mem_cons_of_mem _ hs)
    simp only [seqs, decls, h a (List.mem_cons_self ..), this, List.append_nil]

theorem decls_bcCell (op : BOp) (H W idx : Nat) (o : ROp) (os : List ROp) (cst : Option CDim) : decls (bcCell (K := K) op H W idx o os cst) = [] := by
  cases op <;> first
    | rfl
    | (refine decls_seqs _ fun s hs => ?_
       rcases List.mem_cons.1 hs with rfl | hs
       · rfl
       · obtain ⟨z, _, rfl⟩ := List.mem_map.1 hs
         rfl)

theorem broadcast_renders (L : Lib K) (op : BOp) (C H W size idx : Nat) (act : CAct K) (o : ROp) (os : List ROp) (cst : Option CDim) (road : Nat)
    (ho : ∀ x ∈ o :: os, Pos3 x.C x.H x.W) (hc : ∀ c ∈ cst, Pos3 c.C c.H c.W) :
    Renders (std L ints) Tpl.broadcast (bcHash op C H W size idx act o os cst road)
      [((.f, none), .int), ((.i, none), .int), ((.j, none), .int), ((.k, none), .int)]
      (broadcastCode op C H W size (act.fn (std L ints)) ((o :: os).map ROp.op) (cst.map fun c => c.op idx) road) := by
  refine Renders.of_sim (C + H + W + size + 1) (bc_code ..) fun e he F hF => ?_
  have hf := he.int (.f, none) (by simp)
  have hi := he.int (.i, none) (by simp)
  have hj := he.int (.j, none) (by simp)
  have hk := he.int (.k, none) (by simp)
  refine Sim.seq (Sim.loop3 (by simp) (by simp) (by simp) (by omega) hf hi hj fun f i j _ _ _ =>
    Sim.block' (Sim.bcCell L (by simp) ⟨by simp [upd], by simp [upd], by simp [upd]⟩ op idx o os cst ho hc) (decls_bcCell ..))
    fun _ => Sim.copyAct (by simp) (by simp) (by omega) hk (by simp) (by simp) (.inl rfl)

/-- a sum of a tensor and a column, with a constant -/
example (L : Lib K) : Renders (std L ints) Tpl.broadcast (bcHash .add 2 3 4 24 7 .relu ⟨.out 0, 2, 3, 4⟩ [⟨.cst 1, 1, 3, 1⟩] (some ⟨2, 1, 1⟩) 0)
    [((.f, none), .int), ((.i, none), .int), ((.j, none), .int), ((.k, none), .int)]
    (broadcastCode .add 2 3 4 24 (CAct.relu.fn (std L ints)) [⟨.out 0, 2, 3, 4⟩, ⟨.cst 1, 1, 3, 1⟩] (some ⟨.par .constant 7, 2, 1, 1⟩) 0) :=
  broadcast_renders L .add 2 3 4 24 7 .relu ⟨.out 0, 2, 3, 4⟩ [⟨.cst 1, 1, 3, 1⟩] (some ⟨2, 1, 1⟩) 0
    (by intro x hx; simp only [List.mem_cons, List.not_mem_nil, or_false] at hx; rcases hx with rfl | rfl <;> exact ⟨by decide, by decide, by decide⟩)
    (by intro c hc; simp only [Option.mem_def, Option.some.injEq] at hc; subst hc; exact ⟨by decide, by decide, by decide⟩)

end Verif.CText

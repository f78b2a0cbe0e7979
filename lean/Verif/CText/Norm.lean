import Verif.CText.NormCode
import Verif.CText.Rules

/-!
# The texts of Softmax and BatchNormalization
-/

namespace Verif.CText
open Prog Layers
set_option linter.unusedVariables false
set_option linter.unusedSectionVars false
variable {K : Type} [Field K] [LinearOrder K] [FloorRing K]
variable {ints : Ident → Option (List Nat)}

theorem softmax1_renders (L : Lib K) (size idx : Nat) (act : CAct K) (src : Ref) (road : Nat) :
    Renders (std L ints) Tpl.softmax (softmax1Hash size idx act src road)
      [((.i, none), .int), ((.j, none), .int), ((.sum, none), .float)]
      (softmaxCode1 L.exp size (act.fn (std L ints)) src.buf road) := by
  refine Renders.of_sim (size + 1) (softmax1_code ..) fun e he F hF => ?_
  have hi := he.int (.i, none) (by simp)
  have hj := he.int (.j, none) (by simp)
  have hs := he.float (.sum, none) (by simp)
  refine Sim.float (.sum, none) hs (fun v => ?_)
  refine Sim.seq' (x := ()) (Sim.set (old := .flt v) (val := fun _ => .flt 0) (by simp [upd]) (by simp)
    (by simp [Expr.vars]) (by ceval)) ?_
  rw [upd_upd]
  refine Sim.seq (Sim.fold (base := fun d => upd e (.sum, none) (.flt d))
    (by simp) (by simp) (by omega) (fun _ => by simpa [upd, IsInt] using hi)
    fun i hi d => ?_) fun d => ?_
  · refine (Sim.set (old := .flt d) (val := fun x => .flt x) (by simp [upd]) (by simp) (by simp [Expr.vars])
      (by ceval [lib1])).weaken (fun b => ?_) (fun x hx => hx)
    rw [upd_comm _ (by simp), upd_upd]; exact Agree.refl _ _
  · refine Sim.forget (.sum, none) (val := fun _ => .flt d) (Sim.for' (by simp) (by simp) (by omega) (by simpa [upd, IsInt] using hj) rfl fun j _ => ?_)
      (by simp) (fun _ => sameTy_flt hs)
    refine (Sim.seq (Sim.store (b := .out road) (za := j) (q := load src.buf j >>= fun x => ret (L.exp x / d)) (by simp) (by simp [Expr.vars]) (by simp [Expr.vars]) (by ceval)
      (by ceval [lib1])) fun _ => Sim.storeAct (b := .out road) (za := j) (q := load (.out road) j) (by simp) (by simp [Expr.vars]) (by simp [Expr.vars]) (by ceval)
      (Reads.load _ _) (by ceval) (by simp [isFlt])).congr ?_
    simp only [bind_eq, andThen_assoc, ret_andThen]

theorem softmax3_renders (L : Lib K) (a : Axis) (C H W idx : Nat) (act : CAct K) (src : Ref) (road : Nat) :
    Renders (std L ints) Tpl.softmax (softmax3Hash a C H W idx act src road)
      [((.f, none), .int), ((.i, none), .int), ((.j, none), .int)]
      (softmaxCode3 L.exp C H W a src.buf road) := by
  cases a
  · refine Renders.of_sim (C + H + W + 1) (softmax3C_code C H W idx act src road) fun e he F hF => ?_
    have hf := he.int (.f, none) (by simp)
    have hi := he.int (.i, none) (by simp)
    have hj := he.int (.j, none) (by simp)
    refine Sim.seq (Sim.for' (by simp) (by simp) (by omega) hf rfl fun f _ =>
      Sim.for' (by simp) (by simp) (by omega) (by simpa [IsInt, upd] using hi) rfl fun i _ => ?_)
      fun _ => Sim.loop3 (by simp) (by simp) (by simp) (by omega) hf hi hj fun f i j _ _ _ => Sim.block' ?_ rfl
    · refine Sim.seq ((Sim.store (b := .temp) (za := (i + W * f : Nat)) (q := ret 0) (by simp) (by simp [Expr.vars]) (by simp [Expr.vars]) (by ceval) (by ceval)).congr (ret_andThen _ _))
        fun _ => Sim.for' (by simp) (by simp) (by omega) (by simpa [IsInt, upd] using hj) rfl fun j _ => ?_
      refine (Sim.storeOp (b := .temp) (za := (i + W * f : Nat)) (q := load src.buf ((i + W * (f + H * j) : Nat) : Int) >>= fun a => ret (L.exp a))
        (f := fun u v => u + v) (by simp) (by simp) (by simp [Expr.vars]) (by simp [Expr.vars]) (by ceval) (by ceval [lib1]) (fun _ _ => rfl)).congr ?_
      simp only [bind_eq, andThen_assoc, ret_andThen]
      rw [load_comm .temp]
      push_cast; rfl
    · refine (Sim.store (b := .out road) (za := at3 H W f i j) (q := load src.buf (at3 H W f i j : Int) >>= fun x => load .temp ((j + W * i : Nat) : Int) >>= fun s => ret (L.exp x / s)) (by simp) (by simp [Expr.vars]) (by simp [Expr.vars]) (by ceval [at3]) ?_).congr ?_
      rotate_left
      · simp only [bind_eq, andThen_assoc, ret_andThen]; rfl
      · ceval [at3, lib1]
  · refine Renders.of_sim (C + H + W + 1) (softmax3H_code C H W idx act src road) fun e he F hF => ?_
    have hf := he.int (.f, none) (by simp)
    have hi := he.int (.i, none) (by simp)
    have hj := he.int (.j, none) (by simp)
    refine Sim.seq (Sim.for' (by simp) (by simp) (by omega) hf rfl fun f _ =>
      Sim.for' (by simp) (by simp) (by omega) (by simpa [IsInt, upd] using hi) rfl fun i _ => ?_)
      fun _ => Sim.loop3 (by simp) (by simp) (by simp) (by omega) hf hi hj fun f i j _ _ _ => Sim.block' ?_ rfl
    · refine Sim.seq ((Sim.store (b := .temp) (za := (i + W * f : Nat)) (q := ret 0) (by simp) (by simp [Expr.vars]) (by simp [Expr.vars]) (by ceval) (by ceval)).congr (ret_andThen _ _))
        fun _ => Sim.for' (by simp) (by simp) (by omega) (by simpa [IsInt, upd] using hj) rfl fun j _ => ?_
      refine (Sim.storeOp (b := .temp) (za := (i + W * f : Nat)) (q := load src.buf ((i + W * (j + H * f) : Nat) : Int) >>= fun a => ret (L.exp a))
        (f := fun u v => u + v) (by simp) (by simp) (by simp [Expr.vars]) (by simp [Expr.vars]) (by ceval) (by ceval [lib1]) (fun _ _ => rfl)).congr ?_
      simp only [bind_eq, andThen_assoc, ret_andThen]
      rw [load_comm .temp]
      push_cast; rfl
    · refine (Sim.store (b := .out road) (za := at3 H W f i j) (q := load src.buf (at3 H W f i j : Int) >>= fun x => load .temp ((j + W * f : Nat) : Int) >>= fun s => ret (L.exp x / s)) (by simp) (by simp [Expr.vars]) (by simp [Expr.vars]) (by ceval [at3]) ?_).congr ?_
      rotate_left
      · simp only [bind_eq, andThen_assoc, ret_andThen]; rfl
      · ceval [at3, lib1]
  · refine Renders.of_sim (C + H + W + 1) (softmax3W_code C H W idx act src road) fun e he F hF => ?_
    have hf := he.int (.f, none) (by simp)
    have hi := he.int (.i, none) (by simp)
    have hj := he.int (.j, none) (by simp)
    refine Sim.seq (Sim.for' (by simp) (by simp) (by omega) hf rfl fun f _ =>
      Sim.for' (by simp) (by simp) (by omega) (by simpa [IsInt, upd] using hi) rfl fun i _ => ?_)
      fun _ => Sim.loop3 (by simp) (by simp) (by simp) (by omega) hf hi hj fun f i j _ _ _ => Sim.block' ?_ rfl
    · refine Sim.seq ((Sim.store (b := .temp) (za := (i + H * f : Nat)) (q := ret 0) (by simp) (by simp [Expr.vars]) (by simp [Expr.vars]) (by ceval) (by ceval)).congr (ret_andThen _ _))
        fun _ => Sim.for' (by simp) (by simp) (by omega) (by simpa [IsInt, upd] using hj) rfl fun j _ => ?_
      refine (Sim.storeOp (b := .temp) (za := (i + H * f : Nat)) (q := load src.buf ((j + W * (i + H * f) : Nat) : Int) >>= fun a => ret (L.exp a))
        (f := fun u v => u + v) (by simp) (by simp) (by simp [Expr.vars]) (by simp [Expr.vars]) (by ceval) (by ceval [lib1]) (fun _ _ => rfl)).congr ?_
      simp only [bind_eq, andThen_assoc, ret_andThen]
      rw [load_comm .temp]
      push_cast; rfl
    · refine (Sim.store (b := .out road) (za := at3 H W f i j) (q := load src.buf (at3 H W f i j : Int) >>= fun x => load .temp ((i + H * f : Nat) : Int) >>= fun s => ret (L.exp x / s)) (by simp) (by simp [Expr.vars]) (by simp [Expr.vars]) (by ceval [at3]) ?_).congr ?_
      rotate_left
      · simp only [bind_eq, andThen_assoc, ret_andThen]; rfl
      · ceval [at3, lib1]

theorem batchNorm_renders (L : Lib K) (C n idx : Nat) (eps : SNum K) (act : CAct K) (src : Ref) (road : Nat) :
    Renders (std L ints) Tpl.batchNormalization (batchNormHash C n idx eps act src road)
      [((.f, none), .int), ((.k, none), .int)]
      (batchNormCode L.sqrt C n idx eps.val (act.fn (std L ints)) src.buf road) := by
  refine Renders.of_sim (C + n + 1) (batchNorm_code ..) fun e he F hF => ?_
  have hf := he.int (.f, none) (by simp)
  have hk := he.int (.k, none) (by simp)
  have hv : eps.expr.vars = [] := by rcases eps with ⟨_ | _, q⟩ <;> rfl
  refine Sim.for' (by simp) (by simp) (by omega) hf rfl fun f _ =>
    Sim.for' (by simp) (by simp) (by omega) (by simpa [IsInt, upd] using hk) rfl fun k _ => ?_
  refine (Sim.seq (Sim.store (b := .out road) (za := (k + n * f : Nat)) (q := load (.par .scale idx) (f : Int) >>= fun scale =>
    load src.buf ((k + n * f : Nat) : Int) >>= fun x => load (.par .mean idx) (f : Int) >>= fun mean =>
    load (.par .var idx) (f : Int) >>= fun var => load (.par .biases idx) (f : Int) >>= fun bias =>
    ret (scale * (x - mean) / L.sqrt (var + eps.val) + bias)) (by simp) (by simp [Expr.vars]) (by simp [Expr.vars, hv]) (by ceval)
    ?_) fun _ => Sim.storeAct (b := .out road) (za := (k + n * f : Nat)) (q := load (.out road) ((k + n * f : Nat) : Int))
      (by simp) (by simp [Expr.vars]) (by simp [Expr.vars]) (by ceval) (Reads.load _ _) (by ceval) (by simp [isFlt])).congr ?_
  · ceval [SNum.eval, lib1]
  · simp only [bind_eq, andThen_assoc, ret_andThen]

end Verif.CText

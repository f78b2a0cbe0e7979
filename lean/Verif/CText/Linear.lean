import Verif.CText.LinearCode
import Verif.CText.Rules

/-!
# The texts of Dense and MatMul
-/

namespace Verif.CText
open Prog Layers
set_option linter.unusedVariables false
set_option linter.unusedSectionVars false
variable {K : Type} [Field K] [LinearOrder K] [FloorRing K]
variable {ints : Ident → Option (List Nat)}

theorem dense_renders (L : Lib K) (size prevSize idx : Nat) (act : CAct K) (src : Ref) (road : Nat) :
    Renders (std L ints) Tpl.dense (denseHash size prevSize idx act src road)
      [((.i, none), .int), ((.j, none), .int), ((.k, none), .int), ((.dotproduct, none), .float)]
      (denseCode size prevSize idx (act.fn (std L ints)) src.buf road) := by
  refine Renders.of_sim (size + prevSize + 1) (dense_code ..) fun e he F hF => ?_
  have hi := he.int (.i, none) (by simp)
  have hj := he.int (.j, none) (by simp)
  have hk := he.int (.k, none) (by simp)
  have hd := he.float (.dotproduct, none) (by simp)
  refine Sim.seq (Sim.for' (by simp) (by simp) (by omega) hi rfl fun i _ => ?_)
    fun _ => Sim.copy (by simp) (by simp) (by omega) hk rfl rfl (.inl rfl)
  refine Sim.float (.dotproduct, none) (by simpa [upd] using hd) (fun v => ?_)
  refine Sim.seq' (x := ()) (Sim.set (old := .flt v) (val := fun _ => .flt 0) (by simp [upd]) (by simp)
    (by simp [Expr.vars]) (by ceval)) ?_
  rw [upd_upd]
  refine Sim.seq (Sim.fold (base := fun d => upd (upd e (.i, none) (.int i)) (.dotproduct, none) (.flt d))
    (by simp) (by simp) (by omega) (fun _ => by simpa [upd, IsInt] using hj)
    fun j hj d => Sim.block' ?_ rfl) fun d => ?_
  · refine (Sim.set (old := .flt d) (val := fun x => .flt x) (by simp [upd]) (by simp) (by simp [Expr.vars])
      (by ceval)).weaken (fun b => ?_) (fun x hx => hx)
    rw [upd_comm _ (by simp), upd_upd]; exact Agree.refl _ _
  · refine Sim.seq (Sim.set (old := .flt d) (val := fun x => .flt (d + x)) (by simp [upd]) (by simp)
      (by simp [Expr.vars]) (by ceval)) fun b => ?_
    rw [upd_upd]
    exact Sim.forget (.dotproduct, none) (Sim.storeAct (q := ret (d + b)) (by simp) (by simp [Expr.vars]) (by simp [Expr.vars]) (by ceval)
      (Reads.ret _) (by ceval) (by simp [isFlt, upd])) (by simp) (fun _ => sameTy_flt (by simpa [upd] using hd))

theorem matmul_renders (L : Lib K) (C H W n size idx : Nat) (act : CAct K) (left right : Ref) (road : Nat) :
    Renders (std L ints) Tpl.matMul (matmulHash C H W n size idx act left right road)
      [((.f, none), .int), ((.i, none), .int), ((.j, none), .int), ((.k, none), .int)]
      (matmulCode C H W n size (act.fn (std L ints)) left.buf right.buf road) := by
  refine Renders.of_sim (C + H + W + n + size + 1) (matmul_code ..) fun e he F hF => ?_
  have hf := he.int (.f, none) (by simp)
  have hi := he.int (.i, none) (by simp)
  have hj := he.int (.j, none) (by simp)
  have hk := he.int (.k, none) (by simp)
  refine Sim.seq (Sim.for' (by simp) (by simp) (by omega) hf rfl fun f _ =>
    Sim.for' (by simp) (by simp) (by omega) (by simpa [IsInt, upd] using hi) rfl fun i _ =>
    Sim.for' (by simp) (by simp) (by omega) (by simpa [IsInt, upd] using hj) rfl fun j _ => ?_)
    fun _ => Sim.copyAct (by simp) (by simp) (by omega) hk rfl rfl (.inl rfl)
  refine Sim.seq (Sim.store (q := ret 0) (by simp) (by simp [Expr.vars]) (by simp [Expr.vars]) (by ceval [at3]) (by ceval))
    fun _ => Sim.for' (by simp) (by simp) (by omega) (by simpa [IsInt, upd] using hk) rfl fun k _ => ?_
  refine (Sim.storeOp (b := .temp) (za := at3 H W f i j) (q := load left.buf ((k + n * (i + H * f) : Nat) : Int) >>= fun a =>
    load right.buf ((j + W * (k + n * f) : Nat) : Int) >>= fun b => ret (a * b)) (f := fun u v => u + v)
    (by simp) (by simp) (by simp [Expr.vars]) (by simp [Expr.vars]) (by ceval [at3]) (by ceval) (fun _ _ => rfl)).congr ?_
  simp only [bind_eq, andThen_assoc, ret_andThen]
  rw [load_comm .temp]
  congr 1; funext a
  rw [load_comm]

end Verif.CText

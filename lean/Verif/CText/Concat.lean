import Verif.CText.ConcatCode
import Verif.CText.Rules

/-!
# The text of Concatenate
-/

namespace Verif.CText
open Prog Layers
set_option linter.unusedVariables false
set_option linter.unusedSectionVars false
variable {K : Type} [Field K] [LinearOrder K] [FloorRing K]
variable {ints : Ident → Option (List Nat)}

theorem Sim.concatOne (L : Lib K) {F : Nat} {e : Env K} {V : List Ident} (a : Np.Axis) (H W f i j : Nat) (x : ROp × Nat)
    (hf : (.f, none) ∉ V) (hi : (.i, none) ∉ V) (hj : (.j, none) ∉ V)
    (ef : e (.f, none) = some (.int f)) (ei : e (.i, none) = some (.int i)) (ej : e (.j, none) = some (.int j)) :
    Sim (std L ints) F V V e (concatOneS a H W x) (Layers.concatOne a H W f i j x.1.op x.2) (fun _ => e) := by
  obtain ⟨⟨src, C', H', W'⟩, z⟩ := x
  cases a
  · refine Sim.ite (by simp [Expr.vars, hf]) (truth_land (P := f < z + C') (Q := f ≥ z) ?_ ?_) (fun _ => ?_) fun _ => Sim.skip
    · ceval [ef, ROp.op, Operand.dim]; norm_cast
    · ceval [ef]
    · exact Sim.store (b := .temp) (za := at3 H W f i j) (by simp) (by simp [Expr.vars, hf, hi, hj]) (by simp [Expr.vars, hf, hi, hj]) (by ceval [at3, ef, ei, ej]) (by ceval [ROp.op, ef, ei, ej])
  · refine Sim.ite (by simp [Expr.vars, hi]) (truth_land (P := i < z + H') (Q := i ≥ z) ?_ ?_) (fun _ => ?_) fun _ => Sim.skip
    · ceval [ei, ROp.op, Operand.dim]; norm_cast
    · ceval [ei]
    · exact Sim.store (b := .temp) (za := at3 H W f i j) (by simp) (by simp [Expr.vars, hf, hi, hj]) (by simp [Expr.vars, hf, hi, hj]) (by ceval [at3, ef, ei, ej]) (by ceval [ROp.op, ef, ei, ej])
  · refine Sim.ite (by simp [Expr.vars, hj]) (truth_land (P := j < z + W') (Q := j ≥ z) ?_ ?_) (fun _ => ?_) fun _ => Sim.skip
    · ceval [ej, ROp.op, Operand.dim]; norm_cast
    · ceval [ej]
    · exact Sim.store (b := .temp) (za := at3 H W f i j) (by simp) (by simp [Expr.vars, hf, hi, hj]) (by simp [Expr.vars, hf, hi, hj]) (by ceval [at3, ef, ei, ej]) (by ceval [ROp.op, ef, ei, ej])

theorem Sim.concatStmts (L : Lib K) {F : Nat} {e : Env K} {V : List Ident} (a : Np.Axis) (H W f i j : Nat)
    (hf : (.f, none) ∉ V) (hi : (.i, none) ∉ V) (hj : (.j, none) ∉ V)
    (ef : e (.f, none) = some (.int f)) (ei : e (.i, none) = some (.int i)) (ej : e (.j, none) = some (.int j)) :
    ∀ (prev : List ROp) (z : Nat), Sim (std L ints) F V V e (seqs ((withInf a prev z).map (concatOneS a H W)))
      (Layers.concatStmts a H W f i j (prev.map ROp.op) z) (fun _ => e)
  | [], _ => Sim.skip
  | [o], z => (Sim.concatOne L a H W f i j (o, z) hf hi hj ef ei ej).congr (andThen_ret _).symm
  | o :: o' :: os, z => Sim.seq (Sim.concatOne L a H W f i j (o, z) hf hi hj ef ei ej) fun _ =>
      Sim.concatStmts L a H W f i j hf hi hj ef ei ej (o' :: os) (z + o.op.dim a)

theorem decls_concat (a : Np.Axis) (H W : Nat) : ∀ l : List (ROp × Nat), decls (seqs (l.map (concatOneS (K := K) a H W))) = []
  | [] => rfl
  | [x] => rfl
  | x :: y :: l => decls_concat a H W (y :: l)

theorem concat_renders (L : Lib K) (a : Np.Axis) (C H W size idx : Nat) (act : CAct K) (prev : List ROp) (road : Nat) :
    Renders (std L ints) Tpl.concatenate (concatHash a C H W size idx act prev road)
      [((.f, none), .int), ((.i, none), .int), ((.j, none), .int), ((.k, none), .int)]
      (concatCode a C H W size (act.fn (std L ints)) (prev.map ROp.op) road) := by
  refine Renders.of_sim (C + H + W + size + 1) (concat_code ..) fun e he F hF => ?_
  have hf := he.int (.f, none) (by simp)
  have hi := he.int (.i, none) (by simp)
  have hj := he.int (.j, none) (by simp)
  have hk := he.int (.k, none) (by simp)
  refine Sim.seq (Sim.loop3 (by simp) (by simp) (by simp) (by omega) hf hi hj fun f i j _ _ _ =>
    Sim.block' (Sim.concatStmts L a H W f i j (by simp) (by simp) (by simp) (by simp [upd]) (by simp [upd]) (by simp [upd]) prev 0) (decls_concat ..))
    fun _ => Sim.copyAct (by simp) (by simp) (by omega) hk (by simp) (by simp) (.inl rfl)

end Verif.CText

import Verif.CText.Tac
import Mathlib.Tactic.Ring

/-!
# Activation functions as texts

`write_activation_str` of the classes of `generator/activation_functions.py`: the Python string with `{{{v}}}` for the
local variable and `{{{alpha}}}`, `{{{max}}}`, `{{{min}}}` for the printed attributes.
-/

namespace Verif.CText
open Prog

/-- a printed number: a minus sign or not, and its absolute value -/
structure SNum (K : Type) where
  neg : Bool
  mag : K

/-- the activation functions -/
inductive CAct (K : Type)
  | sigmoid | silu | relu | leakyRelu (alpha : SNum K) | tanh | linear | exponential | logarithm | clip (max min : SNum K)

section
variable {K : Type}

def SNum.toks (q : SNum K) : List (CTok K) :=
  match q.neg with
  | true => [.punct .minus, .flt q.mag]
  | false => [.flt q.mag]

def SNum.expr (q : SNum K) : Expr K :=
  match q.neg with
  | true => .neg (.flt q.mag)
  | false => .flt q.mag

/-- the strings of `activation_functions.py` 96-98, 112-114, 129-132, 166-169, 192-194, 209-211, 226-228, 243-245,
292-311 -/
def CAct.string : CAct K → List Char
  | .sigmoid => chars! "({{{v}}} < 0) ? (expf({{{v}}}) / (1. + expf({{{v}}}))) : (1. / (1. + expf(-{{{v}}})))"
  | .silu => chars! "{{{v}}} / (1 + exp(-{{{v}}}))"
  | .relu => chars! "{{{v}}} > 0 ? {{{v}}} : 0"
  | .leakyRelu _ => chars! "{{{v}}} > 0. ? {{{v}}} : {{{alpha}}}*{{{v}}}"
  | .tanh => chars! "({{{v}}} < 0.) ? (expf(2.*{{{v}}}) - 1.) / (expf(2.*{{{v}}}) + 1.) : (1. - expf(-2.*{{{v}}})) / (1. + expf(-2.*{{{v}}}))"
  | .linear => chars! "{{{v}}}"
  | .exponential => chars! "exp({{{v}}})"
  | .logarithm => chars! "log({{{v}}})"
  | .clip _ _ => chars! "{{{v}}} > {{{max}}} ? {{{max}}} : ({{{v}}} < {{{min}}} ? {{{min}}} : {{{v}}})"

/-- what is spliced into the string -/
def CAct.hash (v : List (CTok K)) : CAct K → Hash K
  | .leakyRelu a => [(chars! "v", .toks v), (chars! "alpha", .toks a.toks)]
  | .clip mx mn => [(chars! "v", .toks v), (chars! "max", .toks mx.toks), (chars! "min", .toks mn.toks)]
  | _ => [(chars! "v", .toks v)]

/-- `write_activation_str(v)`, as tokens -/
def CAct.text [NatCast K] [Div K] (act : CAct K) (v : List (CTok K)) : HVal K :=
  match (tokens act.string).bind fun tt => inst tt (act.hash v) with
  | some ts => .toks ts
  | none => .bool false

/-- `as_lambda()` (`activation_functions.py` 37-39) -/
def CAct.lam [NatCast K] [Div K] (act : CAct K) : HVal K :=
  .lam fun v => (tokens act.string).bind fun tt => inst tt (act.hash v)

/-- the expression that the text is, when `v` is the primary expression `v` -/
def CAct.expr [NatCast K] [Div K] (v : Expr K) : CAct K → Expr K
  | .sigmoid => .cond (.bin .lt v (.num 0))
      (.bin .div (.call1 (.expf, none) v) (.bin .add (.flt (lit K 1 0)) (.call1 (.expf, none) v)))
      (.bin .div (.flt (lit K 1 0)) (.bin .add (.flt (lit K 1 0)) (.call1 (.expf, none) (.neg v))))
  | .silu => .bin .div v (.bin .add (.num 1) (.call1 (.exp, none) (.neg v)))
  | .relu => .cond (.bin .gt v (.num 0)) v (.num 0)
  | .leakyRelu a => .cond (.bin .gt v (.flt (lit K 0 0))) v (.bin .mul a.expr v)
  | .tanh =>
    .cond (.bin .lt v (.flt (lit K 0 0)))
      (.bin .div (.bin .sub (.call1 (.expf, none) (.bin .mul (.flt (lit K 2 0)) v)) (.flt (lit K 1 0)))
        (.bin .add (.call1 (.expf, none) (.bin .mul (.flt (lit K 2 0)) v)) (.flt (lit K 1 0))))
      (.bin .div (.bin .sub (.flt (lit K 1 0)) (.call1 (.expf, none) (.bin .mul (.neg (.flt (lit K 2 0))) v)))
        (.bin .add (.flt (lit K 1 0)) (.call1 (.expf, none) (.bin .mul (.neg (.flt (lit K 2 0))) v))))
  | .linear => v
  | .exponential => .call1 (.exp, none) v
  | .logarithm => .call1 (.log, none) v
  | .clip mx mn => .cond (.bin .gt v mx.expr) mx.expr (.cond (.bin .lt v mn.expr) mn.expr v)

end

variable {K : Type} [Field K] [LinearOrder K] [FloorRing K]

def SNum.val (q : SNum K) : K := if q.neg then -q.mag else q.mag

/-- what the texts compute -/
def CAct.fn (G : Globals K) : CAct K → K → K
  | .sigmoid, x => if x < 0 then G.exp x / (1 + G.exp x) else 1 / (1 + G.exp (-x))
  | .silu, x => x / (1 + G.exp (-x))
  | .relu, x => if 0 < x then x else 0
  | .leakyRelu a, x => if 0 < x then x else a.val * x
  | .tanh, x => if x < 0 then (G.exp (2 * x) - 1) / (G.exp (2 * x) + 1) else (1 - G.exp (-2 * x)) / (1 + G.exp (-2 * x))
  | .linear, x => x
  | .exponential, x => G.exp x
  | .logarithm, x => G.log x
  | .clip mx mn, x => if mx.val < x then mx.val else if x < mn.val then mn.val else x

/-- an expression that only reads the memory -/
def Reads (q : Prog K K) : Prop := ∀ m, q m = none ∨ ∃ x, q m = some (x, m)

theorem SNum.eval (q : SNum K) (G : Globals K) (e : Env K) : q.expr.eval G e = ret (.flt q.val) := by
  rcases q with ⟨_ | _, q⟩ <;> rfl

theorem SNum.flt (q : SNum K) (G : Globals K) (e : Env K) : isFlt G e q.expr = true := by
  rcases q with ⟨_ | _, q⟩ <;> rfl

theorem Reads.load (b : Buf) (a : Int) : Reads (K := K) (load b a) := by
  intro m
  unfold Prog.load
  split
  · exact .inr ⟨_, rfl⟩
  · exact .inl rfl

theorem Reads.ret (x : K) : Reads (K := K) (ret x) := fun m => .inr ⟨x, rfl⟩

/-- The text of an activation computes the function. -/
theorem CAct.eval (G : Globals K) {e : Env K} (act : CAct K) {v : Expr K} {q : Prog K K} (hq : Reads q)
    (hv : v.eval G e = (q >>= fun x => Prog.ret (.flt x))) (hf : isFlt G e v = true) :
    ((act.expr v).eval G e >>= asK) = (q >>= fun x => Prog.ret (act.fn G x)) := by
  funext m
  rcases hq m with h | ⟨x, h⟩
  · have hv' : v.eval G e m = none := by rw [hv]; simp only [bind, andThen, h]
    cases act <;>
      simp only [CAct.expr, Expr.eval, bind, andThen, hv', h, Prog.ret, SNum.eval]
  · have hv' : v.eval G e m = some (.flt x, m) := by rw [hv]; simp only [bind, andThen, h]; rfl
    have h1 : lit K 1 0 = 1 := by simp [lit]
    have h0 : lit K 0 0 = 0 := by simp [lit]
    have h2 : lit K 2 0 = 2 := by simp [lit]
    cases act with
    | sigmoid =>
      by_cases hx : x < 0 <;>
      simp [CAct.expr, Expr.eval, bind, andThen, hv', h, Prog.ret, CAct.fn, asK, Val.toK, binOp, fltOp, ofOpt, truth,
        boolVal, lib1, isFlt, hf, h1, hx]
    | silu => simp [CAct.expr, Expr.eval, bind, andThen, hv', h, Prog.ret, CAct.fn, asK, Val.toK, binOp, fltOp, ofOpt, lib1]
    | relu =>
      by_cases hx : 0 < x <;>
      simp [CAct.expr, Expr.eval, bind, andThen, hv', h, Prog.ret, CAct.fn, asK, Val.toK, binOp, fltOp, ofOpt, truth,
        boolVal, isFlt, hf, hx]
    | leakyRelu a =>
      by_cases hx : 0 < x <;>
      simp [CAct.expr, Expr.eval, bind, andThen, hv', h, Prog.ret, CAct.fn, asK, Val.toK, binOp, fltOp, ofOpt, truth,
        boolVal, isFlt, hf, hx, SNum.eval, h0]
    | tanh =>
      by_cases hx : x < 0 <;>
      simp [CAct.expr, Expr.eval, bind, andThen, hv', h, Prog.ret, CAct.fn, asK, Val.toK, binOp, fltOp, ofOpt, truth,
        boolVal, lib1, isFlt, hx, h0, h1, h2]
    | linear => simp [CAct.expr, bind, andThen, hv', h, Prog.ret, CAct.fn, asK, Val.toK]
    | exponential => simp [CAct.expr, Expr.eval, bind, andThen, hv', h, Prog.ret, CAct.fn, asK, Val.toK, ofOpt, lib1]
    | logarithm => simp [CAct.expr, Expr.eval, bind, andThen, hv', h, Prog.ret, CAct.fn, asK, Val.toK, ofOpt, lib1]
    | clip mx mn =>
      by_cases hx : mx.val < x
      · simp [CAct.expr, Expr.eval, bind, andThen, hv', h, Prog.ret, CAct.fn, asK, Val.toK, binOp, fltOp, ofOpt, truth,
          boolVal, isFlt, SNum.flt, hx, SNum.eval]
      · by_cases hy : x < mn.val <;>
        simp [CAct.expr, Expr.eval, bind, andThen, hv', h, Prog.ret, CAct.fn, asK, Val.toK, binOp, fltOp, ofOpt, truth,
          boolVal, isFlt, SNum.flt, hf, hx, hy, SNum.eval]

end Verif.CText

import Mathlib.Analysis.SpecialFunctions.Log.Basic
import Mathlib.Analysis.Complex.Trigonometric
import Verif.CMem.Loops

/-!
# Activation functions: the text spliced into the C code, and the Python reference

`write_activation_str` (`generator/activation_functions.py`) builds *text* by substituting the
name of a C variable in a pattern, without parentheses around it.  What that text means is decided
by C's precedence rules, so the text is modelled as a list of tokens and read by a parser of the
fragment of C expressions that occurs.

Simplifications: a variable name such as `ctx->tensor_temp[k]` is one token, and so is a cast
`(int16_t)`; numbers are elements of `α` (no rounding, no distinction between `float` and `double`).
-/

namespace Verif.Layers

/-! ## C expressions -/

/-- binary operators that occur in the activation texts -/
inductive Op | mul | div | add | sub | shr | lt | gt
  deriving DecidableEq, Repr

/-- C precedence: 4 multiplicative, 3 additive, 2 shift, 1 relational (C11 6.5.5-6.5.8). -/
def Op.level : Op → Nat
  | .mul | .div => 4
  | .add | .sub => 3
  | .shr => 2
  | .lt | .gt => 1

/-- `exp`/`expf` and `log` of `math.h` -/
inductive Fn | exp | log
  deriving DecidableEq, Repr

/-- tokens of C; `neg` and `sub` are the same character, `-` is the token `op sub` -/
inductive Tok (α : Type)
  | num (q : α) | var (x : Nat) | op (o : Op) | fn (f : Fn) | lp | rp | quest | colon | cast
  deriving DecidableEq

/-- C expressions -/
inductive CExpr (α : Type)
  | num (q : α) | var (x : Nat) | bin (o : Op) (a b : CExpr α) | neg (a : CExpr α)
  | call (f : Fn) (a : CExpr α) | cond (c a b : CExpr α) | cast (a : CExpr α)
  deriving DecidableEq

section
variable {α : Type}

mutual
/-- Recursive-descent parser for C expressions.  Level 0 is the conditional expression, levels 1-4
the left-associative binary operators, level 5 unary expressions and primaries (C11 6.5). -/
def parse : Nat → Nat → List (Tok α) → Option (CExpr α × List (Tok α))
  | 0, _, _ => none
  | n + 1, 0, ts =>
    match parse n 1 ts with
    | some (c, .quest :: ts1) =>
      match parse n 0 ts1 with
      | some (a, .colon :: ts2) =>
        match parse n 0 ts2 with
        | some (b, r) => some (.cond c a b, r)
        | none => none
      | _ => none
    | r => r
  | n + 1, 5, ts =>
    match ts with
    | .op .sub :: r => match parse n 5 r with
      | some (e, r') => some (.neg e, r')
      | none => none
    | .cast :: r => match parse n 5 r with
      | some (e, r') => some (.cast e, r')
      | none => none
    | .num q :: r => some (.num q, r)
    | .var x :: r => some (.var x, r)
    | .fn f :: .lp :: r => match parse n 0 r with
      | some (e, .rp :: r') => some (.call f e, r')
      | _ => none
    | .lp :: r => match parse n 0 r with
      | some (e, .rp :: r') => some (e, r')
      | _ => none
    | _ => none
  | n + 1, l + 1, ts =>
    match parse n (l + 2) ts with
    | some (e, r) => binLoop n (l + 1) e r
    | none => none
/-- the tail of a left-associative chain of operators of one level -/
def binLoop : Nat → Nat → CExpr α → List (Tok α) → Option (CExpr α × List (Tok α))
  | 0, _, _, _ => none
  | n + 1, l, e, ts =>
    match ts with
    | .op o :: r =>
      if o.level = l then
        match parse n (l + 1) r with
        | some (e', r') => binLoop n l (.bin o e e') r'
        | none => none
      else some (e, ts)
    | _ => some (e, ts)
end

/-- The arithmetic a C expression is evaluated in. -/
structure Sem (α : Type) where
  div : α → α → α
  exp : α → α
  log : α → α
  shr : α → α → α
  cast : α → α

/-- Value of a C expression; a comparison is 0 or 1, a condition is tested against 0. -/
def CExpr.eval [Zero α] [One α] [Add α] [Sub α] [Neg α] [Mul α] [LinearOrder α] (S : Sem α)
    (env : Nat → α) : CExpr α → α
  | .num q => q
  | .var x => env x
  | .neg a => - a.eval S env
  | .cast a => S.cast (a.eval S env)
  | .call .exp a => S.exp (a.eval S env)
  | .call .log a => S.log (a.eval S env)
  | .cond c a b => if c.eval S env = 0 then b.eval S env else a.eval S env
  | .bin .mul a b => a.eval S env * b.eval S env
  | .bin .div a b => S.div (a.eval S env) (b.eval S env)
  | .bin .add a b => a.eval S env + b.eval S env
  | .bin .sub a b => a.eval S env - b.eval S env
  | .bin .shr a b => S.shr (a.eval S env) (b.eval S env)
  | .bin .lt a b => if a.eval S env < b.eval S env then 1 else 0
  | .bin .gt a b => if b.eval S env < a.eval S env then 1 else 0

/-- What a C compiler makes of a whole text: `none` if it is not an expression. -/
def cValue [Zero α] [One α] [Add α] [Sub α] [Neg α] [Mul α] [LinearOrder α] (S : Sem α)
    (env : Nat → α) (ts : List (Tok α)) : Option α :=
  match parse 200 0 ts with
  | some (e, []) => some (e.eval S env)
  | _ => none

end

/-! ## The activation functions -/

/-- `generator/activation_functions.py` 77-319: the activation classes with their attributes. -/
inductive Act (α : Type)
  | sigmoid | silu | relu | leakyRelu (alpha : α) | tanh | linear | exponential | logarithm
  | clip (max min : α)

/-- The constructor checks: `LeakyReLu` 153-156, `Clip` 282-290 (`ValueError`). -/
def Act.accepted {α : Type} [Zero α] [LE α] : Act α → Prop
  | .leakyRelu alpha => 0 ≤ alpha
  | .clip max min => min ≤ max
  | _ => True

/-- `str(x)` of a Python number: a negative number starts with the token `-`. -/
def numToks {α : Type} [Zero α] [Neg α] [LinearOrder α] (q : α) : List (Tok α) :=
  if q < 0 then [.op .sub, .num (-q)] else [.num q]

/-- `write_activation_str(local_var)` of each class: `Sigmoid` 96-98, `Silu` 112-114, `ReLu` 129-132,
`LeakyReLu` 166-169, `TanH` 192-194, `Linear` 209-211, `Exponential` 226-228, `Logarithm` 243-245,
`Clip` 292-311. -/
def Act.text {α : Type} [Zero α] [One α] [OfNat α 2] [Neg α] [LinearOrder α] (v : List (Tok α)) :
    Act α → List (Tok α)
  -- "(v < 0) ? (expf(v) / (1. + expf(v))) : (1. / (1. + expf(-v)))"
  | .sigmoid => [.lp] ++ v ++ [.op .lt, .num 0, .rp, .quest, .lp, .fn .exp, .lp] ++ v ++
      [.rp, .op .div, .lp, .num 1, .op .add, .fn .exp, .lp] ++ v ++ [.rp, .rp, .rp, .colon,
       .lp, .num 1, .op .div, .lp, .num 1, .op .add, .fn .exp, .lp, .op .sub] ++ v ++ [.rp, .rp, .rp]
  -- "v / (1 + exp(-v))"
  | .silu => v ++ [.op .div, .lp, .num 1, .op .add, .fn .exp, .lp, .op .sub] ++ v ++ [.rp, .rp]
  -- "v > 0 ? v : 0"
  | .relu => v ++ [.op .gt, .num 0, .quest] ++ v ++ [.colon, .num 0]
  -- "v > 0. ? v : alpha*v"
  | .leakyRelu alpha => v ++ [.op .gt, .num 0, .quest] ++ v ++ [.colon] ++ numToks alpha ++ [.op .mul] ++ v
  -- "(v < 0.) ? (expf(2.*v) - 1.) / (expf(2.*v) + 1.) : (1. - expf(-2.*v)) / (1. + expf(-2.*v))"
  | .tanh => [.lp] ++ v ++ [.op .lt, .num 0, .rp, .quest, .lp, .fn .exp, .lp, .num 2, .op .mul] ++ v ++
      [.rp, .op .sub, .num 1, .rp, .op .div, .lp, .fn .exp, .lp, .num 2, .op .mul] ++ v ++
      [.rp, .op .add, .num 1, .rp, .colon, .lp, .num 1, .op .sub, .fn .exp, .lp, .op .sub, .num 2, .op .mul] ++ v ++
      [.rp, .rp, .op .div, .lp, .num 1, .op .add, .fn .exp, .lp, .op .sub, .num 2, .op .mul] ++ v ++ [.rp, .rp]
  | .linear => v
  -- "exp(v)", "log(v)"
  | .exponential => [.fn .exp, .lp] ++ v ++ [.rp]
  | .logarithm => [.fn .log, .lp] ++ v ++ [.rp]
  -- "v > max ? max : (v < min ? min : v)"
  | .clip max min => v ++ [.op .gt] ++ numToks max ++ [.quest] ++ numToks max ++ [.colon, .lp] ++ v ++
      [.op .lt] ++ numToks min ++ [.quest] ++ numToks min ++ [.colon] ++ v ++ [.rp]

open Classical in
/-- `compute(z)` of each class, on one element: `Sigmoid` 86-94, `Silu` 108-110, `ReLu` 125-127,
`LeakyReLu` 158-164, `TanH` 181-190, `Linear` 205-207, `Exponential` 222-224, `Logarithm` 239-241,
`Clip` 288-290 (`np.clip(z, min, max) = np.minimum(np.maximum(z, min), max)`). -/
noncomputable def Act.compute : Act ℝ → ℝ → ℝ
  | .sigmoid, z => if z < 0 then Real.exp z / (1 + Real.exp z) else 1 / (1 + Real.exp (-z))
  | .silu, z => z / (1 + Real.exp (-z))
  | .relu, z => max 0 z
  | .leakyRelu alpha, z => if z < 0 then alpha * z else z
  | .tanh, z => if z < 0 then (Real.exp (2 * z) - 1) / (Real.exp (2 * z) + 1)
      else (1 - Real.exp (-2 * z)) / (1 + Real.exp (-2 * z))
  | .linear, z => z
  | .exponential, z => Real.exp z
  | .logarithm, z => Real.log z
  | .clip hi lo, z => min (max z lo) hi

/-- exact real arithmetic (no integer operators) -/
noncomputable def realSem : Sem ℝ := ⟨(· / ·), Real.exp, Real.log, fun a _ => a, id⟩

/-- `generator/layers/activation_layers/ActivationLayerDefault.py` 38-56: the code of an activation
layer, where `act` is the meaning of the activation text. -/
def activationLayerCode {α : Type} (size : Nat) (act : α → α) (src : Buf) (road : Nat) : Prog α Unit :=
  copyMap size src (.out road) act

end Verif.Layers

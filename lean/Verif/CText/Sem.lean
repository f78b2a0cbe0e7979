import Verif.CText.Syntax
import Verif.CMem.Basic
import Mathlib.Algebra.Order.Floor.Defs
import Mathlib.Algebra.Order.Field.Basic

/-!
# The C subset of the layer templates: meaning

A statement runs on the memory of `CMem/Basic.lean` and an environment of local variables.  `int` is the mathematical
integers, `float` and `double` an ordered field; division and remainder of integers truncate; accesses outside an array,
undeclared identifiers, integer division by zero and reads with a wrong type fail (`none`).
-/

namespace Verif.CText
open Prog

/-- values of expressions -/
inductive Val (K : Type)
  | int (z : Int)
  | flt (x : K)
  /-- pointer into an array -/
  | ptr (b : Buf) (o : Int)

/-- local variables; the constructor of the value is the declared type -/
abbrev Env (K : Type) := Ident → Option (Val K)

/-- What is declared outside the layer's text. -/
structure Globals (K : Type) where
  /-- the arrays, by identifier: fields of `*ctx` (`true`), arguments of the function and globals (`false`) -/
  buf : Bool → Ident → Option Buf
  /-- the constant arrays of `int` -/
  ints : Ident → Option (List Nat)
  exp : K → K
  log : K → K
  sqrt : K → K
  inf : K

variable {K : Type} [Field K] [LinearOrder K] [FloorRing K]

def fail {β : Type} : Prog K β := fun _ => none

/-- conversion to `float` -/
def Val.toK : Val K → Option K
  | .int z => some z
  | .flt x => some x
  | .ptr .. => none

/-- a value as a number of type `float` -/
def asK (v : Val K) : Prog K K := match v.toK with | some x => ret x | none => fail

/-- conversion to `int`: truncation -/
def Val.toInt : Val K → Option Int
  | .int z => some z
  | .flt x => some (if 0 ≤ x then ⌊x⌋ else -⌊-x⌋)
  | .ptr .. => none

/-- is a condition true -/
def truth (v : Val K) : Prog K Bool :=
  match v with
  | .int z => ret (decide (z ≠ 0))
  | .flt x => ret (decide (x ≠ 0))
  | .ptr .. => fail

def boolVal (b : Bool) : Val K := .int (if b then 1 else 0)

/-- operators on two integers -/
def intOp (o : BinOp) (a b : Int) : Option (Val K) :=
  match o with
  | .mul => some (.int (a * b))
  | .div => if b = 0 then none else some (.int (a.tdiv b))
  | .mod => if b = 0 then none else some (.int (a.tmod b))
  | .add => some (.int (a + b))
  | .sub => some (.int (a - b))
  | .lt => some (boolVal (decide (a < b)))
  | .gt => some (boolVal (decide (b < a)))
  | .le => some (boolVal (decide (a ≤ b)))
  | .ge => some (boolVal (decide (b ≤ a)))
  | .eq => some (boolVal (decide (a = b)))

/-- operators on two floats -/
def fltOp (o : BinOp) (a b : K) : Option (Val K) :=
  match o with
  | .mul => some (.flt (a * b))
  | .div => some (.flt (a / b))
  | .mod => none
  | .add => some (.flt (a + b))
  | .sub => some (.flt (a - b))
  | .lt => some (boolVal (decide (a < b)))
  | .gt => some (boolVal (decide (b < a)))
  | .le => some (boolVal (decide (a ≤ b)))
  | .ge => some (boolVal (decide (b ≤ a)))
  | .eq => some (boolVal (decide (a = b)))

/-- the usual arithmetic conversions -/
def binOp (o : BinOp) : Val K → Val K → Option (Val K)
  | .int a, .int b => intOp o a b
  | .int a, .flt b => fltOp o a b
  | .flt a, .int b => fltOp o a b
  | .flt a, .flt b => fltOp o a b
  | _, _ => none

def ofOpt {β : Type} : Option β → Prog K β
  | some b => ret b
  | none => fail

/-- functions of the C library with one argument -/
def lib1 (G : Globals K) : Ident → K → Option (Val K)
  | (.exp, none), x => some (.flt (G.exp x))
  | (.expf, none), x => some (.flt (G.exp x))
  | (.log, none), x => some (.flt (G.log x))
  | (.sqrt, none), x => some (.flt (G.sqrt x))
  | (.floor, none), x => some (.flt ⌊x⌋)
  | (.ceil, none), x => some (.flt ⌈x⌉)
  | _, _ => none

/-- functions of the C library with two arguments -/
def lib2 : Ident → K → K → Option (Val K)
  | (.fmax, none), x, y => some (.flt (max x y))
  | (.fmin, none), x, y => some (.flt (min x y))
  | _, _, _ => none

/-- the static type of an expression is `float` -/
def isFlt (G : Globals K) (env : Env K) : Expr K → Bool
  | .num _ => false
  | .flt _ => true
  | .var x => match env x with
    | some (.flt _) => true
    | _ => x.1 = .INFINITY
  | .idx c x _ => match G.buf c x with
    | some _ => true
    | none => (G.ints x).isNone
  | .addr .. => false
  | .neg a => isFlt G env a
  | .bin o a b => match o with
    | .mul | .div | .mod | .add | .sub => isFlt G env a || isFlt G env b
    | _ => false
  | .land .. | .lor .. => false
  | .cond _ a b => isFlt G env a || isFlt G env b
  | .call1 .. | .call2 .. => true

/-- element `a` of a constant array of `int` -/
def intAt (l : List Nat) (a : Int) : Option (Val K) :=
  if 0 ≤ a then (l[a.toNat]?).map fun z => .int (z : Int) else none

/-- `b[a]` -/
def loadAt (b : Buf) (a : Int) : Prog K (Val K) := do
  let x ← load b a
  ret (.flt x)

/-- Value of an expression. -/
def Expr.eval (G : Globals K) (env : Env K) : Expr K → Prog K (Val K)
  | .num n => ret (.int n)
  | .flt q => ret (.flt q)
  | .var x => if x = (.INFINITY, none) then ret (.flt G.inf) else ofOpt (env x)
  | .idx c x e => do
    let v ← e.eval G env
    match v with
    | .int a => match G.buf c x with
      | some b => loadAt b a
      | none => match c, G.ints x, env x with
        | false, some l, _ => ofOpt (intAt l a)
        | false, none, some (.ptr b o) => loadAt b (o + a)
        | _, _, _ => fail
    | _ => fail
  | .addr c x e => do
    let v ← e.eval G env
    match v, G.buf c x with
    | .int a, some b => ret (.ptr b a)
    | _, _ => fail
  | .neg a => do
    let v ← a.eval G env
    match v with
    | .int z => ret (.int (-z))
    | .flt x => ret (.flt (-x))
    | .ptr .. => fail
  | .bin o a b => do
    let u ← a.eval G env
    let v ← b.eval G env
    ofOpt (binOp o u v)
  | .land a b => do
    let u ← a.eval G env
    let t ← truth u
    (if t then do
      let v ← b.eval G env
      let t' ← truth v
      ret (boolVal t')
    else ret (boolVal false) : Prog K (Val K))
  | .lor a b => do
    let u ← a.eval G env
    let t ← truth u
    (if t then ret (boolVal true)
    else do
      let v ← b.eval G env
      let t' ← truth v
      ret (boolVal t') : Prog K (Val K))
  | .cond c a b => do
    let u ← c.eval G env
    let t ← truth u
    let v ← (if t then a.eval G env else b.eval G env : Prog K (Val K))
    (if isFlt G env a || isFlt G env b then do
      let x ← asK v
      ret (.flt x)
    else ret v : Prog K (Val K))
  | .call1 f a => do
    let u ← a.eval G env
    let x ← asK u
    ofOpt (lib1 G f x)
  | .call2 f a b => do
    let u ← a.eval G env
    let x ← asK u
    let v ← b.eval G env
    let y ← asK v
    ofOpt (lib2 f x y)

/-- assignment of a variable -/
def upd (env : Env K) (x : Ident) (v : Val K) : Env K := fun y => if y = x then some v else env y

/-- `v` converted to the type of the value `old` -/
def convert (old v : Val K) : Option (Val K) :=
  match old, v with
  | .int _, v => v.toInt.map .int
  | .flt _, v => v.toK.map .flt
  | .ptr .., .ptr b o => some (.ptr b o)
  | .ptr .., _ => none

/-- `v` converted to a declared type -/
def convertTy (t : Ty) (v : Val K) : Option (Val K) :=
  match t, v with
  | .int, v => v.toInt.map .int
  | .float, v => v.toK.map .flt
  | .ptr, .ptr b o => some (.ptr b o)
  | .ptr, _ => none

/-- the variables declared in a block, outside inner blocks -/
def decls : Stmt K → List Ident
  | .decl _ x _ => [x]
  | .seq a b => decls a ++ decls b
  | _ => []

/-- the environment after a block: its declarations are forgotten -/
def restore (xs : List Ident) (outer inner : Env K) : Env K := fun y => if y ∈ xs then outer y else inner y

/-- the operation of a compound assignment -/
def aop (o : AOp) (old v : Val K) : Option (Val K) :=
  match o with
  | .set => some v
  | .add => binOp .add old v
  | .mul => binOp .mul old v

/-- where an array expression points to -/
def place (G : Globals K) (env : Env K) (c : Bool) (x : Ident) (a : Int) : Option (Buf × Int) :=
  match G.buf c x with
  | some b => some (b, a)
  | none => match c, env x with
    | false, some (.ptr b o) => some (b, o + a)
    | _, _ => none

/-- `l op= v` -/
def assignTo (G : Globals K) (env : Env K) (l : LVal K) (o : AOp) (v : Val K) : Prog K (Env K) :=
  match l with
  | .var x => match env x with
    | none => fail
    | some old => do
      let r ← ofOpt (aop o old v)
      let r' ← ofOpt (convert old r)
      ret (upd env x r')
  | .idx c x e => do
    let u ← e.eval G env
    match u with
    | .int a => do
      let (b, a') ← ofOpt (place G env c x a)
      match o with
      | .set => do
        let y ← asK v
        store b a' y
        ret env
      | _ => do
        let old ← load b a'
        let r ← ofOpt (aop o (.flt old) v)
        let y ← asK r
        store b a' y
        ret env
    | _ => fail

/-- A loop, given its condition and what an iteration does; fails if there are more than `F` tests. -/
def iterate {σ : Type} (c : σ → Prog K Bool) (b : σ → Prog K σ) : Nat → σ → Prog K σ
  | 0, _ => fail
  | F + 1, s => do
    let t ← c s
    (if t then do
      let s' ← b s
      iterate c b F s'
    else ret s : Prog K σ)

/-- Execution of a statement, where no loop may make more than `F` tests: a statement terminates if it does not
fail for some `F`. -/
def Stmt.run (G : Globals K) (F : Nat) : Stmt K → Env K → Prog K (Env K)
  | .skip, env => ret env
  | .seq a b, env => do
    let env' ← a.run G F env
    b.run G F env'
  | .block s, env => do
    let env' ← s.run G F env
    ret (restore (decls s) env env')
  | .decl t x e, env => do
    let v ← e.eval G env
    let v' ← ofOpt (convertTy t v)
    ret (upd env x v')
  | .assign l o e, env => do
    let v ← e.eval G env
    assignTo G env l o v
  | .incr x, env =>
    match env x with
    | some (.int z) => ret (upd env x (.int (z + 1)))
    | _ => fail
  | .for_ i c s b, env => do
    let env0 ← i.run G F env
    let env1 ← iterate (fun env => do
        let v ← c.eval G env
        truth v)
      (fun env => do
        let env' ← b.run G F env
        s.run G F env') F env0
    ret (restore (decls i) env env1)
  | .ite c a b, env => do
    let v ← c.eval G env
    let t ← truth v
    (if t then a.run G F env else b.run G F env : Prog K (Env K))

end Verif.CText

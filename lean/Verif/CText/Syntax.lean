import Verif.CText.Lex

/-!
# The C subset of the layer templates: syntax and parser
-/

namespace Verif.CText

inductive BinOp | mul | div | mod | add | sub | lt | gt | le | ge | eq
  deriving DecidableEq, Repr

inductive Expr (K : Type)
  | num (n : Nat)
  | flt (q : K)
  | var (x : Ident)
  /-- `x[e]`, or `ctx->x[e]` -/
  | idx (ctx : Bool) (x : Ident) (e : Expr K)
  /-- `&x[e]`, or `&ctx->x[e]` -/
  | addr (ctx : Bool) (x : Ident) (e : Expr K)
  | neg (a : Expr K)
  | bin (o : BinOp) (a b : Expr K)
  | land (a b : Expr K)
  | lor (a b : Expr K)
  | cond (c a b : Expr K)
  | call1 (f : Ident) (a : Expr K)
  | call2 (f : Ident) (a b : Expr K)
  deriving Repr

inductive Ty | int | float | ptr
  deriving DecidableEq, Repr

inductive LVal (K : Type)
  | var (x : Ident)
  | idx (ctx : Bool) (x : Ident) (e : Expr K)
  deriving Repr

inductive AOp | set | add | mul
  deriving DecidableEq, Repr

inductive Stmt (K : Type)
  | skip
  | seq (a b : Stmt K)
  /-- `{ .. }` -/
  | block (s : Stmt K)
  /-- a declaration with its initial value -/
  | decl (t : Ty) (x : Ident) (e : Expr K)
  | assign (l : LVal K) (o : AOp) (e : Expr K)
  | incr (x : Ident)
  | for_ (init : Stmt K) (c : Expr K) (step : Stmt K) (body : Stmt K)
  | ite (c : Expr K) (a b : Stmt K)
  deriving Repr

/-- the binary operator of a punctuation sign, with its level (C11 6.5.5-6.5.9) -/
def binOf : Punct → Option (BinOp × Nat)
  | .eqeq => some (.eq, 3)
  | .lt => some (.lt, 4) | .gt => some (.gt, 4) | .le => some (.le, 4) | .ge => some (.ge, 4)
  | .plus => some (.add, 5) | .minus => some (.sub, 5)
  | .star => some (.mul, 6) | .slash => some (.div, 6) | .percent => some (.mod, 6)
  | _ => none

variable {K : Type}

mutual
/-- Expressions: level 0 is the conditional expression, 1 `||`, 2 `&&`, 3-6 the other binary operators, 7 unary and
primary expressions. -/
def expr : Nat → Nat → List (CTok K) → Option (Expr K × List (CTok K))
  | 0, _, _ => none
  | n + 1, 0, ts =>
    match expr n 1 ts with
    | some (c, .punct .quest :: r) =>
      match expr n 0 r with
      | some (a, .punct .colon :: r') =>
        match expr n 0 r' with
        | some (b, r'') => some (.cond c a b, r'')
        | none => none
      | _ => none
    | r => r
  | n + 1, 7, ts =>
    match ts with
    | .punct .minus :: r =>
      match expr n 7 r with
      | some (e, r') => some (.neg e, r')
      | none => none
    | .punct .amp :: .id (.ctx, none) :: .punct .arrow :: .id x :: .punct .lbrk :: r =>
      match expr n 0 r with
      | some (e, .punct .rbrk :: r') => some (.addr true x e, r')
      | _ => none
    | .punct .amp :: .id x :: .punct .lbrk :: r =>
      match expr n 0 r with
      | some (e, .punct .rbrk :: r') => some (.addr false x e, r')
      | _ => none
    | .num m :: r => some (.num m, r)
    | .flt q :: r => some (.flt q, r)
    | .punct .lpar :: r =>
      match expr n 0 r with
      | some (e, .punct .rpar :: r') => some (e, r')
      | _ => none
    | .id (.ctx, none) :: .punct .arrow :: .id x :: .punct .lbrk :: r =>
      match expr n 0 r with
      | some (e, .punct .rbrk :: r') => some (.idx true x e, r')
      | _ => none
    | .id x :: .punct .lbrk :: r =>
      match expr n 0 r with
      | some (e, .punct .rbrk :: r') => some (.idx false x e, r')
      | _ => none
    | .id x :: .punct .lpar :: r =>
      match expr n 0 r with
      | some (e, .punct .rpar :: r') => some (.call1 x e, r')
      | some (e, .punct .comma :: r') =>
        match expr n 0 r' with
        | some (e', .punct .rpar :: r'') => some (.call2 x e e', r'')
        | _ => none
      | _ => none
    | .id x :: r => some (.var x, r)
    | _ => none
  | n + 1, l + 1, ts =>
    match expr n (l + 2) ts with
    | some (e, r) => chain n (l + 1) e r
    | none => none
/-- the rest of a chain of operators of one level, associating to the left -/
def chain : Nat → Nat → Expr K → List (CTok K) → Option (Expr K × List (CTok K))
  | 0, _, _, _ => none
  | n + 1, l, e, ts =>
    match ts with
    | .punct .oror :: r =>
      if l = 1 then
        match expr n 2 r with
        | some (e', r') => chain n l (.lor e e') r'
        | none => none
      else some (e, ts)
    | .punct .andand :: r =>
      if l = 2 then
        match expr n 3 r with
        | some (e', r') => chain n l (.land e e') r'
        | none => none
      else some (e, ts)
    | .punct p :: r =>
      match binOf p with
      | some (o, l') =>
        if l = l' then
          match expr n (l + 1) r with
          | some (e', r') => chain n l (.bin o e e') r'
          | none => none
        else some (e, ts)
      | none => some (e, ts)
    | _ => some (e, ts)
end

/-- a type and its qualifiers, up to the declared identifier -/
def typ : List (CTok K) → Option (Ty × Ident × List (CTok K))
  | .kw .register_ :: ts => typ ts
  | .kw .const_ :: ts => typ ts
  | .kw .int_ :: .id x :: ts => some (.int, x, ts)
  | .kw .float_ :: .kw .register_ :: .id x :: ts => some (.float, x, ts)
  | .kw .float_ :: .punct .star :: .kw .restrict_ :: .id x :: ts => some (.ptr, x, ts)
  | .kw .float_ :: .id x :: ts => some (.float, x, ts)
  | _ => none

/-- a declaration, an assignment or an increment, without the semicolon -/
def simple (n : Nat) (ts : List (CTok K)) : Option (Stmt K × List (CTok K)) :=
  match ts with
  | .punct .inc :: .id x :: r => some (.incr x, r)
  | .id x :: .punct .inc :: r => some (.incr x, r)
  | .kw k :: r =>
    match typ (.kw k :: r) with
    | some (t, x, .punct .assign :: r') =>
      match expr n 0 r' with
      | some (e, r'') => some (.decl t x e, r'')
      | none => none
    | _ => none
  | ts =>
    match expr n 7 ts with
    | some (l, .punct o :: r) =>
      let op : Option AOp := match o with | .assign => some .set | .plusEq => some .add | .starEq => some .mul | _ => none
      let lv : Option (LVal K) := match l with | .var x => some (.var x) | .idx c x e => some (.idx c x e) | _ => none
      match op, lv, expr n 0 r with
      | some op, some lv, some (e, r') => some (.assign lv op e, r')
      | _, _, _ => none
    | _ => none

mutual
/-- one statement -/
def stmt : Nat → List (CTok K) → Option (Stmt K × List (CTok K))
  | 0, _ => none
  | n + 1, ts =>
    match ts with
    | .punct .lbrc :: r =>
      match stmts n r with
      | some (s, .punct .rbrc :: r') => some (.block s, r')
      | _ => none
    | .kw .for_ :: .punct .lpar :: r =>
      match simple n r with
      | some (i, .punct .semi :: r1) =>
        match expr n 0 r1 with
        | some (c, .punct .semi :: r2) =>
          match simple n r2 with
          | some (s, .punct .rpar :: r3) =>
            match stmt n r3 with
            | some (b, r4) => some (.for_ i c s b, r4)
            | none => none
          | _ => none
        | _ => none
      | _ => none
    | .kw .if_ :: .punct .lpar :: r =>
      match expr n 0 r with
      | some (c, .punct .rpar :: r1) =>
        match stmt n r1 with
        | some (a, .kw .else_ :: r2) =>
          match stmt n r2 with
          | some (b, r3) => some (.ite c a b, r3)
          | none => none
        | some (a, r2) => some (.ite c a .skip, r2)
        | none => none
      | _ => none
    | ts =>
      match simple n ts with
      | some (s, .punct .semi :: r) => some (s, r)
      | _ => none
/-- statements up to a closing brace or the end -/
def stmts : Nat → List (CTok K) → Option (Stmt K × List (CTok K))
  | 0, _ => none
  | n + 1, ts =>
    match ts with
    | [] => some (.skip, [])
    | .punct .rbrc :: r => some (.skip, .punct .rbrc :: r)
    | ts =>
      match stmt n ts with
      | some (a, r) =>
        match stmts n r with
        | some (.skip, r') => some (a, r')
        | some (b, r') => some (.seq a b, r')
        | none => none
      | none => none
end

/-- the statements of a whole text -/
def program (ts : List (CTok K)) : Option (Stmt K) :=
  match stmts (10 * ts.length + 20) ts with
  | some (s, []) => some s
  | _ => none

/-- The C code that a template becomes when it is rendered with a hash. -/
def code [NatCast K] [Div K] (text : List Char) (h : Hash K) : Option (Stmt K) :=
  (tokens text).bind fun tt => (inst tt h).bind program

end Verif.CText

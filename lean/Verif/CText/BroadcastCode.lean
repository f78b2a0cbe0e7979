import Verif.CText.ConcatCode
import Verif.Layers.Broadcast

/-!
# The text of Broadcast: hash and program
-/

namespace Verif.CText
open Prog Layers
set_option linter.unusedVariables false
set_option linter.unusedSectionVars false
variable {K : Type} [Field K]

/-! ## Hash -/

/-- `self.name` and `self.specific_operator` (`generator/layers/broadcast/*/` 47-52) -/
def bcName : BOp → List Char
  | .add => chars! "Add" | .sub => chars! "Subtract" | .mul => chars! "Multiply" | .div => chars! "Divide"
  | .max => chars! "Maximum" | .min => chars! "Minimum" | .avg => chars! "Average"

def bcOp : BOp → Punct
  | .add => .plus | .sub => .minus | .mul => .star | .div => .slash | .max => .comma | .min => .comma | .avg => .plus

/-- every input but the last has an operator after it (`Broadcast.py` 173) -/
def marks : List ROp → List (ROp × Bool)
  | [] => []
  | [o] => [(o, false)]
  | o :: o' :: os => (o, true) :: marks (o' :: os)

/-- `previous_dict` (`Broadcast.py` 168-175) -/
def bcItem (op : BOp) (x : ROp × Bool) : Hash K :=
  [(chars! "output_str", x.1.src.text), (chars! "input_width", .num x.1.W), (chars! "input_height", .num x.1.H), (chars! "input_channels", .num x.1.C)] ++
    (match x.2 with | true => [(chars! "operator", .toks [.punct (bcOp op)])] | false => [])

/-- dimensions of the constant (`Broadcast.py` 177-183) -/
structure CDim where
  C : Nat
  H : Nat
  W : Nat

def cstItem (op : BOp) (c : CDim) : Hash K :=
  [(chars! "cst_width", .num c.W), (chars! "cst_height", .num c.H), (chars! "cst_channels", .num c.C), (chars! "operator", .toks [.punct (bcOp op)])]

/-- the keys that depend on the class (`Broadcast.py` 145-164), `o :: os` being the inputs -/
def bcKind (op : BOp) (o : ROp) (os : List ROp) : Hash K :=
  match op with
  | .max => [(chars! "output_str0", o.src.text), (chars! "input_width0", .num o.W), (chars! "input_height0", .num o.H), (chars! "input_channels0", .num o.C), (chars! "max", .bool true)]
  | .min => [(chars! "output_str0", o.src.text), (chars! "input_width0", .num o.W), (chars! "input_height0", .num o.H), (chars! "input_channels0", .num o.C), (chars! "min", .bool true)]
  | .avg => [(chars! "Average", .bool true), (chars! "prev_size", .num (os.length + 1))]
  | _ => [(chars! "other", .bool true)]

/-- `range(start, len(previous_layer))` (`Broadcast.py` 145-166) -/
def bcItems (op : BOp) (o : ROp) (os : List ROp) : List (ROp × Bool) :=
  match op with | .max | .min => marks os | _ => marks (o :: os)

/-- what `broadcast/Broadcast.py` 127-183 passes to the template -/
def bcHash (op : BOp) (C H W size idx : Nat) (act : CAct K) (o : ROp) (os : List ROp) (cst : Option CDim) (road : Nat) : Hash K :=
  [(chars! "name", .word (bcName op)), (chars! "idx", .num2 idx), (chars! "road", .num road), (chars! "size", .num size),
   (chars! "activation", act.lam), (chars! "output_channels", .num C), (chars! "output_height", .num H), (chars! "output_width", .num W)] ++
  (bcKind op o os ++ ((chars! "broadcast", .list ((bcItems op o os).map (bcItem op))) ::
    (match cst with | none => [] | some c => [(chars! "constant", .list [cstItem op c])])))

/-! ## Program -/

/-- the index of an operand -/
def bcIdx (C H W : Nat) : Expr K :=
  .bin .add (.bin .mod (.var (.j, none)) (.num W)) (.bin .mul (.num W)
    (.bin .add (.bin .mod (.var (.i, none)) (.num H)) (.bin .mul (.num H) (.bin .mod (.var (.f, none)) (.num C)))))

def readE (o : ROp) : Expr K := .idx true o.src.ident (bcIdx o.C o.H o.W)

def cstE (op : BOp) (idx : Nat) (c : CDim) : Expr K := .idx false (.other (chars! "constant_" ++ bcName op), some ⟨decide (idx < 10), idx⟩) (bcIdx c.C c.H c.W)

def cellE (H W : Nat) : Expr K := .bin .add (.var (.j, none)) (.bin .mul (.num W) (.bin .add (.var (.i, none)) (.bin .mul (.num H) (.var (.f, none)))))

def bcBin : BOp → BinOp | .sub => .sub | .mul => .mul | .div => .div | _ => .add

def opsE (op : BOp) (e : Expr K) (l : List (Expr K)) : Expr K := l.foldl (fun e x => .bin (bcBin op) e x) e

def setCell (H W : Nat) (e : Expr K) : Stmt K := .assign (.idx true (.tensor_temp, none) (cellE H W)) .set e

/-- the statements of one cell -/
def bcCell (op : BOp) (H W idx : Nat) (o : ROp) (os : List ROp) (cst : Option CDim) : Stmt K :=
  match op with
  | .max => seqs (setCell H W (readE o) :: os.map fun o => setCell H W (.call2 (.fmax, none) (.idx true (.tensor_temp, none) (cellE H W)) (readE o)))
  | .min => seqs (setCell H W (readE o) :: os.map fun o => setCell H W (.call2 (.fmin, none) (.idx true (.tensor_temp, none) (cellE H W)) (readE o)))
  | .avg => setCell H W (.bin .div (opsE .avg (readE o) (os.map readE)) (.num (os.length + 1)))
  | op => setCell H W (opsE op (readE o) (os.map readE ++ (cst.toList.map (cstE op idx))))

/-- the program that the text is -/
def bcAst (op : BOp) (C H W size idx : Nat) (act : CAct K) (o : ROp) (os : List ROp) (cst : Option CDim) (road : Nat) : Stmt K :=
  .seq (loop (.f, none) C (.block (loop (.i, none) H (.block (loop (.j, none) W (.block (bcCell op H W idx o os cst)))))))
    (loop (.k, none) size (.block (.assign (.idx true (.output, some ⟨false, road⟩) (.var (.k, none))) .set
      (act.expr (.idx true (.tensor_temp, none) (.var (.k, none)))))))

/-! ## Reading chains of operators -/

/-- a text that is read as a primary expression, whatever follows -/
def Prim (x : List (CTok K) × Expr K) : Prop := ∀ n rest, expr (n + 40) 7 (x.1 ++ rest) = some (x.2, rest)

/-- the tokens after which a chain stops -/
def Stop (t : CTok K) : Prop := t = .punct .semi ∨ t = .punct .rpar

theorem chain_stop (n L : Nat) (e : Expr K) {t : CTok K} (rest : List (CTok K)) (ht : Stop t) : chain (n + 1) L e (t :: rest) = some (e, t :: rest) := by
  rcases ht with rfl | rfl <;> rfl

/-- the operators of level 5 and 6 that the layers use -/
theorem bcBinOf (op : BOp) (h : op ≠ .max ∧ op ≠ .min) : ∃ L, (L = 5 ∨ L = 6) ∧ binOf (bcOp op) = some (bcBin op, L) := by
  cases op <;> simp_all [bcOp, bcBin, binOf]

theorem chain_op (p : Punct) (O : BinOp) (L n : Nat) (e : Expr K) (r : List (CTok K)) (hp : binOf p = some (O, L)) :
    chain (n + 1) L e (.punct p :: r) = (match expr n (L + 1) r with
      | some (e', r') => chain n L (.bin O e e') r'
      | none => none) := by
  cases p <;> simp only [binOf, Option.some.injEq, Prod.mk.injEq, reduceCtorEq] at hp <;> obtain ⟨rfl, rfl⟩ := hp <;> rfl

/-- one operand of a chain of level 5 or 6 -/
theorem expr_operand {x : List (CTok K) × Expr K} (hx : Prim x) (L n : Nat) (hL : L = 5 ∨ L = 6) {r : List (CTok K)}
    (hr : L = 5 → ∀ n e, chain (n + 1) 6 e r = some (e, r)) : expr (n + 41) (L + 1) (x.1 ++ r) = some (x.2, r) := by
  rcases hL with rfl | rfl
  · have : expr (n + 41) 6 (x.1 ++ r) = (match expr (n + 40) 7 (x.1 ++ r) with
      | some (e, r) => chain (n + 40) 6 e r
      | none => none) := rfl
    rw [this, hx n r]
    exact hr rfl _ _
  · exact hx (n + 1) r

theorem chain_list (p : Punct) (O : BinOp) (L : Nat) (hp : binOf p = some (O, L)) (hL : L = 5 ∨ L = 6) {t : CTok K} (rest : List (CTok K)) (ht : Stop t) :
    ∀ (l : List (List (CTok K) × Expr K)), (∀ x ∈ l, Prim x) → ∀ (n : Nat) (e : Expr K),
    chain (n + 42 + l.length) L e (l.flatMap (fun x => .punct p :: x.1) ++ t :: rest) = some (l.foldl (fun e x => .bin O e x.2) e, t :: rest)
  | [], _, n, e => chain_stop _ _ _ _ ht
  | x :: l, h, n, e => by
    have ih := chain_list p O L hp hL rest ht l (fun y hy => h y (List.mem_cons_of_mem _ hy)) n (.bin O e x.2)
    have hop := expr_operand (h x (List.mem_cons_self ..)) L (n + 1 + l.length) hL (r := l.flatMap (fun x => .punct p :: x.1) ++ t :: rest) (by
      intro h5 n e
      subst h5
      cases l with
      | nil => exact chain_stop _ _ _ _ ht
      | cons y l =>
        show chain (n + 1) 6 e (.punct p :: _) = some (e, .punct p :: _)
        cases p <;> simp only [binOf, Option.some.injEq, Prod.mk.injEq, reduceCtorEq] at hp <;> first | rfl | (obtain ⟨_, h⟩ := hp; simp at h))
    have e1 : (x :: l).flatMap (fun x => .punct p :: x.1) ++ t :: rest = .punct p :: (x.1 ++ (l.flatMap (fun x => .punct p :: x.1) ++ t :: rest)) := by
      simp [List.flatMap_cons]
    rw [e1, show n + 42 + (x :: l).length = (n + 1 + l.length + 41) + 1 by simp only [List.length_cons]; omega, chain_op p O L _ e _ hp, hop]
    rw [show n + 1 + l.length + 41 = n + 42 + l.length by omega]
    exact ih

/-- what follows an operand stops a chain of products inside a chain of sums -/
theorem next_stop (p : Punct) (O : BinOp) (hp : binOf p = some (O, 5)) {t : CTok K} (rest : List (CTok K)) (ht : Stop t)
    (l : List (List (CTok K) × Expr K)) (n : Nat) (e : Expr K) :
    chain (n + 1) 6 e (l.flatMap (fun x => .punct p :: x.1) ++ t :: rest) = some (e, l.flatMap (fun x => .punct p :: x.1) ++ t :: rest) := by
  cases l with
  | nil => exact chain_stop _ _ _ _ ht
  | cons y l =>
    show chain (n + 1) 6 e (.punct p :: _) = some (e, .punct p :: _)
    cases p <;> simp only [binOf, Option.some.injEq, Prod.mk.injEq, reduceCtorEq] at hp <;> first | rfl | (obtain ⟨_, h⟩ := hp; simp at h)

theorem expr_up {t : CTok K} {rest : List (CTok K)} (ht : Stop t) {N l : Nat} {ts : List (CTok K)} {e : Expr K} (hl : l < 6)
    (he : expr (N + 1) (l + 2) ts = some (e, t :: rest)) : expr (N + 2) (l + 1) ts = some (e, t :: rest) := by
  have : expr (N + 2) (l + 1) ts = (match expr (N + 1) (l + 2) ts with
    | some (e, r) => chain (N + 1) (l + 1) e r
    | none => none) := by
    rcases l with _ | _ | _ | _ | _ | _ | l
    · rfl
    · rfl
    · rfl
    · rfl
    · rfl
    · rfl
    · omega
  rw [this, he]
  exact chain_stop _ _ _ _ ht

theorem expr_top {t : CTok K} {rest : List (CTok K)} (ht : Stop t) {N : Nat} {ts : List (CTok K)} {e : Expr K}
    (he : expr (N + 1) 5 ts = some (e, t :: rest)) : expr (N + 6) 0 ts = some (e, t :: rest) := by
  have h1 := expr_up ht (l := 0) (by omega) (expr_up ht (l := 1) (by omega) (expr_up ht (l := 2) (by omega) (expr_up ht (l := 3) (by omega) he)))
  have : expr (N + 6) 0 ts = (match expr (N + 5) 1 ts with
    | some (c, .punct .quest :: r) =>
      match expr (N + 5) 0 r with
      | some (a, .punct .colon :: r') =>
        match expr (N + 5) 0 r' with
        | some (b, r'') => some (.cond c a b, r'')
        | none => none
      | _ => none
    | r => r) := rfl
  rw [this, h1]
  rcases ht with rfl | rfl <;> rfl

/-- a whole chain, as an expression -/
theorem expr_list (p : Punct) (O : BinOp) (L : Nat) (hp : binOf p = some (O, L)) (hL : L = 5 ∨ L = 6) {t : CTok K} (rest : List (CTok K)) (ht : Stop t)
    (x : List (CTok K) × Expr K) (l : List (List (CTok K) × Expr K)) (h : ∀ y ∈ x :: l, Prim y) (n : Nat) :
    expr (n + 49 + l.length) 0 (x.1 ++ (l.flatMap (fun x => .punct p :: x.1) ++ t :: rest)) = some (l.foldl (fun e x => .bin O e x.2) x.2, t :: rest) := by
  set r := l.flatMap (fun x => .punct p :: x.1) ++ t :: rest with hr
  have h1 : ∀ n, expr (n + 43 + l.length) L (x.1 ++ r) = some (l.foldl (fun e x => .bin O e x.2) x.2, t :: rest) := by
    intro n
    have hop := expr_operand (h x (List.mem_cons_self ..)) L (n + 1 + l.length) hL (r := r) (by
      rintro rfl n e
      exact next_stop p O hp rest ht l n e)
    have hc := chain_list p O L hp hL rest ht l (fun y hy => h y (List.mem_cons_of_mem _ hy)) n x.2
    rw [← hr] at hc
    have : expr ((n + 1 + l.length + 41) + 1) L (x.1 ++ r) = (match expr (n + 1 + l.length + 41) (L + 1) (x.1 ++ r) with
      | some (e, r) => chain (n + 1 + l.length + 41) L e r
      | none => none) := by rcases hL with rfl | rfl <;> rfl
    rw [show n + 43 + l.length = (n + 1 + l.length + 41) + 1 by omega, this, hop]
    rw [show n + 1 + l.length + 41 = n + 42 + l.length by omega]
    exact hc
  rw [show n + 49 + l.length = (n + 43 + l.length) + 6 by omega]
  apply expr_top ht
  rcases hL with rfl | rfl
  · rw [show n + 43 + l.length + 1 = (n + 1) + 43 + l.length by omega]
    exact h1 _
  · rw [show n + 43 + l.length + 1 = (n + 42 + l.length) + 2 by omega]
    apply expr_up ht (l := 4) (by omega)
    rw [show n + 42 + l.length + 1 = n + 43 + l.length by omega]
    exact h1 _

/-! ## The texts -/

def readT (o : ROp) : List (CTok K) :=
  rendered (chars! "ctx->{{x}}[(j%{{w}}) + {{w}}*((i%{{h}}) + {{h}}*(f % {{c}}))]")
    [(chars! "x", o.src.text), (chars! "w", .num o.W), (chars! "h", .num o.H), (chars! "c", .num o.C)]

def cstT (op : BOp) (idx : Nat) (c : CDim) : List (CTok K) :=
  rendered (chars! "constant_{{x}}_{{idx}}[(j%{{w}}) + {{w}}*((i%{{h}}) + {{h}}*(f % {{c}}))]")
    [(chars! "x", .word (bcName op)), (chars! "idx", .num2 idx), (chars! "w", .num c.W), (chars! "h", .num c.H), (chars! "c", .num c.C)]

theorem read_prim (o : ROp) : Prim (K := K) (readT o, readE o) := by
  intro n rest
  obtain ⟨src, C, H, W⟩ := o
  obtain ⟨y, m, h1, h2⟩ := src.any K
  unfold readT readE
  dsimp only
  rw [h1, h2]
  clear h1 h2
  kernel_rfl

theorem cst_prim (op : BOp) (idx : Nat) (c : CDim) : Prim (K := K) (cstT op idx c, cstE op idx c) := by
  intro n rest
  cases op <;> kernel_rfl

/-- `ctx->tensor_temp[..] =` -/
def lhsT (H W : Nat) : List (CTok K) :=
  rendered (chars! "ctx->tensor_temp[j + {{W}}*(i + {{H}}*f)] =") [(chars! "W", .num W), (chars! "H", .num H)]

theorem set_stmt {n H W : Nat} {r r' : List (CTok K)} {e : Expr K} (h : expr (n + 40) 0 r = some (e, .punct .semi :: r')) :
    stmt (n + 41) (lhsT H W ++ r) = some (setCell H W e, r') := by
  have : stmt (n + 41) (lhsT H W ++ r) = (match (match expr (n + 40) 0 r with
      | some (e, r') => some (setCell H W e, r')
      | _ => none) with
      | some (s, .punct .semi :: r) => some (s, r)
      | _ => none) := by kernel_rfl
  rw [this, h]

/-- `fmax(ctx->tensor_temp[..], x)` -/
def callT (fn : List Char) (H W : Nat) (o : ROp) : List (CTok K) :=
  rendered (chars! "{{fn}}(ctx->tensor_temp[j + {{W}}*(i + {{H}}*f)],ctx->{{x}}[(j%{{w}}) + {{w}}*((i%{{h}}) + {{h}}*(f % {{c}}))])")
    [(chars! "fn", .word fn), (chars! "W", .num W), (chars! "H", .num H), (chars! "x", o.src.text), (chars! "w", .num o.W), (chars! "h", .num o.H), (chars! "c", .num o.C)]

/-- the text of one cell -/
def bcCellT (op : BOp) (H W idx : Nat) (o : ROp) (os : List ROp) (cst : Option CDim) : List (CTok K) :=
  match op with
  | .max => (lhsT H W ++ (readT o ++ [.punct .semi])) ++ os.flatMap fun o => lhsT H W ++ (callT (chars! "fmax") H W o ++ [.punct .semi])
  | .min => (lhsT H W ++ (readT o ++ [.punct .semi])) ++ os.flatMap fun o => lhsT H W ++ (callT (chars! "fmin") H W o ++ [.punct .semi])
  | .avg => lhsT H W ++ (.punct .lpar :: (readT o ++ (os.flatMap (fun o => .punct .plus :: readT o) ++ [.punct .rpar, .punct .slash, .num (os.length + 1), .punct .semi])))
  | op => lhsT H W ++ (readT o ++ (os.flatMap (fun o => .punct (bcOp op) :: readT o) ++ ((match cst with | none => [] | some c => .punct (bcOp op) :: cstT op idx c) ++ [.punct .semi])))

def bcT : List TTok := (tokens Tpl.broadcast).getD []
def secB (k : Nat) (ts : List TTok) : List TTok := match ts.drop k with | .sec _ b :: _ => b | _ => []

theorem bc_tokens : tokens Tpl.broadcast = some (bcT.take 42 ++ ([.sec (chars! "max") (secB 42 bcT)] ++ ([.sec (chars! "min") (secB 43 bcT)] ++
    ([.sec (chars! "Average") (secB 44 bcT)] ++ ([.sec (chars! "other") (secB 45 bcT)] ++ bcT.drop 46))))) := by kernel_rfl

theorem bc_max : secB 42 bcT = (secB 42 bcT).take 46 ++ [.sec (chars! "broadcast") (secB 46 (secB 42 bcT))] := by kernel_rfl
theorem bc_min : secB 43 bcT = (secB 43 bcT).take 46 ++ [.sec (chars! "broadcast") (secB 46 (secB 43 bcT))] := by kernel_rfl
theorem bc_avg : secB 44 bcT = (secB 44 bcT).take 18 ++ ([.sec (chars! "broadcast") (secB 18 (secB 44 bcT))] ++ (secB 44 bcT).drop 19) := by kernel_rfl
theorem bc_oth : secB 45 bcT = (secB 45 bcT).take 17 ++ ([.sec (chars! "broadcast") (secB 17 (secB 45 bcT))] ++
    ([.sec (chars! "constant") (secB 18 (secB 45 bcT))] ++ (secB 45 bcT).drop 19)) := by kernel_rfl

theorem bc_instA (op : BOp) (C H W size idx : Nat) (act : CAct K) (o : ROp) (os : List ROp) (cst : Option CDim) (road : Nat) :
    inst (bcT.take 42) (bcHash op C H W size idx act o os cst road) = some (head3' C H W []) := by
  cases op <;> kernel_rfl

theorem bc_instC (op : BOp) (C H W size idx : Nat) (act : CAct K) (o : ROp) (os : List ROp) (cst : Option CDim) (road : Nat) :
    inst (bcT.drop 46) (bcHash op C H W size idx act o os cst road) = some (.punct .rbrc :: .punct .rbrc :: .punct .rbrc :: closeT size act road) := by
  cases op <;> rcases act with _ | _ | _ | ⟨_ | _, _⟩ | _ | _ | _ | _ | ⟨⟨_ | _, _⟩, ⟨_ | _, _⟩⟩ <;> kernel_rfl

/-- the items of a section are the operands with an operator between them -/
theorem marks_flatMap (p : CTok K) : ∀ (o : ROp) (os : List ROp),
    (marks (o :: os)).flatMap (fun x => readT x.1 ++ (match x.2 with | true => [p] | false => [])) = readT o ++ os.flatMap (fun o => p :: readT o)
  | o, [] => by simp [marks]
  | o, o' :: os => by
    have ih := marks_flatMap p o' os
    rw [marks, List.flatMap_cons, ih]
    simp

theorem marks_plain (g : ROp → List (CTok K)) : ∀ os : List ROp, (marks os).flatMap (fun x => g x.1) = os.flatMap g
  | [] => rfl
  | [o] => rfl
  | o :: o' :: os => by
    have ih := marks_plain g (o' :: os)
    rw [marks, List.flatMap_cons, ih]
    rfl

theorem bc_item_max (C H W size idx : Nat) (act : CAct K) (o : ROp) (os : List ROp) (cst : Option CDim) (road : Nat) (x : ROp × Bool) :
    inst (secB 46 (secB 42 bcT)) (bcItem .max x ++ bcHash .max C H W size idx act o os cst road) =
      some (lhsT H W ++ (callT (chars! "fmax") H W x.1 ++ [.punct .semi])) := by
  obtain ⟨⟨src, C', H', W'⟩, z⟩ := x
  obtain ⟨y, n, ht, hi⟩ := src.any K
  unfold bcItem callT
  dsimp only
  rw [ht]
  clear ht hi
  cases z <;> kernel_rfl

theorem bc_item_min (C H W size idx : Nat) (act : CAct K) (o : ROp) (os : List ROp) (cst : Option CDim) (road : Nat) (x : ROp × Bool) :
    inst (secB 46 (secB 43 bcT)) (bcItem .min x ++ bcHash .min C H W size idx act o os cst road) =
      some (lhsT H W ++ (callT (chars! "fmin") H W x.1 ++ [.punct .semi])) := by
  obtain ⟨⟨src, C', H', W'⟩, z⟩ := x
  obtain ⟨y, n, ht, hi⟩ := src.any K
  unfold bcItem callT
  dsimp only
  rw [ht]
  clear ht hi
  cases z <;> kernel_rfl

theorem bc_item_avg (C H W size idx : Nat) (act : CAct K) (o : ROp) (os : List ROp) (cst : Option CDim) (road : Nat) (x : ROp × Bool) :
    inst (secB 18 (secB 44 bcT)) (bcItem .avg x ++ bcHash .avg C H W size idx act o os cst road) =
      some (readT x.1 ++ (match x.2 with | true => [.punct .plus] | false => [])) := by
  obtain ⟨⟨src, C', H', W'⟩, z⟩ := x
  obtain ⟨y, n, ht, hi⟩ := src.any K
  unfold bcItem readT
  dsimp only
  rw [ht]
  clear ht hi
  cases z
  · cases cst <;> kernel_rfl
  · kernel_rfl

/-- the operators of the section `other` -/
def _root_.Verif.Layers.BOp.isOther : BOp → Bool | .add | .sub | .mul | .div => true | _ => false

theorem bc_item_oth (op : BOp) (hop : op.isOther = true) (C H W size idx : Nat) (act : CAct K) (o : ROp) (os : List ROp) (cst : Option CDim) (road : Nat) (x : ROp × Bool) :
    inst (secB 17 (secB 45 bcT)) (bcItem op x ++ bcHash op C H W size idx act o os cst road) =
      some (readT x.1 ++ (match x.2 with | true => [.punct (bcOp op)] | false => [])) := by
  obtain ⟨⟨src, C', H', W'⟩, z⟩ := x
  obtain ⟨y, n, ht, hi⟩ := src.any K
  unfold bcItem readT
  dsimp only
  rw [ht]
  clear ht hi
  cases op <;> first | exact absurd hop (by decide) | (cases z <;> cases cst <;> kernel_rfl)

theorem bc_cst (op : BOp) (hop : op.isOther = true) (C H W size idx : Nat) (act : CAct K) (o : ROp) (os : List ROp) (cst : Option CDim) (road : Nat) :
    inst [.sec (chars! "constant") (secB 18 (secB 45 bcT))] (bcHash op C H W size idx act o os cst road) =
      some (match cst with | none => [] | some c => .punct (bcOp op) :: cstT op idx c) := by
  cases op <;> first | exact absurd hop (by decide) | (cases cst <;> kernel_rfl)

/-- the text of the cell -/
theorem bc_cell (op : BOp) (C H W size idx : Nat) (act : CAct K) (o : ROp) (os : List ROp) (cst : Option CDim) (road : Nat) :
    inst ([.sec (chars! "max") (secB 42 bcT)] ++ ([.sec (chars! "min") (secB 43 bcT)] ++
    ([.sec (chars! "Average") (secB 44 bcT)] ++ ([.sec (chars! "other") (secB 45 bcT)])))) (bcHash op C H W size idx act o os cst road) = some (bcCellT op H W idx o os cst) := by
  have noMax : op ≠ .max → inst [.sec (chars! "max") (secB 42 bcT)] (bcHash op C H W size idx act o os cst road) = some [] := by
    intro h; cases op <;> first | exact absurd rfl h | (cases cst <;> kernel_rfl)
  have noMin : op ≠ .min → inst [.sec (chars! "min") (secB 43 bcT)] (bcHash op C H W size idx act o os cst road) = some [] := by
    intro h; cases op <;> first | exact absurd rfl h | (cases cst <;> kernel_rfl)
  have noAvg : op ≠ .avg → inst [.sec (chars! "Average") (secB 44 bcT)] (bcHash op C H W size idx act o os cst road) = some [] := by
    intro h; cases op <;> first | exact absurd rfl h | (cases cst <;> kernel_rfl)
  have noOth : op.isOther = false → inst [.sec (chars! "other") (secB 45 bcT)] (bcHash op C H W size idx act o os cst road) = some [] := by
    intro h; cases op <;> first | exact absurd h (by decide) | (cases cst <;> kernel_rfl)
  have one : ∀ (k : List Char) (b : List TTok) (v : Bool), (bcHash op C H W size idx act o os cst road).lookup k = some (.bool true) →
      inst [.sec k b] (bcHash op C H W size idx act o os cst road) = inst b (bcHash op C H W size idx act o os cst road) := by
    intro k b v hk
    simp only [inst, inst1, hk, HVal.truthy, if_true]
    cases inst b (bcHash op C H W size idx act o os cst road) <;> simp
  have hlist : (bcHash op C H W size idx act o os cst road).lookup (chars! "broadcast") = some (.list ((bcItems op o os).map (bcItem op))) := by
    cases op <;> rfl
  cases hop : op.isOther with
  | true =>
    have hb := inst_list (b := secB 17 (secB 45 bcT)) hlist (bc_item_oth op hop C H W size idx act o os cst road)
    have hc := bc_cst op hop C H W size idx act o os cst road
    have hA : inst ((secB 45 bcT).take 17) (bcHash op C H W size idx act o os cst road) = some (lhsT H W) := by cases op <;> kernel_rfl
    have hZ : inst ((secB 45 bcT).drop 19) (bcHash op C H W size idx act o os cst road) = some [.punct .semi] := by cases op <;> kernel_rfl
    have h := inst_append_some hA (inst_append_some hb (inst_append_some hc hZ))
    rw [← bc_oth] at h
    have hk := one (chars! "other") (secB 45 bcT) true (by cases op <;> first | rfl | exact absurd hop (by decide))
    rw [h] at hk
    have h4 := inst_append_some (noMax (by rintro rfl; exact absurd hop (by decide))) (inst_append_some (noMin (by rintro rfl; exact absurd hop (by decide)))
      (inst_append_some (noAvg (by rintro rfl; exact absurd hop (by decide))) hk))
    rw [h4]
    refine congrArg some ?_
    have hi : bcItems op o os = marks (o :: os) := by cases op <;> first | rfl | exact absurd hop (by decide)
    rw [hi, marks_flatMap]
    cases op <;> first | exact absurd hop (by decide) | (simp only [bcCellT, List.nil_append, List.append_assoc])
  | false =>
    cases op with
    | add => exact absurd hop (by decide)
    | sub => exact absurd hop (by decide)
    | mul => exact absurd hop (by decide)
    | div => exact absurd hop (by decide)
    | max =>
      have hb := inst_list (b := secB 46 (secB 42 bcT)) hlist (bc_item_max C H W size idx act o os cst road)
      have hA : inst ((secB 42 bcT).take 46) (bcHash .max C H W size idx act o os cst road) = some (lhsT H W ++ (readT o ++ [.punct .semi])) := by
        obtain ⟨src, C', H', W'⟩ := o
        obtain ⟨y, n, ht, hi⟩ := src.any K
        unfold bcHash bcKind readT
        dsimp only
        rw [ht]
        kernel_rfl
      have h := inst_append_some hA hb
      rw [← bc_max] at h
      have hk := one (chars! "max") (secB 42 bcT) true rfl
      rw [h] at hk
      rw [inst_append_some hk (inst_append_some (noMin (by decide)) (inst_append_some (noAvg (by decide)) (noOth rfl)))]
      refine congrArg some ?_
      simp only [bcItems, bcCellT, List.append_nil]
      exact congrArg _ (marks_plain (fun o => lhsT H W ++ (callT (chars! "fmax") H W o ++ [.punct .semi])) os)
    | min =>
      have hb := inst_list (b := secB 46 (secB 43 bcT)) hlist (bc_item_min C H W size idx act o os cst road)
      have hA : inst ((secB 43 bcT).take 46) (bcHash .min C H W size idx act o os cst road) = some (lhsT H W ++ (readT o ++ [.punct .semi])) := by
        obtain ⟨src, C', H', W'⟩ := o
        obtain ⟨y, n, ht, hi⟩ := src.any K
        unfold bcHash bcKind readT
        dsimp only
        rw [ht]
        kernel_rfl
      have h := inst_append_some hA hb
      rw [← bc_min] at h
      have hk := one (chars! "min") (secB 43 bcT) true rfl
      rw [h] at hk
      rw [inst_append_some (noMax (by decide)) (inst_append_some hk (inst_append_some (noAvg (by decide)) (noOth rfl)))]
      refine congrArg some ?_
      simp only [bcItems, bcCellT, List.append_nil, List.nil_append]
      exact congrArg _ (marks_plain (fun o => lhsT H W ++ (callT (chars! "fmin") H W o ++ [.punct .semi])) os)
    | avg =>
      have hb := inst_list (b := secB 18 (secB 44 bcT)) hlist (bc_item_avg C H W size idx act o os cst road)
      have hA : inst ((secB 44 bcT).take 18) (bcHash .avg C H W size idx act o os cst road) = some (lhsT H W ++ [.punct .lpar]) := by kernel_rfl
      have hZ : inst ((secB 44 bcT).drop 19) (bcHash .avg C H W size idx act o os cst road) = some [.punct .rpar, .punct .slash, .num (os.length + 1), .punct .semi] := by kernel_rfl
      have h := inst_append_some hA (inst_append_some hb hZ)
      rw [← bc_avg] at h
      have hk := one (chars! "Average") (secB 44 bcT) true rfl
      rw [h] at hk
      rw [inst_append_some (noMax (by decide)) (inst_append_some (noMin (by decide)) (inst_append_some hk (noOth rfl)))]
      refine congrArg some ?_
      rw [show bcItems .avg o os = marks (o :: os) from rfl, marks_flatMap]
      simp only [bcCellT, List.append_nil, List.nil_append, List.append_assoc, List.cons_append]

/-! ## Reading the cell -/

/-- a text that is read as a statement, whatever follows -/
def StmtT (x : List (CTok K) × Stmt K) : Prop :=
  (∃ r, x.1 = .id (.ctx, none) :: r) ∧ x.2 ≠ .skip ∧ ∀ n rest, stmt (n + 60) (x.1 ++ rest) = some (x.2, rest)

theorem stmts_ctx (n : Nat) (r : List (CTok K)) : stmts (n + 1) (.id (.ctx, none) :: r) =
    (match stmt n (.id (.ctx, none) :: r) with
      | some (a, r) =>
        match stmts n r with
        | some (.skip, r') => some (a, r')
        | some (b, r') => some (.seq a b, r')
        | none => none
      | none => none) := rfl

theorem seqs_ne_skip : ∀ l : List (Stmt K), l ≠ [] → (∀ x ∈ l, x ≠ .skip) → seqs l ≠ .skip
  | [], h, _ => absurd rfl h
  | [a], _, h => h a (List.mem_cons_self ..)
  | a :: b :: l, _, _ => by simp [seqs]

theorem stmts_list (rest : List (CTok K)) : ∀ (l : List (List (CTok K) × Stmt K)), (∀ x ∈ l, StmtT x) → ∀ n,
    stmts (n + 61 + l.length) (l.flatMap (·.1) ++ .punct .rbrc :: rest) = some (seqs (l.map (·.2)), .punct .rbrc :: rest)
  | [], _, n => rfl
  | x :: l, h, n => by
    have ih := stmts_list rest l (fun y hy => h y (List.mem_cons_of_mem _ hy)) n
    obtain ⟨⟨r, hr⟩, hs, hx⟩ := h x (List.mem_cons_self ..)
    have e1 : (x :: l).flatMap (·.1) ++ .punct .rbrc :: rest = .id (.ctx, none) :: (r ++ (l.flatMap (·.1) ++ .punct .rbrc :: rest)) := by
      simp [List.flatMap_cons, hr]
    have hx := hx (n + 1 + l.length) (l.flatMap (·.1) ++ .punct .rbrc :: rest)
    rw [hr, List.cons_append] at hx
    rw [e1, show n + 61 + (x :: l).length = (n + 1 + l.length + 60) + 1 by simp only [List.length_cons]; omega, stmts_ctx, hx]
    rw [show n + 1 + l.length + 60 = n + 61 + l.length by omega]
    simp only [ih]
    cases l with
    | nil => rfl
    | cons y l =>
      have hne := seqs_ne_skip ((y :: l).map (·.2)) (by simp) (by
        intro z hz
        obtain ⟨w, hw, rfl⟩ := List.mem_map.1 hz
        exact (h w (List.mem_cons_of_mem _ hw)).2.1)
      show (match (some (seqs ((y :: l).map (·.2)), .punct .rbrc :: rest) : Option (Stmt K × List (CTok K))) with
        | some (.skip, r') => some (x.2, r')
        | some (b, r') => some (.seq x.2 b, r')
        | none => none) = some (.seq x.2 (seqs ((y :: l).map (·.2))), .punct .rbrc :: rest)
      generalize seqs ((y :: l).map (·.2)) = s at hne ⊢
      cases s <;> first | exact absurd rfl hne | rfl

theorem read_stmt (H W : Nat) (o : ROp) : StmtT (K := K) (lhsT H W ++ (readT o ++ [.punct .semi]), setCell H W (readE o)) := by
  refine ⟨⟨_, rfl⟩, by simp [setCell], fun n rest => ?_⟩
  obtain ⟨src, C, H, W⟩ := o
  obtain ⟨y, m, h1, h2⟩ := src.any K
  unfold readT readE
  dsimp only
  rw [h1, h2]
  clear h1 h2
  kernel_rfl

theorem call_stmt (fn : List Char) (hfn : fn = chars! "fmax" ∨ fn = chars! "fmin") (H W : Nat) (o : ROp) :
    StmtT (K := K) (lhsT H W ++ (callT fn H W o ++ [.punct .semi]), setCell H W (.call2 (.ofChars fn, none) (.idx true (.tensor_temp, none) (cellE H W)) (readE o))) := by
  refine ⟨⟨_, rfl⟩, by simp [setCell], fun n rest => ?_⟩
  obtain ⟨src, C, H, W⟩ := o
  obtain ⟨y, m, h1, h2⟩ := src.any K
  unfold callT readE
  dsimp only
  rw [h1, h2]
  clear h1 h2
  rcases hfn with rfl | rfl <;> kernel_rfl

theorem stmts_one {n : Nat} {x r : List (CTok K)} {s : Stmt K} (hx : ∃ q, x = .id (.ctx, none) :: q) (h : stmt (n + 1) x = some (s, .punct .rbrc :: r)) :
    stmts (n + 2) x = some (s, .punct .rbrc :: r) := by
  obtain ⟨q, rfl⟩ := hx
  rw [stmts_ctx, h]
  rfl

/-- the number of tokens is large enough -/
def bcFuel (os : List ROp) : Nat := os.length + 80

theorem foldl_opsE (op : BOp) (l : List (List (CTok K) × Expr K)) (e : Expr K) :
    l.foldl (fun e x => .bin (bcBin op) e x.2) e = opsE op e (l.map (·.2)) := by
  unfold opsE
  rw [List.foldl_map]

theorem bc_stmts (op : BOp) (H W idx : Nat) (o : ROp) (os : List ROp) (cst : Option CDim) (n : Nat) (rest : List (CTok K)) :
    stmts (n + 80 + os.length) (bcCellT op H W idx o os cst ++ .punct .rbrc :: rest) = some (bcCell op H W idx o os cst, .punct .rbrc :: rest) := by
  have hprim : ∀ x ∈ ((readT o, readE o) : List (CTok K) × Expr K) :: os.map (fun o => (readT o, readE o)), Prim x := by
    intro x hx
    rcases List.mem_cons.1 hx with rfl | hx
    · exact read_prim o
    · obtain ⟨y, _, rfl⟩ := List.mem_map.1 hx
      exact read_prim y
  have hfm : ∀ p : CTok K, os.flatMap (fun o => p :: readT o) = (os.map (fun o => ((readT o, readE o) : List (CTok K) × Expr K))).flatMap fun x => p :: x.1 := by
    intro p; rw [List.flatMap_map]
  cases hop : op.isOther with
  | true =>
    obtain ⟨L, hL, hp⟩ := bcBinOf op (by cases op <;> simp_all [BOp.isOther])
    let l : List (List (CTok K) × Expr K) := os.map (fun o => (readT o, readE o)) ++ cst.toList.map fun c => (cstT op idx c, cstE op idx c)
    have hl : ∀ x ∈ ((readT o, readE o) : List (CTok K) × Expr K) :: l, Prim x := by
      intro x hx
      rcases List.mem_cons.1 hx with rfl | hx
      · exact read_prim o
      · rcases List.mem_append.1 hx with hx | hx
        · exact hprim x (List.mem_cons_of_mem _ hx)
        · obtain ⟨y, _, rfl⟩ := List.mem_map.1 hx
          exact cst_prim op idx y
    have hlen : l.length ≤ os.length + 1 := by
      simp only [l, List.length_append, List.length_map]
      cases cst <;> simp
    have htext : bcCellT op H W idx o os cst = lhsT H W ++ ((readT o : List (CTok K)) ++ (l.flatMap (fun x => .punct (bcOp op) :: x.1) ++ [.punct .semi])) := by
      have : (l.flatMap (fun x => .punct (bcOp op) :: x.1) : List (CTok K)) = os.flatMap (fun o => .punct (bcOp op) :: readT o) ++ (match cst with | none => [] | some c => .punct (bcOp op) :: cstT op idx c) := by
        simp only [l, List.flatMap_append, hfm]
        cases cst <;> simp
      rw [this]
      cases op <;> first | exact absurd hop (by decide) | (simp only [bcCellT, List.append_assoc])
    have hast : bcCell op H W idx o os cst = setCell H W (l.foldl (fun e x => .bin (bcBin op) e x.2) (readE (K := K) o)) := by
      rw [foldl_opsE]
      have : (l.map (·.2) : List (Expr K)) = os.map readE ++ cst.toList.map (cstE op idx) := by
        simp [l, List.map_append, Function.comp_def]
      rw [this]
      cases op <;> first | exact absurd hop (by decide) | rfl
    have he := expr_list (bcOp op) (bcBin op) L hp hL (t := .punct .semi) (.punct .rbrc :: rest) (.inl rfl) (readT o, readE o) l hl (n + 29 + os.length - l.length)
    rw [show n + 29 + os.length - l.length + 49 + l.length = (n + 38 + os.length) + 40 by omega] at he
    have hst := set_stmt (H := H) (W := W) he
    rw [htext, hast, show n + 80 + os.length = (n + 78 + os.length) + 2 by omega]
    refine stmts_one ⟨_, rfl⟩ ?_
    rw [show n + 78 + os.length + 1 = (n + 38 + os.length) + 41 by omega]
    rw [← hst]
    simp only [List.append_assoc, List.cons_append, List.nil_append]
  | false =>
    cases op with
    | add => exact absurd hop (by decide)
    | sub => exact absurd hop (by decide)
    | mul => exact absurd hop (by decide)
    | div => exact absurd hop (by decide)
    | max =>
      have h := stmts_list rest ((lhsT H W ++ (readT o ++ [.punct .semi]), setCell H W (readE (K := K) o)) :: os.map fun o =>
        (lhsT H W ++ (callT (chars! "fmax") H W o ++ [.punct .semi]), setCell H W (.call2 (.fmax, none) (.idx true (.tensor_temp, none) (cellE H W)) (readE o)))) (by
          intro x hx
          rcases List.mem_cons.1 hx with rfl | hx
          · exact read_stmt H W o
          · obtain ⟨y, _, rfl⟩ := List.mem_map.1 hx
            exact call_stmt (chars! "fmax") (.inl rfl) H W y) (n + 18)
      rw [show n + 80 + os.length = n + 18 + 61 + (os.length + 1) by omega]
      simp only [List.length_cons, List.length_map] at h
      simp only [bcCellT, bcCell]
      rw [List.flatMap_cons, List.flatMap_map] at h
      rw [h]
      simp [Function.comp_def]
    | min =>
      have h := stmts_list rest ((lhsT H W ++ (readT o ++ [.punct .semi]), setCell H W (readE (K := K) o)) :: os.map fun o =>
        (lhsT H W ++ (callT (chars! "fmin") H W o ++ [.punct .semi]), setCell H W (.call2 (.fmin, none) (.idx true (.tensor_temp, none) (cellE H W)) (readE o)))) (by
          intro x hx
          rcases List.mem_cons.1 hx with rfl | hx
          · exact read_stmt H W o
          · obtain ⟨y, _, rfl⟩ := List.mem_map.1 hx
            exact call_stmt (chars! "fmin") (.inr rfl) H W y) (n + 18)
      rw [show n + 80 + os.length = n + 18 + 61 + (os.length + 1) by omega]
      simp only [List.length_cons, List.length_map] at h
      simp only [bcCellT, bcCell]
      rw [List.flatMap_cons, List.flatMap_map] at h
      rw [h]
      simp [Function.comp_def]
    | avg =>
      have he := expr_list .plus .add 5 rfl (.inl rfl) (t := .punct .rpar) (.punct .slash :: .num (os.length + 1) :: .punct .semi :: .punct .rbrc :: rest) (.inr rfl)
        (readT o, readE o) (os.map fun o => (readT o, readE o)) hprim (n + 21)
      have hfo := foldl_opsE .avg (os.map fun o => ((readT o, readE o) : List (CTok K) × Expr K)) (readE o)
      rw [List.map_map] at hfo
      rw [List.length_map, ← hfm] at he
      replace he := he.trans (congrArg (fun e => some (e, _)) hfo)
      set r := (readT o : List (CTok K)) ++ (os.flatMap (fun o => .punct .plus :: readT o) ++ .punct .rpar :: .punct .slash :: .num (os.length + 1) :: .punct .semi :: .punct .rbrc :: rest) with hr
      obtain ⟨M, hM⟩ : ∃ M, n + 21 + 49 + os.length = M + 2 := ⟨n + 68 + os.length, by omega⟩
      rw [hM] at he
      have hE : (((fun x : List (CTok K) × Expr K => x.2) ∘ fun o => (readT o, readE o)) : ROp → Expr K) = readE := rfl
      rw [hE] at he
      have h7 : expr (M + 3) 7 (.punct .lpar :: r) = some (opsE .avg (readE o) (os.map readE), .punct .slash :: .num (os.length + 1) :: .punct .semi :: .punct .rbrc :: rest) := by
        have : expr (M + 3) 7 (.punct .lpar :: r) = (match expr (M + 2) 0 r with
          | some (e, .punct .rpar :: r') => some (e, r')
          | _ => none) := rfl
        rw [this, he]
      have h6 : expr (M + 4) 6 (.punct .lpar :: r) = some (.bin .div (opsE .avg (readE o) (os.map readE)) (.num (os.length + 1)), .punct .semi :: .punct .rbrc :: rest) := by
        have : expr (M + 4) 6 (.punct .lpar :: r) = (match expr (M + 3) 7 (.punct .lpar :: r) with
          | some (e, r) => chain (M + 3) 6 e r
          | none => none) := rfl
        rw [this, h7]
        rfl
      have h0 := expr_top (t := .punct .semi) (.inl rfl) (expr_up (N := M + 3) (t := .punct .semi) (.inl rfl) (l := 4) (by omega) h6)
      obtain ⟨M', hM'⟩ : ∃ M', M + 4 + 6 = M' + 40 := ⟨n + 38 + os.length, by omega⟩
      rw [hM'] at h0
      have hst := set_stmt (H := H) (W := W) h0
      rw [show n + 80 + os.length = (M' + 40) + 2 by omega]
      refine stmts_one ⟨_, rfl⟩ ?_
      show stmt (M' + 41) _ = _
      rw [bcCell, ← hst, bcCellT, hr]
      simp only [List.append_assoc, List.cons_append, List.nil_append]

theorem bc_code (op : BOp) (C H W size idx : Nat) (act : CAct K) (o : ROp) (os : List ROp) (cst : Option CDim) (road : Nat) :
    code Tpl.broadcast (bcHash op C H W size idx act o os cst road) = some (bcAst op C H W size idx act o os cst road) := by
  have hcell := bc_cell op C H W size idx act o os cst road
  have ht := inst_append_some (bc_instA op C H W size idx act o os cst road) (inst_append_some hcell (bc_instC op C H W size idx act o os cst road))
  unfold code
  rw [bc_tokens]
  simp only [Option.bind_some]
  simp only [List.append_assoc] at ht
  rw [ht]
  simp only [Option.bind_some]
  set T := bcCellT (K := K) op H W idx o os cst with hT
  have happ : head3' C H W [] ++ (T ++ .punct .rbrc :: .punct .rbrc :: .punct .rbrc :: closeT size act road) =
      head3' C H W (T ++ .punct .rbrc :: .punct .rbrc :: .punct .rbrc :: closeT size act road) := rfl
  rw [happ]
  have hlen : os.length ≤ T.length := by
    have h1 : ∀ g : ROp → List (CTok K), (∀ o, 1 ≤ (g o).length) → os.length ≤ (os.flatMap g).length := by
      intro g hg
      clear hT ht hcell happ
      clear_value T
      induction os with
      | nil => simp
      | cons x l ih =>
        have := hg x
        simp only [List.flatMap_cons, List.length_append, List.length_cons]
        omega
    rw [hT]
    have h2 := h1 (fun o => lhsT H W ++ (callT (chars! "fmax") H W o ++ [.punct .semi])) (by intro o; simp; omega)
    have h3 := h1 (fun o => lhsT H W ++ (callT (chars! "fmin") H W o ++ [.punct .semi])) (by intro o; simp; omega)
    have h4 := h1 (fun o => .punct (bcOp op) :: readT o) (by intro o; simp)
    cases op <;> simp only [bcCellT, List.length_append, List.length_cons, bcOp] at h2 h3 h4 ⊢ <;> omega
  unfold program
  obtain ⟨n, hn⟩ : ∃ n, 10 * (head3' C H W (T ++ .punct .rbrc :: .punct .rbrc :: .punct .rbrc :: closeT (K := K) size act road)).length + 20 =
      ((n + 60 + os.length) + 28) + 1 := by
    refine ⟨10 * (head3' C H W (T ++ .punct .rbrc :: .punct .rbrc :: .punct .rbrc :: closeT (K := K) size act road)).length + 20 - (60 + os.length + 29), ?_⟩
    simp only [head3', List.length_cons, List.length_append]
    omega
  rw [hn]
  have h1 := bc_stmts op H W idx o os cst n (.punct .rbrc :: .punct .rbrc :: closeT (K := K) size act road)
  rw [← hT, show n + 80 + os.length = (n + 60 + os.length) + 20 by omega] at h1
  have h2 := stmt_head3' (C := C) (H := H) (W := W) h1
  have h3 := close_stmts (K := K) (n + 28 + os.length) size act road
  rw [show n + 28 + os.length + 60 = n + 60 + os.length + 28 by omega] at h3
  have h4 : ∀ N : Nat, stmts (N + 1) (head3' C H W (T ++ .punct .rbrc :: .punct .rbrc :: .punct .rbrc :: closeT (K := K) size act road)) =
    (match stmt N (head3' C H W (T ++ .punct .rbrc :: .punct .rbrc :: .punct .rbrc :: closeT (K := K) size act road)) with
      | some (a, r) =>
        match stmts N r with
        | some (.skip, r') => some (a, r')
        | some (b, r') => some (.seq a b, r')
        | none => none
      | none => none) := fun _ => rfl
  rw [h4, h2]
  simp only [h3]
  rfl

end Verif.CText

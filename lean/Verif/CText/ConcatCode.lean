import Verif.CText.Parse
import Verif.Layers.Move

/-!
# The text of Concatenate: hash and program
-/

namespace Verif.CText
open Prog Layers
set_option linter.unusedVariables false
variable {K : Type} [Field K]

/-- an input of a layer with several: its text and its dimensions (`input_shapes[k][1:]`) -/
structure ROp where
  src : Ref
  C : Nat
  H : Nat
  W : Nat

def ROp.op (o : ROp) : Operand := ⟨o.src.buf, o.C, o.H, o.W⟩

/-- the key that the axis sets (`ConcatenateDefault.py` 57-62) -/
def axisKey : Np.Axis → List Char | .c => chars! "channels" | .h => chars! "heights" | .w => chars! "widths"

/-- the inputs with the running `borne_inf` (`ConcatenateDefault.py` 39-40, 65-76) -/
def withInf (a : Np.Axis) : List ROp → Nat → List (ROp × Nat)
  | [], _ => []
  | o :: os, inf => (o, inf) :: withInf a os (inf + o.op.dim a)

/-- `layer_to_concat` (`ConcatenateDefault.py` 66-74) -/
def concatItem (a : Np.Axis) (x : ROp × Nat) : Hash K :=
  [(chars! "input_width", .num x.1.W), (chars! "input_height", .num x.1.H), (chars! "output_str", x.1.src.text),
   (chars! "borne_sup", .num (x.2 + x.1.op.dim a)), (chars! "borne_inf", .num x.2)]

/-- what `concatenate/ConcatenateDefault.py` 38-80 passes to the template -/
def concatHash (a : Np.Axis) (C H W size idx : Nat) (act : CAct K) (prev : List ROp) (road : Nat) : Hash K :=
  [(chars! "name", .word (chars! "Concatenate")), (chars! "idx", .num2 idx), (chars! "road", .num road), (chars! "size", .num size),
   (chars! "activation_function", act.text [.id (.ctx, none), .punct .arrow, .id (.tensor_temp, none), .punct .lbrk, .id (.k, none), .punct .rbrk]),
   (chars! "output_channels", .num C), (chars! "output_height", .num H), (chars! "output_width", .num W),
   (axisKey a, .bool true), (chars! "concat", .list ((withInf a prev 0).map (concatItem a)))]

/-- the statement of one input -/
def concatOneS (a : Np.Axis) (H W : Nat) (x : ROp × Nat) : Stmt K :=
  let v : Ident := match a with | .c => (.f, none) | .h => (.i, none) | .w => (.j, none)
  let f : Expr K := .var (.f, none)
  let i : Expr K := .var (.i, none)
  let j : Expr K := .var (.j, none)
  let dst : LVal K := .idx true (.tensor_temp, none) (.bin .add j (.bin .mul (.num W) (.bin .add i (.bin .mul (.num H) f))))
  .ite (.land (.bin .lt (.var v) (.num (x.2 + x.1.op.dim a))) (.bin .ge (.var v) (.num x.2)))
    (.assign dst .set (match a with
      | .c => .idx true x.1.src.ident (.bin .add j (.bin .mul (.num x.1.W) (.bin .add i (.bin .mul (.num x.1.H) (.bin .sub f (.num x.2))))))
      | .h => .idx true x.1.src.ident (.bin .add j (.bin .mul (.num x.1.W) (.bin .add (.bin .sub i (.num x.2)) (.bin .mul (.num x.1.H) f))))
      | .w => .idx true x.1.src.ident (.bin .add (.bin .sub j (.num x.2)) (.bin .mul (.num x.1.W) (.bin .add i (.bin .mul (.num x.1.H) f))))))
    .skip

/-- the program that the text is -/
def concatAst (a : Np.Axis) (C H W size : Nat) (act : CAct K) (prev : List ROp) (road : Nat) : Stmt K :=
  .seq (loop (.f, none) C (.block (loop (.i, none) H (.block (loop (.j, none) W (.block (seqs ((withInf a prev 0).map (concatOneS a H W)))))))))
    (loop (.k, none) size (.block (.assign (.idx true (.output, some ⟨false, road⟩) (.var (.k, none))) .set
      (act.expr (.idx true (.tensor_temp, none) (.var (.k, none)))))))

def concatT : List TTok := (tokens Tpl.concatenate).getD []
def concatA : List TTok := concatT.take 42
def concatC : List TTok := concatT.drop 43
def concatB : List TTok := match concatT.drop 42 with | .sec _ b :: _ => b | _ => []

theorem concat_tokens : tokens Tpl.concatenate = some (concatA ++ ([.sec (chars! "concat") concatB] ++ concatC)) := by kernel_rfl

/-- the text of one input -/
def concatOneT (a : Np.Axis) (H W : Nat) (x : ROp × Nat) : List (CTok K) :=
  rendered (match a with
    | .c => chars! "if((f < {{s}}) && (f >= {{z}})) ctx->tensor_temp[j + {{W}}*(i + {{H}}*f)] = ctx->{{x}}[j + {{w}}*(i + {{h}}*(f - {{z}}))];"
    | .h => chars! "if((i < {{s}}) && (i >= {{z}})) ctx->tensor_temp[j + {{W}}*(i + {{H}}*f)] = ctx->{{x}}[j + {{w}}*((i - {{z}}) + {{h}}*f)];"
    | .w => chars! "if((j < {{s}}) && (j >= {{z}})) ctx->tensor_temp[j + {{W}}*(i + {{H}}*f)] = ctx->{{x}}[(j - {{z}}) + {{w}}*(i + {{h}}*f)];")
    [(chars! "s", .num (x.2 + x.1.op.dim a)), (chars! "z", .num x.2), (chars! "W", .num W), (chars! "H", .num H), (chars! "w", .num x.1.W), (chars! "h", .num x.1.H),
     (chars! "x", x.1.src.text)]

def closeT (size : Nat) (act : CAct K) (road : Nat) : List (CTok K) :=
  rendered (chars! "for (k = 0; k < {{size}}; ++k) { ctx->output_{{road}}[k] = {{{activation_function}}}; }")
    [(chars! "size", .num size), (chars! "road", .num road),
     (chars! "activation_function", act.text [.id (.ctx, none), .punct .arrow, .id (.tensor_temp, none), .punct .lbrk, .id (.k, none), .punct .rbrk])]

theorem concat_instA (a : Np.Axis) (C H W size idx : Nat) (act : CAct K) (prev : List ROp) (road : Nat) :
    inst concatA (concatHash a C H W size idx act prev road) = some (head3 C H W []) := by
  cases a <;> kernel_rfl

theorem concat_instB (a : Np.Axis) (C H W size idx : Nat) (act : CAct K) (prev : List ROp) (road : Nat) (x : ROp × Nat) :
    inst concatB (concatItem a x ++ concatHash a C H W size idx act prev road) = some (concatOneT a H W x) := by
  obtain ⟨⟨src, C', H', W'⟩, z⟩ := x
  obtain ⟨y, n, ht, hi⟩ := src.any K
  unfold concatItem concatOneT
  dsimp only
  rw [ht]
  clear ht hi
  generalize z + Operand.dim a _ = s
  cases a <;> kernel_rfl

theorem concat_instC (a : Np.Axis) (C H W size idx : Nat) (act : CAct K) (prev : List ROp) (road : Nat) :
    inst concatC (concatHash a C H W size idx act prev road) = some (.punct .rbrc :: .punct .rbrc :: .punct .rbrc :: closeT size act road) := by
  cases a <;> rcases act with _ | _ | _ | ⟨_ | _, _⟩ | _ | _ | _ | _ | ⟨⟨_ | _, _⟩, ⟨_ | _, _⟩⟩ <;> kernel_rfl

/-- the text of one input is read as its statement, whatever follows -/
theorem concat_stmt (a : Np.Axis) (H W : Nat) (x : ROp × Nat) (n : Nat) (t : CTok K) (rest : List (CTok K)) (ht : t = .kw .if_ ∨ t = .punct .rbrc) :
    stmt (n + 60) (concatOneT a H W x ++ t :: rest) = some (concatOneS a H W x, t :: rest) := by
  obtain ⟨⟨src, C', H', W'⟩, z⟩ := x
  obtain ⟨y, m, h1, h2⟩ := src.any K
  unfold concatOneT concatOneS
  dsimp only
  rw [h1, h2]
  clear h1 h2
  generalize z + Operand.dim a _ = s
  rcases ht with rfl | rfl <;> cases a <;> kernel_rfl

/-- the text of an input starts with `if` -/
theorem concat_if (a : Np.Axis) (H W : Nat) (x : ROp × Nat) : ∃ r, (concatOneT a H W x : List (CTok K)) = .kw .if_ :: r := by
  refine ⟨(concatOneT a H W x).tail, ?_⟩
  obtain ⟨⟨src, C', H', W'⟩, z⟩ := x
  obtain ⟨y, m, h1, h2⟩ := src.any K
  unfold concatOneT
  dsimp only
  rw [h1]
  clear h1 h2
  generalize z + Operand.dim a _ = s
  cases a <;> kernel_rfl

omit [Field K] in
theorem stmts_if (n : Nat) (r : List (CTok K)) : stmts (n + 1) (.kw .if_ :: r) =
    (match stmt n (.kw .if_ :: r) with
      | some (a, r) =>
        match stmts n r with
        | some (.skip, r') => some (a, r')
        | some (b, r') => some (.seq a b, r')
        | none => none
      | none => none) := rfl

/-- the texts of the inputs are read as their statements -/
theorem concat_stmts (a : Np.Axis) (H W : Nat) : ∀ (l : List (ROp × Nat)) (n : Nat) (rest : List (CTok K)),
    stmts (n + 60 + l.length) (l.flatMap (concatOneT a H W) ++ .punct .rbrc :: rest) = some (seqs (l.map (concatOneS a H W)), .punct .rbrc :: rest)
  | [], n, rest => rfl
  | [x], n, rest => by
    have h := concat_stmt a H W x n (.punct .rbrc) rest (.inr rfl)
    obtain ⟨r, hr⟩ := concat_if (K := K) a H W x
    simp only [List.flatMap_cons, List.flatMap_nil, List.append_nil, List.length_singleton, List.map_cons, List.map_nil]
    rw [hr] at h ⊢
    rw [List.cons_append, stmts_if]
    rw [List.cons_append] at h
    rw [h]
    rfl
  | x :: y :: l, n, rest => by
    have ih := concat_stmts a H W (y :: l) n rest
    obtain ⟨r, hr⟩ := concat_if (K := K) a H W x
    obtain ⟨r', hr'⟩ := concat_if (K := K) a H W y
    have h := concat_stmt a H W x (n + (l.length + 1)) (.kw .if_) (r' ++ (l.flatMap (concatOneT a H W) ++ .punct .rbrc :: rest)) (.inl rfl)
    have e1 : (x :: y :: l).flatMap (concatOneT a H W) ++ .punct .rbrc :: rest =
        .kw .if_ :: (r ++ (.kw .if_ :: (r' ++ (l.flatMap (concatOneT a H W) ++ .punct .rbrc :: rest)))) := by
      simp only [List.flatMap_cons, hr, hr', List.cons_append, List.append_assoc]
    have e2 : (y :: l).flatMap (concatOneT a H W) ++ .punct .rbrc :: rest =
        .kw .if_ :: (r' ++ (l.flatMap (concatOneT a H W) ++ .punct .rbrc :: rest)) := by
      simp only [List.flatMap_cons, hr', List.cons_append, List.append_assoc]
    rw [e2] at ih
    rw [hr, List.cons_append] at h
    have e3 : n + 60 + (x :: y :: l).length = (n + (l.length + 1) + 60) + 1 := by simp only [List.length_cons]; omega
    have e4 : n + 60 + (y :: l).length = n + (l.length + 1) + 60 := by simp only [List.length_cons]; omega
    rw [e4] at ih
    rw [e1, e3, stmts_if, h]
    simp only [ih]
    have hs : ∀ s : List (CTok K), (match (some (seqs ((y :: l).map (concatOneS a H W)), s) : Option (Stmt K × List (CTok K))) with
        | some (.skip, r') => some (concatOneS a H W x, r')
        | some (b, r') => some (.seq (concatOneS a H W x) b, r')
        | none => none) = some (.seq (concatOneS a H W x) (seqs ((y :: l).map (concatOneS a H W))), s) := by
      intro s
      cases l with
      | nil => rfl
      | cons => rfl
    exact hs _

theorem close_stmts (n size : Nat) (act : CAct K) (road : Nat) :
    stmts (n + 60) (closeT size act road) = some (loop (.k, none) size (.block (.assign (.idx true (.output, some ⟨false, road⟩) (.var (.k, none))) .set
      (act.expr (.idx true (.tensor_temp, none) (.var (.k, none)))))), []) := by
  rcases act with _ | _ | _ | ⟨_ | _, _⟩ | _ | _ | _ | _ | ⟨⟨_ | _, _⟩, ⟨_ | _, _⟩⟩ <;> kernel_rfl

theorem concat_code (a : Np.Axis) (C H W size idx : Nat) (act : CAct K) (prev : List ROp) (road : Nat) :
    code Tpl.concatenate (concatHash a C H W size idx act prev road) = some (concatAst a C H W size act prev road) := by
  have hi : inst [.sec (chars! "concat") concatB] (concatHash a C H W size idx act prev road) = some ((withInf a prev 0).flatMap (concatOneT a H W)) :=
    inst_list (g := concatItem a) (by cases a <;> rfl) fun x => concat_instB a C H W size idx act prev road x
  have ht := inst_append_some (concat_instA a C H W size idx act prev road) (inst_append_some hi (concat_instC a C H W size idx act prev road))
  unfold code
  rw [concat_tokens]
  simp only [Option.bind_some]
  rw [ht]
  simp only [Option.bind_some]
  set l := withInf a prev 0 with hl
  have happ : head3 C H W [] ++ (l.flatMap (concatOneT a H W) ++ .punct .rbrc :: .punct .rbrc :: .punct .rbrc :: closeT size act road) =
      head3 C H W (l.flatMap (concatOneT a H W) ++ .punct .rbrc :: .punct .rbrc :: .punct .rbrc :: closeT (K := K) size act road) := rfl
  rw [happ]
  have hlen : l.length ≤ (l.flatMap (concatOneT (K := K) a H W)).length := by
    clear_value l
    clear hl ht hi happ
    induction l with
    | nil => simp
    | cons x l ih =>
      obtain ⟨r, hr⟩ := concat_if (K := K) a H W x
      simp only [List.flatMap_cons, List.length_append, List.length_cons, hr]
      omega
  unfold program
  obtain ⟨n, hn⟩ : ∃ n, 10 * (head3 C H W (l.flatMap (concatOneT a H W) ++ .punct .rbrc :: .punct .rbrc :: .punct .rbrc :: closeT (K := K) size act road)).length + 20 =
      ((n + 40 + l.length) + 28) + 1 := by
    refine ⟨10 * (head3 C H W (l.flatMap (concatOneT a H W) ++ .punct .rbrc :: .punct .rbrc :: .punct .rbrc :: closeT (K := K) size act road)).length + 20 - (40 + l.length + 29), ?_⟩
    simp only [head3, List.length_cons, List.length_append]
    omega
  rw [hn]
  have h1 := concat_stmts a H W l n (.punct .rbrc :: .punct .rbrc :: closeT (K := K) size act road)
  rw [show n + 60 + l.length = (n + 40 + l.length) + 20 by omega] at h1
  have h2 := stmt_head3 (C := C) (H := H) (W := W) h1
  have h3 := close_stmts (K := K) (n + 8 + l.length) size act road
  rw [show n + 8 + l.length + 60 = n + 40 + l.length + 28 by omega] at h3
  have h4 : ∀ N : Nat, stmts (N + 1) (head3 C H W (l.flatMap (concatOneT a H W) ++ .punct .rbrc :: .punct .rbrc :: .punct .rbrc :: closeT (K := K) size act road)) =
    (match stmt N (head3 C H W (l.flatMap (concatOneT a H W) ++ .punct .rbrc :: .punct .rbrc :: .punct .rbrc :: closeT (K := K) size act road)) with
      | some (a, r) =>
        match stmts N r with
        | some (.skip, r') => some (a, r')
        | some (b, r') => some (.seq a b, r')
        | none => none
      | none => none) := fun _ => rfl
  rw [h4, h2]
  simp only [h3]
  rfl

end Verif.CText

import Verif.CText.Arrays
import Verif.CText.Compiles
import Verif.CText.Header

/-!
# The arrays that the text of a layer names
-/

namespace Verif.CText
open Prog Layers Net
set_option linter.unusedVariables false
set_option linter.unusedSectionVars false
variable {K : Type} [Field K] [LinearOrder K] [FloorRing K] [IsStrictOrderedRing K]

/-- The arrays a layer may name: its operands, its output, `tensor_temp`, its parameters, its indices, `nn_input` for an
input layer. -/
inductive Allowed (idx road : Nat) (op : Op K) (srcs : List Ref) : Bool × Ident → Prop
  | src (r : Ref) : r ∈ srcs → Allowed idx road op srcs (true, r.ident)
  | out : Allowed idx road op srcs (true, outId road)
  | temp : Allowed idx road op srcs (true, tempId)
  | input (r : Bool) (s : Shape) : op = .input r s → Allowed idx road op srcs (false, (.nn_input, none))
  | par (x : Ident) (l : List K) : (x, l) ∈ parArrays idx op → Allowed idx road op srcs (false, x)
  | ind (l : List Nat) : op.indices? = some l → Allowed idx road op srcs (false, indices idx)

theorem SNum.uses {P : Bool × Ident → Prop} (q : SNum K) : Within q.expr.arrays P := by
  rcases q with ⟨_ | _, q⟩
  · exact uses_flt q
  · exact uses_neg (uses_flt q)

section
attribute [local irreducible] Expr.arrays LVal.arrays Stmt.arrays

macro "uses1" : tactic => `(tactic| first
  | exact uses_num _ | exact uses_flt _ | exact uses_var _ | exact uses_lvar _ | exact uses_incr _ | exact uses_skip | exact SNum.uses _
  | apply uses_seq | apply uses_for | apply uses_block | apply uses_assign | apply uses_ite | apply uses_decl
  | apply uses_lidx | apply uses_idx | apply uses_addr | apply uses_bin | apply uses_neg | apply uses_land | apply uses_lor | apply uses_cond
  | apply uses_call1 | apply uses_call2)

theorem CAct.uses {P : Bool × Ident → Prop} (act : CAct K) {e : Expr K} (h : Within e.arrays P) : Within (act.expr e).arrays P := by
  cases act <;> unfold CAct.expr <;> repeat' (first | exact h | uses1)

theorem seqs_uses {P : Bool × Ident → Prop} (l : List (Stmt K)) (h : ∀ s ∈ l, Within s.arrays P) : Within (seqs l).arrays P := by
  induction l with
  | nil => exact uses_skip
  | cons a l ih =>
    cases l with
    | nil => exact h a (by simp)
    | cons b l => exact uses_seq (h a (by simp)) (ih fun s hs => h s (by simp [hs]))

open Lean Elab Tactic Meta in
/-- one step on a goal `Within e.arrays P`: looks at the head of `e` once unfolded -/
elab "uses_step" : tactic => do
  let g ← getMainGoal
  g.withContext do
    let t := (← instantiateMVars (← g.getType)).consumeMData
    let (``Within, #[l, P]) := t.getAppFnArgs | throwError "not Within"
    let f := l.getAppFn
    let args := l.getAppArgs
    let e := args.back!
    let rule (c : Lean.Name) : Option Lean.Name :=
      match c with
      | ``Expr.num => some ``uses_num | ``Expr.flt => some ``uses_flt | ``Expr.var => some ``uses_var | ``Expr.idx => some ``uses_idx
      | ``Expr.addr => some ``uses_addr | ``Expr.neg => some ``uses_neg | ``Expr.bin => some ``uses_bin | ``Expr.land => some ``uses_land
      | ``Expr.lor => some ``uses_lor | ``Expr.cond => some ``uses_cond | ``Expr.call1 => some ``uses_call1 | ``Expr.call2 => some ``uses_call2
      | ``LVal.var => some ``uses_lvar | ``LVal.idx => some ``uses_lidx
      | ``Stmt.skip => some ``uses_skip | ``Stmt.seq => some ``uses_seq | ``Stmt.block => some ``uses_block | ``Stmt.decl => some ``uses_decl
      | ``Stmt.assign => some ``uses_assign | ``Stmt.incr => some ``uses_incr | ``Stmt.for_ => some ``uses_for | ``Stmt.ite => some ``uses_ite
      | ``CAct.expr => some ``CAct.uses | ``SNum.expr => some ``SNum.uses
      | _ => none
    let rec go (fuel : Nat) (e : Lean.Expr) : MetaM (Lean.Name × Lean.Expr) := do
      match fuel with
      | 0 => throwError "no rule for {e}"
      | fuel + 1 =>
        match e.getAppFn.constName?.bind rule with
        | some r => return (r, e)
        | none =>
          let e' ← whnfCore e
          match e'.getAppFn.constName?.bind rule with
          | some r => return (r, e')
          | none =>
            match ← unfoldDefinition? e' with
            | some e'' => go fuel e''
            | none => throwError "stuck at {e'}"
    let (r, e) ← go 50 e
    let t' := mkApp2 t.getAppFn (mkAppN f (args.pop.push e)) P
    let g' ← mkFreshExprSyntheticOpaqueMVar t'
    g.assign (← mkExpectedTypeHint g' t)
    let c ← mkConstWithFreshMVarLevels r
    let gs ← withReducible <| g'.mvarId!.apply c
    replaceMainGoal gs

/-- leaves -/
macro "leaf" : tactic => `(tactic| first
  | assumption
  | exact Allowed.out
  | exact Allowed.temp
  | exact Allowed.src _ (List.mem_singleton.2 rfl)
  | exact Allowed.src _ (List.mem_cons_self ..)
  | exact Allowed.src _ (List.mem_cons_of_mem _ (List.mem_cons_self ..))
  | exact Allowed.input _ _ rfl
  | exact Allowed.par _ _ (List.mem_cons_self ..)
  | exact Allowed.par _ _ (List.mem_cons_of_mem _ (List.mem_cons_self ..))
  | exact Allowed.par _ _ (List.mem_cons_of_mem _ (List.mem_cons_of_mem _ (List.mem_cons_self ..)))
  | exact Allowed.par _ _ (List.mem_cons_of_mem _ (List.mem_cons_of_mem _ (List.mem_cons_of_mem _ (List.mem_cons_self ..))))
  | exact Allowed.ind _ rfl)

macro "uses" : tactic => `(tactic| repeat' (first | (with_reducible assumption) | uses_step | leaf))

/-- the text is C and names only such arrays -/
def Names (text : List Char) (h : Hash K) (P : Bool × Ident → Prop) : Prop := ∃ s, code text h = some s ∧ Within s.arrays P

theorem Names.intro {text : List Char} {h : Hash K} {s : Stmt K} {P : Bool × Ident → Prop} (hs : code text h = some s) (h1 : Within s.arrays P) : Names text h P := ⟨s, hs, h1⟩

macro "names" t:term : tactic => `(tactic| (refine Names.intro $t ?_; uses))

theorem output_names {P : Bool × Ident → Prop} (fmt gen : DataFormat) (rank4 : Bool) (C H W size path : Nat) (hp : P (false, (.prediction, none))) (ho : P (true, outId path)) :
    Names (K := K) Tpl.output (outputHash fmt gen rank4 C H W size path) P := by
  unfold outputHash
  split
  · split
    · names (outputLast_code ..)
    · split
      · names (outputFirst_code ..)
      · names (outputKeep_code ..)
  · names (outputFlat_code ..)

omit [IsStrictOrderedRing K] in
theorem coordS_py (a : RAxis K) (c : CVar) : coordS .pytorchHalfPixel a c = coordS .halfPixel a c ∨ coordS .pytorchHalfPixel a c = [.assign (.var c.xId) .set (.num 0)] := by
  by_cases h : a.outLen > 1
  · left; simp [coordS, h]
  · right; simp [coordS, h]

theorem linear1_cell {P : Bool × Ident → Prop} (mode : CoordMode) (h w : RAxis K) (d : Dim1) (act : CAct K) (htt : P (true, tempId)) :
    Within (seqs (linear1Cell mode h w d act)).arrays P := by
  cases mode
  case pytorchHalfPixel => unfold linear1Cell; rcases coordS_py (d.axis h w) d.cvar with e | e <;> rw [e] <;> uses
  all_goals uses

theorem linear2_cell {P : Bool × Ident → Prop} (mode : CoordMode) (h w : RAxis K) (act : CAct K) (src : Ref) (htt : P (true, tempId)) (hi : P (true, src.ident)) :
    Within (seqs (linear2Cell mode h w act src)).arrays P := by
  cases mode
  case pytorchHalfPixel => unfold linear2Cell; rcases coordS_py h .ix with e | e <;> rcases coordS_py w .jy with e' | e' <;> rw [e, e'] <;> uses
  all_goals uses

theorem cubic1_cell {P : Bool × Ident → Prop} (mode : CoordMode) (h w : RAxis K) (d : Dim1) (act : CAct K) (src : Ref) (htt : P (true, tempId)) (hi : P (true, src.ident)) :
    Within (seqs (cubic1Cell mode h w d act src)).arrays P := by
  cases mode
  case pytorchHalfPixel => unfold cubic1Cell; rcases coordS_py (d.axis h w) d.cvar with e | e <;> rw [e] <;> uses
  all_goals uses

theorem cubic2_cell {P : Bool × Ident → Prop} (mode : CoordMode) (h w : RAxis K) (act : CAct K) (src : Ref) (htt : P (true, tempId)) (hi : P (true, src.ident)) :
    Within (seqs (cubic2Cell mode h w act src)).arrays P := by
  cases mode
  case pytorchHalfPixel => unfold cubic2Cell; rcases coordS_py h .ix with e | e <;> rcases coordS_py w .jy with e' | e' <;> rw [e, e'] <;> uses
  all_goals uses

theorem nearest_cell {P : Bool × Ident → Prop} (mode : CoordMode) (nm : NearestMode) (h w : RAxis K) (act : CAct K) (src : Ref) (htt : P (true, tempId)) (hi : P (true, src.ident)) :
    Within (seqs (nearestCell mode nm h w act src)).arrays P := by
  cases mode
  case pytorchHalfPixel => cases nm <;> (unfold nearestCell; rcases coordS_py h .ix with e | e <;> rcases coordS_py w .jy with e' | e' <;> rw [e, e'] <;> uses)
  all_goals (cases nm <;> uses)

theorem linear_names {mode : CoordMode} {C size idx : Nat} {h w : RAxis K} {ext : SNum K} {act : CAct K} {src : Ref} {road : Nat} {f : K → K} {text : List Char}
    {hash : Hash K} (ht : linearText mode C size idx h w ext act src road = some (text, hash)) (hc : (linearCode mode C size h w f src.buf road).isSome = true)
    {P : Bool × Ident → Prop} (hi : P (true, src.ident)) (ho : P (true, outId road)) (htt : P (true, tempId)) :
    Names text hash P := by
  by_cases hm : mode = .tfCropAndResize
  · subst hm
    unfold linearCode linear1Code linear2Code at hc
    simp [compiles1, compiles2] at hc
  · unfold linearText at ht
    split at ht
    · cases ht
      refine Names.intro (linear1_code mode hm ..) ?_
      have := linear1_cell mode h w .w act htt
      uses
    · split at ht
      · cases ht
        refine Names.intro (linear1_code mode hm ..) ?_
        have := linear1_cell mode h w .h act htt
        uses
      · split at ht
        · cases ht
          refine Names.intro (linear2_code mode hm ..) ?_
          have := linear2_cell mode h w act src htt hi
          uses
        · cases ht

theorem cubic_names {a : SNum K} {mode : CoordMode} {C size idx : Nat} {h w : RAxis K} {ext : SNum K} {act : CAct K} {src : Ref} {road : Nat} {f : K → K} {text : List Char}
    {hash : Hash K} (ht : cubicText a mode C size idx h w ext act src road = some (text, hash)) (hc : (cubicCode a.val mode C size h w f src.buf road).isSome = true)
    {P : Bool × Ident → Prop} (hi : P (true, src.ident)) (ho : P (true, outId road)) (htt : P (true, tempId)) :
    Names text hash P := by
  by_cases hm : mode = .tfCropAndResize
  · subst hm
    unfold cubicCode cubic1Code cubic2Code at hc
    simp [compiles1, compiles2] at hc
  · unfold cubicText at ht
    split at ht
    · cases ht
      refine Names.intro (cubic1_code a mode hm ..) ?_
      have := cubic1_cell mode h w .w act src htt hi
      uses
    · split at ht
      · cases ht
        refine Names.intro (cubic1_code a mode hm ..) ?_
        have := cubic1_cell mode h w .h act src htt hi
        uses
      · split at ht
        · cases ht
          refine Names.intro (cubic2_code a mode hm ..) ?_
          have := cubic2_cell mode h w act src htt hi
          uses
        · cases ht

theorem opsE_uses {P : Bool × Ident → Prop} (op : BOp) (l : List (Expr K)) (e : Expr K) (he : Within e.arrays P) (hl : ∀ x ∈ l, Within x.arrays P) :
    Within (opsE op e l).arrays P := by
  induction l generalizing e with
  | nil => exact he
  | cons x l ih => exact ih _ (uses_bin he (hl x (by simp))) fun y hy => hl y (by simp [hy])

theorem bc_names {P : Bool × Ident → Prop} (op : BOp) (C H W size idx : Nat) (act : CAct K) (o : ROp) (os : List ROp) (cst : Option CDim) (road : Nat)
    (ht : P (true, tempId)) (ho : P (true, outId road)) (hs : ∀ x ∈ o :: os, P (true, x.src.ident))
    (hc : cst.isSome = true → P (false, parId (chars! "constant_" ++ bcName op) idx)) :
    Names Tpl.broadcast (bcHash op C H W size idx act o os cst road) P := by
  refine Names.intro (bc_code ..) ?_
  have h1 : P (true, o.src.ident) := hs o (by simp)
  have h2 : ∀ x ∈ os, P (true, x.src.ident) := fun x hx => hs x (by simp [hx])
  have h3 : ∀ x ∈ os.map (readE (K := K)), Within x.arrays P := by
    intro x hx
    obtain ⟨y, hy, rfl⟩ := List.mem_map.1 hx
    have := h2 y hy
    uses
  have h4 : Within (readE (K := K) o).arrays P := by uses
  have h5 : ∀ x ∈ os.map (readE (K := K)) ++ cst.toList.map (cstE op idx), Within x.arrays P := by
    intro x hx
    rcases List.mem_append.1 hx with hx | hx
    · exact h3 x hx
    · obtain ⟨y, hy, rfl⟩ := List.mem_map.1 hx
      have := hc (by cases cst with | none => cases hy | some _ => rfl)
      cases op <;> uses
  have key : Within (bcCell (K := K) op H W idx o os cst).arrays P := by
    cases op with
    | max =>
      refine seqs_uses _ fun s hs => ?_
      rcases List.mem_cons.1 hs with rfl | hs
      · uses
      · obtain ⟨y, hy, rfl⟩ := List.mem_map.1 hs
        have := h2 y hy
        uses
    | min =>
      refine seqs_uses _ fun s hs => ?_
      rcases List.mem_cons.1 hs with rfl | hs
      · uses
      · obtain ⟨y, hy, rfl⟩ := List.mem_map.1 hs
        have := h2 y hy
        uses
    | avg =>
      have := opsE_uses .avg _ _ h4 h3
      uses
    | add => have := opsE_uses .add _ _ h4 h5; uses
    | sub => have := opsE_uses .sub _ _ h4 h5; uses
    | mul => have := opsE_uses .mul _ _ h4 h5; uses
    | div => have := opsE_uses .div _ _ h4 h5; uses
  uses

theorem withInf_mem (a : Np.Axis) (l : List ROp) (n : Nat) : ∀ x ∈ withInf a l n, x.1 ∈ l := by
  induction l generalizing n with
  | nil => intro x hx; cases hx
  | cons o l ih =>
    intro x hx
    rcases List.mem_cons.1 hx with rfl | hx
    · simp
    · exact List.mem_cons_of_mem _ (ih _ x hx)

theorem concat_names {P : Bool × Ident → Prop} (a : Np.Axis) (C H W size idx : Nat) (act : CAct K) (prev : List ROp) (road : Nat)
    (ht : P (true, tempId)) (ho : P (true, outId road)) (hs : ∀ x ∈ prev, P (true, x.src.ident)) :
    Names Tpl.concatenate (concatHash a C H W size idx act prev road) P := by
  refine Names.intro (concat_code ..) ?_
  have key : Within (seqs ((withInf a prev 0).map (concatOneS (K := K) a H W))).arrays P := by
    refine seqs_uses _ fun s hs' => ?_
    obtain ⟨y, hy, rfl⟩ := List.mem_map.1 hs'
    have := hs _ (withInf_mem a prev 0 y hy)
    cases a <;> uses
  uses

theorem reduce_names {P : Bool × Ident → Prop} (fn : RFunc) (c : RedP) (size idx : Nat) (act : CAct K) (src : Ref) (road : Nat)
    (ht : P (true, tempId)) (ho : P (true, outId road)) (hs : P (true, src.ident)) :
    Names Tpl.reduce (reduceHash fn c size idx act src road) P := by
  refine Names.intro (reduce_code ..) ?_
  unfold reduceAst
  generalize decide (1 ∈ c.axes) = a
  generalize decide (2 ∈ c.axes) = b
  generalize decide (3 ∈ c.axes) = d
  generalize c.noop = e
  cases fn <;> cases a <;> cases b <;> cases d <;> cases e <;> uses

/-- The text of a layer for which the model has a program names only the arrays of its operands, its output, the scratch
array and its own parameters and indices. -/
theorem Emits.names {L : Lib K} {fmt : DataFormat} {idx road : Nat} {op : Op K} {srcs : List Ref} {text : List Char} {hash : Hash K}
    (h : Emits L fmt idx road op srcs text hash) (hc : (op.code L.cmath fmt idx road (srcs.map Ref.buf)).isSome = true) :
    Names text hash (Allowed idx road op srcs) := by
  cases h with
  | input r s =>
    unfold inputHash
    split
    · split
      · names (inputLast_code ..)
      · split
        · names (inputFirst_code ..)
        · names (inputKeep_code ..)
    · names (inputFlat_code ..)
  | constant v =>
    cases v.data.length with
    | zero => names (constantZero_code ..)
    | succ n => names (constantSucc_code n idx road)
  | dense => names (dense_code ..)
  | activation => names (activation_code ..)
  | flatten s src =>
    cases fmt with
    | first => names flattenFirst_code
    | last => names (flattenLast_code ..)
  | matmul => names (matmul_code ..)
  | gemmNN m n k alpha beta w c al be act src ha hb => cases al <;> cases be <;> names (gemmNN_code ..)
  | gemmNT m n k alpha beta w c al be act src ha hb => cases al <;> cases be <;> names (gemmNT_code ..)
  | gemmTN m n k alpha beta w c al be act src ha hb => cases al <;> cases be <;> names (gemmTN_code ..)
  | gemmTT m n k alpha beta w c al be act src ha hb => cases al <;> cases be <;> names (gemmTT_code ..)
  | conv6 => names (conv6_code ..)
  | stdGemm c wt b act src =>
    cases src with
    | out n => names (stdGemmOut_code ..)
    | cst n => names (stdGemmCst_code ..)
  | maxPool => names (maxPool_code ..)
  | avgPool c act src => cases act <;> names (avgPool_code ..)
  | broadcast op o s ss cst act src srcs =>
    refine bc_names _ _ _ _ _ _ _ _ _ _ _ .temp .out ?_ ?_
    · intro x hx
      rcases List.mem_cons.1 hx with rfl | hx
      · exact .src src (by simp)
      · obtain ⟨y, hy, rfl⟩ := List.mem_map.1 hx
        exact .src y.1 (by simp [(List.of_mem_zip hy).1])
    · intro hs
      cases cst with
      | none => cases hs
      | some c => exact .par _ _ (List.mem_cons_self ..)
  | concat a ins act =>
    refine concat_names _ _ _ _ _ _ _ _ _ .temp .out ?_
    intro x hx
    obtain ⟨y, hy, rfl⟩ := List.mem_map.1 hx
    exact .src y.1 (List.of_mem_zip hy).1
  | gather a s d l act src =>
    cases a with
    | c => names (gatherC_code l.length s.W s.H (gatherShape .c s l.length).C (gatherShape .c s l.length).H (gatherShape .c s l.length).W (gatherShape .c s l.length).size idx act src road)
    | h => names (gatherH_code l.length s.W s.H (gatherShape .h s l.length).C (gatherShape .h s l.length).H (gatherShape .h s l.length).W (gatherShape .h s l.length).size idx act src road)
    | w => names (gatherW_code l.length s.W s.H (gatherShape .w s l.length).C (gatherShape .w s l.length).H (gatherShape .w s l.length).W (gatherShape .w s l.length).size idx act src road)
  | gatherElements a s o l act src =>
    cases a with
    | c => names (gatherElementsC_code ..)
    | h => names (gatherElementsH_code ..)
    | w => names (gatherElementsW_code ..)
  | tile => names (tile_code ..)
  | transpose s p => cases p <;> names (transpose_code ..)
  | constantPad => names (constantPad_code ..)
  | edgePad => names (edgePad_code ..)
  | reflectPad => names (reflectPad_code ..)
  | wrapPad => names (wrapPad_code ..)
  | softmax1 => names (softmax1_code ..)
  | softmax3 s a act src h1 =>
    cases a with
    | c => names (softmax3C_code ..)
    | h => names (softmax3H_code ..)
    | w => names (softmax3W_code ..)
  | batchNorm => names (batchNorm_code ..)
  | reduce => exact reduce_names _ _ _ _ _ _ _ .temp .out (.src _ (by simp))
  | nearest n mode e C h w act src =>
    have hc' : (nearestCode mode n C (C * h.outLen * w.outLen) h w (act.fn (std L)) src.buf road).isSome = true := hc
    have hm : mode ≠ .tfCropAndResize := by
      rintro rfl
      simp [nearestCode, compiles2] at hc'
    refine Names.intro (nearest_code mode hm ..) ?_
    have := nearest_cell (P := Allowed idx road (Op.resize (.nearest n) mode e.val C h w (act.fn (std L))) [src]) mode n h w act src .temp (.src _ (by simp))
    uses
  | linear mode e C h w act src text hash ht => exact linear_names ht hc (.src _ (by simp)) .out .temp
  | cubic a mode e C h w act src text hash ht => exact cubic_names ht hc (.src _ (by simp)) .out .temp

end

end Verif.CText

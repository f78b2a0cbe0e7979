import Verif.CText.Emits

/-!
# The texts of the layers and the declarations in them
-/

namespace Verif.CText
open Prog Layers Net
set_option linter.unusedVariables false
set_option linter.unusedSectionVars false
variable {K : Type} [Field K] [LinearOrder K] [FloorRing K] [IsStrictOrderedRing K]

/-- the text is C, and declares nothing outside inner blocks -/
def Clean (text : List Char) (h : Hash K) : Prop := ∃ s, code text h = some s ∧ noRedecl s = true ∧ decls s = []

theorem Clean.of_isC {text : List Char} {h : Hash K} (hc : IsC text h) {s : Stmt K} (hs : code text h = some s) (hd : decls s = []) : Clean text h := by
  obtain ⟨s', h1, h2⟩ := hc
  rw [hs, Option.some.injEq] at h1
  subst h1
  exact ⟨s, hs, h2, hd⟩

theorem Clean.intro {text : List Char} {h : Hash K} {s : Stmt K} (hs : code text h = some s) (h1 : noRedecl s = true) (h2 : decls s = []) : Clean text h := ⟨s, hs, h1, h2⟩

macro "clean" t:term : tactic => `(tactic| (refine Clean.intro $t ?_ ?_ <;> kernel_rfl))

theorem output_clean (fmt gen : DataFormat) (rank4 : Bool) (C H W size path : Nat) : Clean (K := K) Tpl.output (outputHash fmt gen rank4 C H W size path) := by
  unfold outputHash
  split
  · split
    · clean (outputLast_code ..)
    · split
      · clean (outputFirst_code ..)
      · clean (outputKeep_code ..)
  · clean (outputFlat_code ..)

theorem linear_clean {mode : CoordMode} {C size idx : Nat} {h w : RAxis K} {ext : SNum K} {act : CAct K} {src : Ref} {road : Nat} {f : K → K} {text : List Char}
    {hash : Hash K} (ht : linearText mode C size idx h w ext act src road = some (text, hash)) (hc : (linearCode mode C size h w f src.buf road).isSome = true) :
    Clean text hash := by
  by_cases hm : mode = .tfCropAndResize
  · subst hm
    unfold linearCode linear1Code linear2Code at hc
    simp [compiles1, compiles2] at hc
  · unfold linearText at ht
    unfold linearCode at hc
    split at ht
    · rename_i h1
      rw [if_pos h1] at hc
      cases ht
      exact Clean.of_isC ((linear1_isC_iff mode C size idx h w .w ext act src road f).2 hc) (linear1_code mode hm ..) (by
        unfold linear1Ast; rw [decls_flat]; rfl)
    · rename_i h1
      rw [if_neg h1] at hc
      split at ht
      · rename_i h2
        rw [if_pos h2] at hc
        cases ht
        exact Clean.of_isC ((linear1_isC_iff mode C size idx h w .h ext act src road f).2 hc) (linear1_code mode hm ..) (by
          unfold linear1Ast; rw [decls_flat]; rfl)
      · rename_i h2
        rw [if_neg h2] at hc
        split at ht
        · rename_i h3
          rw [if_pos h3] at hc
          cases ht
          exact Clean.of_isC ((linear2_isC_iff mode C size idx h w ext act src road f).2 hc) (linear2_code mode hm ..) rfl
        · cases ht

theorem cubic_clean {a : SNum K} {mode : CoordMode} {C size idx : Nat} {h w : RAxis K} {ext : SNum K} {act : CAct K} {src : Ref} {road : Nat} {f : K → K} {text : List Char}
    {hash : Hash K} (ht : cubicText a mode C size idx h w ext act src road = some (text, hash)) (hc : (cubicCode a.val mode C size h w f src.buf road).isSome = true) :
    Clean text hash := by
  by_cases hm : mode = .tfCropAndResize
  · subst hm
    unfold cubicCode cubic1Code cubic2Code at hc
    simp [compiles1, compiles2] at hc
  · unfold cubicText at ht
    unfold cubicCode at hc
    split at ht
    · rename_i h1
      rw [if_pos h1] at hc
      cases ht
      exact Clean.of_isC ((cubic1_isC_iff a mode C size idx h w .w ext act src road f).2 hc) (cubic1_code a mode hm ..) rfl
    · rename_i h1
      rw [if_neg h1] at hc
      split at ht
      · rename_i h2
        rw [if_pos h2] at hc
        cases ht
        exact Clean.of_isC ((cubic1_isC_iff a mode C size idx h w .h ext act src road f).2 hc) (cubic1_code a mode hm ..) rfl
      · rename_i h2
        rw [if_neg h2] at hc
        split at ht
        · rename_i h3
          rw [if_pos h3] at hc
          cases ht
          exact Clean.of_isC ((cubic2_isC_iff a mode C size idx h w ext act src road f).2 hc) (cubic2_code a mode hm ..) rfl
        · cases ht

theorem bc_clean (op : BOp) (C H W size idx : Nat) (act : CAct K) (o : ROp) (os : List ROp) (cst : Option CDim) (road : Nat) :
    Clean Tpl.broadcast (bcHash op C H W size idx act o os cst road) := by
  have hd : decls (bcCell (K := K) op H W idx o os cst) = [] := by
    cases op <;> simp only [bcCell, decls_flat, List.flatMap_cons, List.flatMap_map] <;> simp [setCell, decls]
  have hn : noRedecl (bcCell (K := K) op H W idx o os cst) = true := by
    cases op <;> simp only [bcCell, noRedecl_seqs, List.all_cons, List.all_map] <;> simp [setCell, noRedecl]
  refine Clean.intro (bc_code ..) ?_ rfl
  simp [bcAst, loop, noRedecl, hd, hn, decls]

theorem concat_clean (a : Np.Axis) (C H W size idx : Nat) (act : CAct K) (prev : List ROp) (road : Nat) :
    Clean Tpl.concatenate (concatHash a C H W size idx act prev road) := by
  have hd : decls (seqs ((withInf a prev 0).map (concatOneS (K := K) a H W))) = [] := by
    rw [decls_flat, List.flatMap_map]; simp [concatOneS, decls]
  have hn : noRedecl (seqs ((withInf a prev 0).map (concatOneS (K := K) a H W))) = true := by
    rw [noRedecl_seqs, List.all_map]; simp [concatOneS, noRedecl]
  refine Clean.intro (concat_code ..) ?_ rfl
  simp [concatAst, loop, noRedecl, hd, hn, decls]

theorem reduce_clean (fn : RFunc) (c : RedP) (size idx : Nat) (act : CAct K) (src : Ref) (road : Nat) :
    Clean Tpl.reduce (reduceHash fn c size idx act src road) := by
  have key : noRedecl (reduceAst fn c size act src road) = true ∧ decls (reduceAst fn c size act src road) = [] := by
    unfold reduceAst
    generalize decide (1 ∈ c.axes) = a
    generalize decide (2 ∈ c.axes) = b
    generalize decide (3 ∈ c.axes) = d
    generalize c.noop = e
    cases fn <;> cases a <;> cases b <;> cases d <;> cases e <;> constructor <;> kernel_rfl
  exact Clean.intro (reduce_code ..) key.1 key.2

/-- The text of a layer for which the model has a program is C, and declares nothing outside inner blocks. -/
theorem Emits.clean {L : Lib K} {fmt : DataFormat} {idx road : Nat} {op : Op K} {srcs : List Ref} {text : List Char} {hash : Hash K}
    (h : Emits L fmt idx road op srcs text hash) (hc : (op.code L.cmath fmt idx road (srcs.map Ref.buf)).isSome = true) : Clean text hash := by
  cases h with
  | input r s =>
    unfold inputHash
    split
    · split
      · clean (inputLast_code ..)
      · split
        · clean (inputFirst_code ..)
        · clean (inputKeep_code ..)
    · clean (inputFlat_code ..)
  | constant v =>
    cases v.data.length with
    | zero => clean (constantZero_code ..)
    | succ n => clean (constantSucc_code n idx road)
  | dense => clean (dense_code ..)
  | activation => clean (activation_code ..)
  | flatten s src =>
    cases fmt with
    | first => clean flattenFirst_code
    | last => clean (flattenLast_code ..)
  | matmul => clean (matmul_code ..)
  | gemmNN => clean (gemmNN_code ..)
  | gemmNT => clean (gemmNT_code ..)
  | gemmTN => clean (gemmTN_code ..)
  | gemmTT => clean (gemmTT_code ..)
  | conv6 => clean (conv6_code ..)
  | stdGemm c wt b act src =>
    cases src with
    | out n => clean (stdGemmOut_code ..)
    | cst n => clean (stdGemmCst_code ..)
  | maxPool => clean (maxPool_code ..)
  | avgPool => clean (avgPool_code ..)
  | broadcast => exact bc_clean ..
  | concat => exact concat_clean ..
  | gather a s d l act src =>
    cases a with
    | c => clean (gatherC_code l.length s.W s.H (gatherShape .c s l.length).C (gatherShape .c s l.length).H (gatherShape .c s l.length).W (gatherShape .c s l.length).size idx act src road)
    | h => clean (gatherH_code l.length s.W s.H (gatherShape .h s l.length).C (gatherShape .h s l.length).H (gatherShape .h s l.length).W (gatherShape .h s l.length).size idx act src road)
    | w => clean (gatherW_code l.length s.W s.H (gatherShape .w s l.length).C (gatherShape .w s l.length).H (gatherShape .w s l.length).W (gatherShape .w s l.length).size idx act src road)
  | gatherElements a s o l act src =>
    cases a with
    | c => clean (gatherElementsC_code ..)
    | h => clean (gatherElementsH_code ..)
    | w => clean (gatherElementsW_code ..)
  | tile => clean (tile_code ..)
  | transpose => clean (transpose_code ..)
  | constantPad => clean (constantPad_code ..)
  | edgePad => clean (edgePad_code ..)
  | reflectPad => clean (reflectPad_code ..)
  | wrapPad => clean (wrapPad_code ..)
  | softmax1 => clean (softmax1_code ..)
  | softmax3 s a act src h1 =>
    cases a with
    | c => clean (softmax3C_code ..)
    | h => clean (softmax3H_code ..)
    | w => clean (softmax3W_code ..)
  | batchNorm => clean (batchNorm_code ..)
  | reduce => exact reduce_clean ..
  | nearest n mode e C h w act src =>
    have hc' : (nearestCode mode n C (C * h.outLen * w.outLen) h w (act.fn (std L)) src.buf road).isSome = true := hc
    have hm : mode ≠ .tfCropAndResize := by
      rintro rfl
      simp [nearestCode, compiles2] at hc'
    exact Clean.of_isC ((nearest_isC_iff mode n C _ idx h w e act src road _).2 hc') (nearest_code mode hm ..) rfl
  | linear mode e C h w act src text hash ht => exact linear_clean ht hc
  | cubic a mode e C h w act src text hash ht => exact cubic_clean ht hc

end Verif.CText

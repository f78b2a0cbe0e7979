import Verif.CText.ConvTemplates
import Verif.CText.Unique
import Verif.CText.StdGemm
import Verif.CText.Tac

/-!
# C74: the convolution by a transposed gemm

`std_gemm_nt`, `std_gemm_tn` and `std_gemm_tt` are versions of a convolution that the generator accepts
(`Conv2DStdGemm.py` 155-158).  Their texts name `output_<path>` without `ctx->`: no file declares it.
-/

namespace Verif.CText
open Prog Layers Net
set_option linter.unusedVariables false
set_option linter.unusedSectionVars false
variable {K : Type} [Field K] [LinearOrder K] [FloorRing K]

/-- the versions `std_gemm_nt`, `std_gemm_tn`, `std_gemm_tt` -/
inductive GemmForm | nt | tn | tt

/-- the local variable given to the activation function: `output`, or `sum` (`Conv2DGemm.py` 105, 140, 175) -/
def GemmForm.var : GemmForm → Ident
  | .nt | .tn => (.output, none)
  | .tt => (.sum, none)

/-- `algo_gemm_mapping` (`Conv2DGemm.py` 39-42): the template -/
def GemmForm.text : GemmForm → List Char
  | .nt => Tpl.conv_gemm_nt
  | .tn => Tpl.conv_gemm_tn
  | .tt => Tpl.conv_gemm_tt

/-- `algo_patch_building_mapping` (`Conv2DStdGemm.py` 38-41): the template -/
def GemmForm.patches : GemmForm → List Char
  | .nt | .tt => Tpl.im2row
  | .tn => Tpl.im2col

/-- `write_gemm_nt`, `write_gemm_tn`, `write_gemm_tt` (`Conv2DGemm.py` 80-183) called with `weights_..`, `output_{path}`,
`tensor_temp`, `False` (`Conv2DStdGemm.py` 111-118) -/
def convFormHash (g : GemmForm) (m n k idx : Nat) (act : CAct K) (road : Nat) : Hash K :=
  [(chars! "direct", .bool false), (chars! "name", .word (chars! "Conv2D")), (chars! "idx", .num2 idx),
   (chars! "m", .num m), (chars! "n", .num n), (chars! "k", .num k),
   (chars! "A", .toks [.id (.other (chars! "weights_Conv2D"), some ⟨decide (idx < 10), idx⟩)]), (chars! "ldA", .num k),
   (chars! "B", .toks [.id (.output, some ⟨false, road⟩)]), (chars! "ldB", .num n),
   (chars! "C", .toks [.id (.tensor_temp, none)]), (chars! "ldC", .num n),
   (chars! "activation_function", act.text [.id g.var])]

/-- what `Conv2DStdGemm.py` 101-127 passes to the template; `write_im2row` (72-99) passes what `write_im2col` does -/
def stdFormHash (g : GemmForm) (c : ConvP) (size idx : Nat) (act : CAct K) (src : Ref) (road : Nat) : Hash K :=
  match src with
  | .out _ =>
    [(chars! "name", .word (chars! "Conv2D")), (chars! "idx", .num2 idx), (chars! "size", .num size),
     (chars! "road", .num road),
     (chars! "patch_building_code", .toks (rendered g.patches (im2colHash c (.toks [.id (.tensor_temp, none)]) road))),
     (chars! "patches_size", .num (c.filters * (c.outH * c.outW))),
     (chars! "gemm_code", .toks (rendered g.text (convFormHash g c.filters (c.outH * c.outW) (c.inC * c.kh * c.kw) idx act road))),
     (chars! "cst", .bool true), (chars! "input_size", .num (c.inC * c.inH * c.inW))]
  | .cst n =>
    [(chars! "name", .word (chars! "Conv2D")), (chars! "idx", .num2 idx), (chars! "size", .num size),
     (chars! "road", .num road),
     (chars! "patch_building_code", .toks (rendered g.patches (im2colHash c (.ref (chars! "cst") n) road))),
     (chars! "patches_size", .num (c.filters * (c.outH * c.outW))),
     (chars! "gemm_code", .toks (rendered g.text (convFormHash g c.filters (c.outH * c.outW) (c.inC * c.kh * c.kw) idx act road)))]

/-- the arrays that the text of the gemm names, in the order of the text -/
def GemmForm.arrays (g : GemmForm) (idx road : Nat) : List (Bool × Ident) :=
  let A : Bool × Ident := (false, (.other (chars! "weights_Conv2D"), some ⟨decide (idx < 10), idx⟩))
  let B : Bool × Ident := (false, outId road)
  let bias : Bool × Ident := (false, (.other (chars! "biases_Conv2D"), some ⟨decide (idx < 10), idx⟩))
  match g with
  | .nt => [A, B, bias, (true, tempId)]
  | .tn => [A, (true, tempId), B, (true, tempId), bias, (true, tempId)]
  | .tt => [A, B, bias, (false, tempId)]

/-- the arrays that the text of the layer names -/
def formArrays (g : GemmForm) (idx : Nat) (src : Ref) (road : Nat) : List (Bool × Ident) :=
  match src with
  | .out _ => (true, tempId) :: (true, outId road) :: (true, outId road) :: (true, tempId) :: (true, outId road) :: (true, tempId) :: (g.arrays idx road ++ [(true, outId road), (true, tempId)])
  | .cst n => (true, outId road) :: (true, cstId n) :: (true, outId road) :: (true, tempId) :: (g.arrays idx road ++ [(true, outId road), (true, tempId)])

theorem convForm_arrays (g : GemmForm) (c : ConvP) (size idx : Nat) (act : CAct K) (src : Ref) (road : Nat) :
    (code Tpl.conv_std_gemm (stdFormHash g c size idx act src road)).map Stmt.arrays = some (formArrays g idx src road) := by
  rcases g with _ | _ | _ <;> rcases src with n | n <;>
    rcases act with _ | _ | _ | ⟨_ | _, _⟩ | _ | _ | _ | _ | ⟨⟨_ | _, _⟩, ⟨_ | _, _⟩⟩ <;>
    kernel_rfl

/-- no file of a network declares `output_<k>`, except as a field of the context -/
theorem out_not_bound (net : Network K) (plan : Graph.Plan) {th : List (CTok K)} (hth : headerText net plan = some th) {fields externs : List Field'}
    (hh : IsHeader th fields externs) (k : Nat) :
    ¬ Bound fields externs (localDcls net plan) (false, outId k) ∧ outId k ∉ (localDcls net plan).map Dcl.name := by
  unfold headerText at hth
  obtain ⟨csts, hw, hth⟩ := Option.bind_eq_some_iff.mp hth
  obtain ⟨ts, h1, h2⟩ := header_inst (plan.order.map fun n => (net.op n).info n) plan.maxPath csts net.op plan.order
  rw [hth, Option.some.injEq] at h1
  subst h1
  obtain ⟨rfl, rfl⟩ := C62_header_unique hh h2
  have hpar : ∀ (n : Nat) (op : Op K), ∀ p ∈ parArrays n op, ∃ cs s, p.1 = (.other cs, s) := by
    intro n op p hp
    unfold parArrays at hp
    split at hp <;> simp only [List.mem_cons, List.not_mem_nil, or_false] at hp
    all_goals (try (rcases hp with rfl | rfl | rfl | rfl)) <;> (try (rcases hp with rfl | rfl)) <;> (try subst hp) <;> (try exact ⟨_, _, rfl⟩)
    all_goals contradiction
  have hname : ∀ d ∈ localDcls net plan, d.name ≠ outId k := by
    have ite : ∀ (b : Bool) (l : List Dcl), (∀ d ∈ l, d.name ≠ outId k) → ∀ d ∈ (if b then l else []), d.name ≠ outId k := by
      intro b l h; cases b <;> simpa using h
    unfold localDcls flagDcls
    refine List.forall_mem_append.2 ⟨?_, ?_⟩
    · simp [Dcl.name, outId, nm]
    iterate 9
      refine List.forall_mem_append.2 ⟨ite _ _ ?_, ?_⟩
      · simp [Dcl.name, outId, nm]
    refine List.forall_mem_append.2 ⟨ite _ _ ?_, ite _ _ ?_⟩
    · refine List.forall_mem_cons.2 ⟨by simp [Dcl.name, outId, nm], fun d hd => ?_⟩
      obtain ⟨x, _, rfl⟩ := List.mem_map.1 hd
      simp [Dcl.name, outId, indices]
    · simp [Dcl.name, outId, nm]
  refine ⟨fun hb => ?_, fun hm => ?_⟩
  · generalize hx : (false, outId k) = x at hb
    cases hb with
    | field f hf => simp at hx
    | extern f hf =>
      obtain ⟨p, hp, rfl⟩ := List.mem_map.1 hf
      obtain ⟨n, _, hp⟩ := List.mem_flatMap.1 (List.mem_filter.1 hp).1
      obtain ⟨cs, s, e⟩ := hpar _ _ p hp
      simp only [arrDecl, e, Prod.mk.injEq, outId] at hx
      simp at hx
    | input => simp [outId] at hx
    | pred => simp [outId] at hx
    | ints x l hd =>
      simp only [Prod.mk.injEq, true_and] at hx
      exact hname _ hd hx.symm
  · obtain ⟨d, hd, e⟩ := List.mem_map.1 hm
    exact hname d hd e

/-- **C74.**  A convolution generated as `std_gemm_nt`, `std_gemm_tn` or `std_gemm_tt`, whatever its parameters, its activation
function, its producer and its path: its text, a C statement once instantiated, names the array `output_<path>`, which is not a
field access; the files generated for any network declare no such array, neither outside of the function nor in it. -/
theorem C74_transposed_gemm_undeclared (g : GemmForm) (c : ConvP) (size idx : Nat) (act : CAct K) (src : Ref) (road : Nat) :
    ∃ s, code Tpl.conv_std_gemm (stdFormHash g c size idx act src road) = some s ∧ (false, outId road) ∈ s.arrays ∧
      ∀ (net : Network K) (plan : Graph.Plan) (th : List (CTok K)) (fields externs : List Field'), headerText net plan = some th →
        IsHeader th fields externs → ¬ Within s.arrays (Bound fields externs (localDcls net plan)) := by
  have h := convForm_arrays g c size idx act src road
  obtain ⟨s, hs, ha⟩ := Option.map_eq_some_iff.mp h
  have hm : (false, outId road) ∈ s.arrays := by
    rw [ha]
    cases src <;> cases g <;> simp [formArrays, GemmForm.arrays]
  exact ⟨s, hs, hm, fun net plan th fields externs hth hh hw => (out_not_bound net plan hth hh road).1 (hw _ hm)⟩

/-- the arrays that the text of `std_gemm_nn` names -/
def nnArrays (idx : Nat) (src : Ref) (road : Nat) : List (Bool × Ident) :=
  let g : List (Bool × Ident) := [(false, (.other (chars! "weights_Conv2D"), some ⟨decide (idx < 10), idx⟩)), (true, tempId), (true, outId road), (true, tempId),
    (false, (.other (chars! "biases_Conv2D"), some ⟨decide (idx < 10), idx⟩)), (true, tempId), (true, outId road), (true, tempId)]
  match src with
  | .out _ => (true, tempId) :: (true, outId road) :: (true, outId road) :: (true, tempId) :: (true, outId road) :: (true, tempId) :: g
  | .cst n => (true, outId road) :: (true, cstId n) :: (true, outId road) :: (true, tempId) :: g

/-- The form `std_gemm_tt` also writes to `tensor_temp`, which is not a field access either; the form `std_gemm_nn`, with the same
parameters, names `ctx->output_<path>` only. -/
theorem C74_tt_result_undeclared (c : ConvP) (size idx : Nat) (act : CAct K) (src : Ref) (road : Nat) :
    (∃ s, code Tpl.conv_std_gemm (stdFormHash .tt c size idx act src road) = some s ∧ (false, tempId) ∈ s.arrays) ∧
    ∃ s, code Tpl.conv_std_gemm (stdGemmHash c size idx act src road) = some s ∧ ∀ k, (false, outId k) ∉ s.arrays := by
  constructor
  · obtain ⟨s, hs, ha⟩ := Option.map_eq_some_iff.mp (convForm_arrays .tt c size idx act src road)
    refine ⟨s, hs, ?_⟩
    rw [ha]
    cases src <;> simp [formArrays, GemmForm.arrays]
  · have key : (code Tpl.conv_std_gemm (stdGemmHash c size idx act src road)).map Stmt.arrays = some (nnArrays idx src road) := by
      rcases src with n | n <;>
        rcases act with _ | _ | _ | ⟨_ | _, _⟩ | _ | _ | _ | _ | ⟨⟨_ | _, _⟩, ⟨_ | _, _⟩⟩ <;>
        kernel_rfl
    obtain ⟨s, hs, ha⟩ := Option.map_eq_some_iff.mp key
    refine ⟨s, hs, fun k => ?_⟩
    rw [ha]
    cases src <;> simp [nnArrays, outId, tempId]

end Verif.CText

import Verif.CText.NormalizeText
import Verif.CText.Source
import Verif.CText.Transfer
import Verif.Net.RefLength

/-!
# `inference.c` of a normalised network

`generate_function_source_file` (`generator/neural_network.py` 952-954) puts the texts of `Normalizer` before the layers and
after the copy to `prediction`.  With C46 and C55: the generated function leaves in `prediction` the de-normalised prediction
of the reference on the normalised input.
-/

namespace Verif.CText
open Prog Layers Net Gen
set_option linter.unusedVariables false
set_option linter.unusedSectionVars false
variable {K : Type} [Field K]

/-! ## The text -/

/-- `mustach_hash` with the keys of 952-954 -/
def sourceHashN (nOut nIn : Nat) (fl : SrcFlags) (inds : List (Nat × List Nat)) (ls : List (SrcLayer K)) (out pre post : List (CTok K)) : Hash K :=
  sourceHash nOut nIn fl inds ls out ++ [(chars! "pre_processing", .toks pre), (chars! "post_processing", .toks post)]

section
variable (nOut nIn : Nat) (fl : SrcFlags) (inds : List (Nat × List Nat)) (ls : List (SrcLayer K)) (out pre post : List (CTok K))

theorem srcN_head : inst srcHead (sourceHashN nOut nIn fl inds ls out pre post) =
    some (headerT nOut nIn ++ ([.int (nm .f), .int (nm .i), .int (nm .j), .int (nm .k)] : List Dcl).flatMap Dcl.toks) := by kernel_rfl

theorem srcN_tail : inst srcTail (sourceHashN nOut nIn fl inds ls out pre post) = some (out ++ (post ++ returnT)) := by kernel_rfl

theorem srcN_raw : inst [.raw (chars! "pre_processing")] (sourceHashN nOut nIn fl inds ls out pre post) = some pre := by
  show some (pre ++ []) = some pre
  rw [List.append_nil]

theorem srcN_layer (l : SrcLayer K) : inst (srcSec 48) (layerItem l ++ sourceHashN nOut nIn fl inds ls out pre post) = some (layerT l) := by
  obtain ⟨ts, p, s, c⟩ := l
  cases c <;> kernel_rfl

theorem srcN_index (x : Nat × List Nat) : inst srcInd (indexItem x ++ sourceHashN nOut nIn fl inds ls out pre post) = some (Dcl.ints (indices x.1) x.2).toks := by
  obtain ⟨n, l⟩ := x
  kernel_rfl

theorem srcN_gather : inst [.sec (chars! "is_gather") (srcPos ++ [.sec (chars! "indices") srcInd])] (sourceHashN nOut nIn fl inds ls out pre post) =
    some ((if !inds.isEmpty then Dcl.int (nm .position) :: inds.map (fun x => .ints (indices x.1) x.2) else []).flatMap Dcl.toks) := by
  have h1 : inst srcPos (sourceHashN nOut nIn fl inds ls out pre post) = some ((Dcl.int (nm .position)).toks) := by kernel_rfl
  have h2 := inst_list (k := chars! "indices") (h := sourceHashN nOut nIn fl inds ls out pre post) (l := inds) (g := indexItem) (by rfl)
    (srcN_index nOut nIn fl inds ls out pre post)
  rw [inst_flag (c := !inds.isEmpty) (by rfl) (inst_append_some h1 h2)]
  cases inds with
  | nil => rfl
  | cons x inds => simp [List.flatMap_map]

/-- the text of `inference.c`: the pre-processing, the layers, the copy to `prediction`, the post-processing -/
theorem sourceN_inst : (tokens Tpl.source_file).bind (fun tt => inst tt (sourceHashN nOut nIn fl inds ls out pre post)) =
    some (headerT nOut nIn ++ ((flagDcls fl inds).flatMap Dcl.toks ++ ((pre ++ ((ls.flatMap layerT ++ out) ++ post)) ++ returnT))) := by
  rw [source_tokens, Option.bind_some]
  have f1 : inst [.sec (chars! "p") (srcSec 36)] (sourceHashN nOut nIn fl inds ls out pre post) = some (if fl.p then [Dcl.int (nm .p)].flatMap Dcl.toks else []) := inst_flag (by rfl) (by kernel_rfl)
  have f2 : inst [.sec (chars! "hw") (srcSec 37)] (sourceHashN nOut nIn fl inds ls out pre post) = some (if fl.hw then [Dcl.int (nm .h), .int (nm .w)].flatMap Dcl.toks else []) := inst_flag (by rfl) (by kernel_rfl)
  have f3 : inst [.sec (chars! "is_dense") (srcSec 38)] (sourceHashN nOut nIn fl inds ls out pre post) = some (if fl.dense then [Dcl.float (nm .dotproduct)].flatMap Dcl.toks else []) := inst_flag (by rfl) (by kernel_rfl)
  have f4 : inst [.sec (chars! "is_sum") (srcSec 39)] (sourceHashN nOut nIn fl inds ls out pre post) = some (if fl.sum then [Dcl.float (nm .sum)].flatMap Dcl.toks else []) := inst_flag (by rfl) (by kernel_rfl)
  have f5 : inst [.sec (chars! "is_max") (srcSec 40)] (sourceHashN nOut nIn fl inds ls out pre post) = some (if fl.max then [Dcl.float (nm .max)].flatMap Dcl.toks else []) := inst_flag (by rfl) (by kernel_rfl)
  have f6 : inst [.sec (chars! "is_count") (srcSec 41)] (sourceHashN nOut nIn fl inds ls out pre post) = some (if fl.count then [Dcl.int (nm .count)].flatMap Dcl.toks else []) := inst_flag (by rfl) (by kernel_rfl)
  have f7 : inst [.sec (chars! "is_resize") (srcSec 42)] (sourceHashN nOut nIn fl inds ls out pre post) = some (if fl.resize then [Dcl.float (nm .x), .float (nm .y), .int (nm .x0), .int (nm .y0)].flatMap Dcl.toks else []) := inst_flag (by rfl) (by kernel_rfl)
  have f8 : inst [.sec (chars! "is_cubic_interpolation") (srcSec 43)] (sourceHashN nOut nIn fl inds ls out pre post) = some (if fl.cubic then [Dcl.int (nm .col_index), .float (nm .a), .float (.f, some ⟨false, 1⟩), .float (nm .f0), .float (nm .f1), .float (nm .f2), .float (nm .s)].flatMap Dcl.toks else []) := inst_flag (by rfl) (by kernel_rfl)
  have f9 : inst [.sec (chars! "is_linear_interpolation") (srcSec 44)] (sourceHashN nOut nIn fl inds ls out pre post) = some (if fl.linear then [Dcl.int (nm .y1), .int (nm .x1), .float (nm .f11), .float (nm .f12), .float (nm .f21), .float (nm .f22)].flatMap Dcl.toks else []) := inst_flag (by rfl) (by kernel_rfl)
  have f10 := srcN_gather nOut nIn fl inds ls out pre post
  have f11 : inst [.sec (chars! "is_reduced") (srcSec 46)] (sourceHashN nOut nIn fl inds ls out pre post) = some (if fl.reduced then [Dcl.float (nm .reduced)].flatMap Dcl.toks else []) := inst_flag (by rfl) (by kernel_rfl)
  have fl' := inst_list (k := chars! "layers") (h := sourceHashN nOut nIn fl inds ls out pre post) (l := ls) (g := layerItem) (by rfl) (srcN_layer nOut nIn fl inds ls out pre post)
  have := inst_append_some (srcN_head nOut nIn fl inds ls out pre post) (inst_append_some f1 (inst_append_some f2 (inst_append_some f3 (inst_append_some f4 (inst_append_some f5
    (inst_append_some f6 (inst_append_some f7 (inst_append_some f8 (inst_append_some f9 (inst_append_some f10 (inst_append_some f11
    (inst_append_some (srcN_raw nOut nIn fl inds ls out pre post) (inst_append_some fl' (srcN_tail nOut nIn fl inds ls out pre post))))))))))))))
  rw [this]
  refine congrArg some ?_
  unfold flagDcls
  simp only [List.flatMap_append, flatMap_ite, List.append_assoc]

end

variable [LinearOrder K] [FloorRing K]

/-- `generate_function_source_file` (`generator/neural_network.py` 800-960) with `normalize=True` -/
def sourceTextN (t : Texts K) (N : Normalizer K) (net : Network K) (plan : Graph.Plan) : Option (List (CTok K)) :=
  match plan.order.head?, plan.order.getLast? with
  | some first, some last =>
    (tokens Tpl.source_file).bind fun tt => inst tt (sourceHashN (net.op last).size (net.op first).size (flags (plan.order.map net.op))
      (indexArrays net.op plan.order) (plan.order.map (t.layer net plan)) (outputT net plan last)
      (rendered Tpl.pre_processing (normPreHash N.inputSize)) (rendered Tpl.post_processing (normPostHash N.outputSize)))
  | _, _ => none

/-! ## The arrays -/

/-- the identifier of a constant array of the normalisation -/
def normId (cs : List Char) : Bool × Ident := (false, (.other cs, none))

/-- the arrays of the generated function of a normalised network -/
inductive NamedN (net : Network K) (plan : Graph.Plan) : Bool × Ident → Prop
  | plain (a : Bool × Ident) : Named net plan a → NamedN net plan a
  | lo : NamedN net plan (normId (chars! "input_min"))
  | hi : NamedN net plan (normId (chars! "input_max"))
  | mean : NamedN net plan (normId (chars! "input_mean"))
  | range : NamedN net plan (normId (chars! "input_range"))

theorem parArrays_suffix {n : Nat} {op : Op K} {x : Ident} {l : List K} (h : (x, l) ∈ parArrays n op) : ∃ cs, x = parId cs n := by
  unfold parArrays at h
  split at h <;> simp only [List.mem_cons, List.not_mem_nil, or_false, Prod.mk.injEq] at h
  · exact ⟨_, h.1⟩
  · rcases h with h | h <;> exact ⟨_, h.1⟩
  · rcases h with h | h <;> exact ⟨_, h.1⟩
  · rcases h with h | h <;> exact ⟨_, h.1⟩
  · exact ⟨_, h.1⟩
  · rcases h with h | h | h | h <;> exact ⟨_, h.1⟩

/-- the constants of the normalisation are not arrays of the layers -/
theorem same_named (L : Lib K) (ints : Ident → Option (List Nat)) (B : CstBufs) (net : Network K) (plan : Graph.Plan) :
    SameOn (Named net plan) (stdCst L ints B) (std L ints) := by
  refine ⟨?_, rfl, rfl, rfl, rfl, rfl⟩
  intro a ha
  cases ha with
  | input => rfl
  | pred => rfl
  | out n hn => rfl
  | src n p hn hp => cases srcRef plan p <;> rfl
  | cst n k hn hk => rfl
  | temp => rfl
  | par n x l hn hx =>
    obtain ⟨cs, rfl⟩ := parArrays_suffix hx
    rfl
  | ind n l hn hl => rfl

/-- no local variable has the name of a constant of the normalisation -/
theorem localDcls_other (net : Network K) (plan : Graph.Plan) (cs : List Char) :
    ((.other cs, none) : Ident) ∉ (varsOf (localDcls net plan)).map (·.1) := by
  intro h
  obtain ⟨v, hv, e⟩ := List.mem_map.1 h
  simp only [localDcls, flagDcls, varsOf_append, varsOf_ite, List.mem_append, mem_ite_nil, varsOf, varsOf_ints, List.mem_cons, List.not_mem_nil,
    or_false] at hv
  simp only [nm] at hv
  rcases hv with (rfl | rfl | rfl | rfl) | ⟨-, rfl⟩ | ⟨-, rfl | rfl⟩ | ⟨-, rfl⟩ | ⟨-, rfl⟩ | ⟨-, rfl⟩ | ⟨-, rfl⟩ | ⟨-, rfl | rfl | rfl | rfl⟩ |
    ⟨-, rfl | rfl | rfl | rfl | rfl | rfl | rfl⟩ | ⟨-, rfl | rfl | rfl | rfl | rfl | rfl⟩ | ⟨-, rfl⟩ | ⟨-, rfl⟩ <;> cases e

/-! ## The function -/

/-- The C function with these local declarations and statements, called with this memory where the global variables
`output_range` and `output_mean` have these values and the constant arrays of the normalisation are `B`, terminates and
leaves `m'`, whatever the initial values of its local variables. -/
def RunsN (L : Lib K) (B : CstBufs) (range mean : K) (ds : List Dcl) (s : Stmt K) (m m' : Mem K) : Prop :=
  ∃ F₀, ∀ F, F₀ ≤ F → ∀ e, Declares e (varsOf ds) → e (.other (chars! "output_range"), none) = some (.flt range) →
    e (.other (chars! "output_mean"), none) = some (.flt mean) → ∃ e', s.run (stdCst L (intsOf ds) B) F e m = some (e', m')

theorem declares_of_agree' {V : List Ident} {e e' : Env K} {xs : List (Ident × Ty)} (h : Declares e xs) (ha : Agree V e' e) : Declares e' xs :=
  h.of_agree ha

/-- **C73, the text.**  The text of `inference.c` of a normalised network is a definition of the function `inference`, no block
of which declares an identifier twice, which names only the arrays of `NamedN`; where the pre-processing (`preCode`), the layers
and the copy to `prediction`
(`Network.inference`) and the post-processing (`postCode`) succeed one after the other, it terminates and leaves the same memory. -/
theorem C73_source_renders [IsStrictOrderedRing K] (t : Texts K) (L : Lib K) (N : Normalizer K) (C : NormConsts K) (net : Network K)
    (plan : Graph.Plan) (ht : t.Of L net plan) (hnd : plan.order.Nodup) (first last : Nat) (hfirst : plan.order.head? = some first)
    (hlast : plan.order.getLast? = some last) (hpos : ∀ n ∈ plan.order, (net.op n).Positive)
    (hsome : ∀ n ∈ plan.order, ((net.op n).code L.cmath net.fmt n (plan.path n) ((net.graph.prevOf n).map (Graph.outStr plan))).isSome = true)
    {B : CstBufs} (hB : B.Apart) :
    ∃ ts s, sourceTextN t N net plan = some ts ∧ IsInference ts (net.op last).size (net.op first).size (localDcls net plan) s ∧
      Declared (localDcls net plan) s ∧ Within s.arrays (NamedN net plan) ∧
      ∀ m m₁ m₂ m', HoldsCst B N.inputSize C m → preCode N.inputSize C m = some ((), m₁) → net.inference L.cmath plan m₁ = some ((), m₂) →
        postCode N.outputSize C m₂ = some ((), m') → RunsN L B C.outputRange C.outputMean (localDcls net plan) s m m' := by
  obtain ⟨s, hs, hc, hu, F₁, hd⟩ := source_body t L net plan ht hpos hsome last hlast
  obtain ⟨sa, hsa, F₀, ha⟩ := pre_renders (ints := intsOf (localDcls net plan)) L N.inputSize hB C
  obtain ⟨sb, hsb, F₂, hb⟩ := post_renders (ints := intsOf (localDcls net plan)) L N.outputSize C
  have pa : IsBody (rendered Tpl.pre_processing (normPreHash N.inputSize)) (normPreAst N.inputSize : Stmt K) := rendered_body (pre_code _)
  have pb : IsBody (rendered Tpl.post_processing (normPostHash N.outputSize)) (normPostAst N.outputSize : Stmt K) := rendered_body (post_code _)
  rw [pre_code, Option.some.injEq] at hsa
  rw [post_code, Option.some.injEq] at hsb
  subst hsa hsb
  obtain ⟨S₁, hS₁, hT₁⟩ := hs.append pb pb.startsElse
  obtain ⟨S, hS, hT⟩ := pa.append hS₁ hS₁.startsElse
  have ca : (normPreAst N.inputSize : Stmt K).Clean := ⟨rfl, rfl⟩
  have cb : (normPostAst N.outputSize : Stmt K).Clean := ⟨rfl, rfl⟩
  have cS := ca.then (hc.then cb hT₁) hT
  have ub : Within (normPostAst N.outputSize : Stmt K).arrays (Named net plan) := by
    intro a ha
    simp only [normPostAst, loop, Stmt.arrays, Expr.arrays, LVal.arrays, List.nil_append, List.append_nil, List.mem_cons,
      List.not_mem_nil, or_false, List.mem_append] at ha
    rcases ha with rfl | rfl <;> exact .pred
  have ua : Within (normPreAst N.inputSize : Stmt K).arrays (NamedN net plan) := by
    have hx : ∀ a ∈ (normPreAst N.inputSize : Stmt K).arrays, a = (false, (.nn_input, none)) ∨ a = normId (chars! "input_min") ∨
        a = normId (chars! "input_max") ∨ a = normId (chars! "input_mean") ∨ a = normId (chars! "input_range") := by
      intro a ha
      simp only [normPreAst, loop, Stmt.arrays, Expr.arrays, LVal.arrays, List.nil_append, List.append_nil, List.mem_cons,
        List.not_mem_nil, or_false, List.mem_append] at ha
      unfold normId
      tauto
    intro a ha
    rcases hx a ha with rfl | rfl | rfl | rfl | rfl
    · exact .plain _ .input
    · exact .lo
    · exact .hi
    · exact .mean
    · exact .range
  refine ⟨_, S, ?_, ⟨_, rfl, hS⟩, ⟨?_, cS.1⟩, ?_, ?_⟩
  · simp only [sourceTextN, hfirst, hlast]
    exact sourceN_inst ..
  · rw [cS.2, List.append_nil]
    exact flagDcls_nodup net.op plan.order hnd _
  · rw [hT.arrays, hT₁.arrays]
    exact within_append ua ((within_append hu ub).mono fun a => .plain a)
  · intro m m₁ m₂ m' hcst r₁ r₂ r₃
    refine ⟨F₀ + F₁ + F₂, fun F hF e he hr hm => ?_⟩
    have hint : ∀ x, x = .i ∨ x = .k → ((x, none), Ty.int) ∈ varsOf (localDcls net plan) := by
      intro x hx
      unfold localDcls flagDcls
      rw [varsOf_append]
      refine List.mem_append.2 (.inl ?_)
      rcases hx with rfl | rfl <;> simp [varsOf, nm]
    have a1 := ha e (he.int _ (hint .i (.inl rfl))) F (by omega) m hcst
    rw [r₁] at a1
    obtain ⟨e₁, g₁, q₁⟩ := a1
    have he₁ : Declares e₁ (varsOf (localDcls net plan)) := he.of_agree g₁
    obtain ⟨e₂, g₂, q₂⟩ := hd e₁ he₁ F (by omega) m₁ () m₂ r₂
    have he₂ := he₁.of_agree g₂
    have keep : ∀ cs v, e (.other cs, none) = some (.flt v) → e₂ (.other cs, none) = some (.flt v) := by
      intro cs v h
      rw [g₂.get (localDcls_other net plan cs), g₁.get (by simp)]
      exact h
    have b1 := hb e₂ (he₂.int _ (hint .k (.inr rfl))) (keep _ _ hr) (keep _ _ hm) F (by omega) m₂
    rw [r₃] at b1
    obtain ⟨e₃, g₃, q₃⟩ := b1
    refine ⟨e₃, ?_⟩
    have sN := same_named L (intsOf (localDcls net plan)) B net plan
    rw [← run_transfer sN F _ hu] at q₂
    rw [← run_transfer sN F _ ub] at q₃
    rw [hT.run]
    show Prog.andThen _ _ _ = _
    simp only [Prog.andThen, q₁]
    rw [hT₁.run]
    show Prog.andThen _ _ _ = _
    simp only [Prog.andThen, q₂]
    exact q₃

/-! ## End to end -/

/-- `compute_inference` with `normalize=True` (`generator/neural_network.py` 503-504 and 581-582), channels first -/
def normalisedReference (N : Normalizer K) (net : Network K) (M : CMath K) (plan : Graph.Plan) (x : Nd K) : Option (List K) := do
  let x' ← N.preProcessing N.inputSize x.data
  let y ← net.reference M plan ⟨x.dims, x'⟩
  N.postProcessing y

/-- **C73 (in part).**  For a channels-first network of the layers of C55 with a well-formed normaliser of its sizes:
`compute_inference` with normalisation returns a prediction; the text of `inference.c`, which contains the texts of
the normaliser, is a C function; and, called on a memory with the arrays of the header, the input, the parameters and the constants
of the normalisation, this function terminates and leaves exactly this prediction in `prediction`. -/
theorem C73_normalised_text_partial [IsStrictOrderedRing K] (t : Texts K) (L : Lib K) (N : Normalizer K) (hN : N.WellFormed) (C : NormConsts K)
    (hC : N.consts = some C) (net : Network K) (hwf : net.WF) (hfmt : net.fmt = .first) (plan : Graph.Plan)
    (h : Graph.triTopo net.graph = some plan) (ht : t.Of L net plan) (hpos : ∀ n ∈ plan.order, (net.op n).Positive)
    (hout : ∀ last, plan.order.getLast? = some last → (net.op last).size = N.outputSize) (x : Nd K) (m : Mem K)
    (hxN : x.data.length = N.inputSize) (hx : ∀ l ∈ net.graph, ∀ r s, net.op l.idx = .input r s → s.size = N.inputSize)
    (hm : net.Memory plan x.data m) {B : CstBufs} (hB : B.Apart) (hcst : HoldsCst B N.inputSize C m)
    (hin : ∀ x', N.preProcessing N.inputSize x.data = some x' → ∀ n ins, net.Receives L.cmath plan ⟨x.dims, x'⟩ n ins →
      (net.op n).InputsOK L.cmath ins) :
    ∃ z ts nOut nIn ds s m', normalisedReference N net L.cmath plan x = some z ∧ sourceTextN t N net plan = some ts ∧
      IsInference ts nOut nIn ds s ∧ Declared ds s ∧ RunsN L B C.outputRange C.outputMean ds s m m' ∧ Holds m' .pred z := by
  obtain ⟨C', m₁, x', hC', e1, hp1, hh1, c1, hl1, -⟩ := C46_pre N hN x.data hxN m hm.input
  rw [hC, Option.some.injEq] at hC'
  subst hC'
  have hm₁ : net.Memory plan x' m₁ := by
    refine ⟨by rw [c1.1]; exact hm.declared, ?_, hh1, by rw [c1.1]; exact hm.pred⟩
    intro n hn p hp
    obtain ⟨k, i, hb⟩ : ∃ k i, p.1 = .par k i := by
      unfold Op.params at hp
      split at hp <;> simp only [List.mem_cons, List.not_mem_nil, or_false] at hp
      · exact ⟨_, _, by rw [hp]⟩
      · rcases hp with rfl | rfl <;> exact ⟨_, _, rfl⟩
      · rcases hp with rfl | rfl <;> exact ⟨_, _, rfl⟩
      · rcases hp with rfl | rfl <;> exact ⟨_, _, rfl⟩
      · exact ⟨_, _, by rw [hp]⟩
      · rcases hp with rfl | rfl | rfl | rfl <;> exact ⟨_, _, rfl⟩
    exact (hm.params n hn p hp).congr c1.1 (c1.2 _ (by rw [hb]; simp))
  have hx' : ∀ l ∈ net.graph, ∀ r s, net.op l.idx = .input r s → (⟨x.dims, x'⟩ : Nd K).data.length = s.size := by
    intro l hl r s e
    rw [hx l hl r s e]
    exact hl1
  have hin' : ∀ first x'', plan.order.head? = some first → prepare net.fmt (net.op first) (⟨x.dims, x'⟩ : Nd K) = some x'' →
      ∀ n ins, net.Receives L.cmath plan x'' n ins → (net.op n).InputsOK L.cmath ins := by
    intro first x'' _ hprep
    have : (⟨x.dims, x'⟩ : Nd K) = x'' := by
      rw [hfmt] at hprep
      unfold prepare at hprep
      simpa using hprep
    subst this
    exact hin x' hp1
  obtain ⟨y, m₂, hy, hrun, hpred, hsz, -⟩ := C52_network_partial net hwf plan h L.cmath ⟨x.dims, x'⟩ m₁ hx' hm₁ hin'
    (by rw [hfmt]; intro e; cases e)
  obtain ⟨first, _, _, hfirst, _, _⟩ := first_input hwf h
  obtain ⟨last, hl⟩ : ∃ n, plan.order.getLast? = some n := by
    cases hh : plan.order.getLast? with
    | none => rw [List.getLast?_eq_none_iff.1 hh] at hfirst; cases hfirst
    | some n => exact ⟨n, rfl⟩
  have hyl := reference_length net hwf hfmt plan h L.cmath ⟨x.dims, x'⟩ hx' hin' hy hl
  rw [hout last hl] at hyl
  have hne : ∀ l : List K, l.length = N.inputSize + 1 → ∃ a, l.getLast? = some a := by
    intro l h
    cases hh : l.getLast? with
    | none => rw [List.getLast?_eq_none_iff] at hh; rw [hh] at h; simp at h
    | some a => exact ⟨a, rfl⟩
  obtain ⟨mean, hmean⟩ := hne _ hN.means
  obtain ⟨range, hrange⟩ := hne _ hN.ranges
  obtain ⟨C', m', hC', e3, hp3, hh3, -⟩ := C46_post N hN y hyl m₂ hpred range mean hrange hmean
  rw [hC, Option.some.injEq] at hC'
  subst hC'
  have hnd : plan.order.Nodup := (Graph.plan_perm hwf.unique hwf.consistent h).symm.nodup hwf.unique
  have hsome : ∀ n ∈ plan.order, ((net.op n).code L.cmath net.fmt n (plan.path n) ((net.graph.prevOf n).map (Graph.outStr plan))).isSome = true := by
    have hr := hrun
    unfold Network.inference at hr
    simp only [bind, Prog.andThen] at hr
    cases h1 : Graph.runLayers plan net.graph.prevOf (fun n => (net.op n).size) (net.layerCode L.cmath) plan.order m₁ with
    | none => rw [h1] at hr; cases hr
    | some r => exact runLayers_some plan.order h1
  obtain ⟨ts, s, h1, h2, h3, -, h4⟩ := C73_source_renders t L N C net plan ht hnd first last hfirst hl hpos hsome hB
  refine ⟨_, ts, _, _, _, s, m', ?_, h1, h2, h3, h4 m m₁ m₂ m' hcst e1 hrun e3, hh3⟩
  unfold normalisedReference
  simp only [hp1, Option.bind_eq_bind, Option.bind_some, hy, hp3]

end Verif.CText

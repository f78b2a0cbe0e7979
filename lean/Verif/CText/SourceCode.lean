import Verif.CText.Parse
import Verif.CText.Concatenation
import Verif.CText.Gather

/-!
# The text of `inference.c`

`templates/template_source_file.c.tpl`, filled by `generate_function_source_file` (`generator/neural_network.py` 800-960)
for the generic target, the data type `float`, without timing, debug prints and normalisation.
-/

namespace Verif.CText
open Prog
set_option linter.unusedVariables false
variable {K : Type} [Field K]

/-! ## What the generator passes to the template -/

/-- the keys `p`, `hw`, `is_dense`, .. (`generator/neural_network.py` 842-888) -/
structure SrcFlags where
  (p hw dense sum max count resize cubic linear reduced : Bool)

/-- an element of `mustach_hash["layers"]` (`generator/neural_network.py` 903-915): the code of the layer, given by its
tokens, `path`, `size` and, if it is in `dict_cst`, its number there -/
structure SrcLayer (K : Type) where
  toks : List (CTok K)
  path : Nat
  size : Nat
  cst : Option Nat

/-- `layer_hash` -/
def layerItem (l : SrcLayer K) : Hash K :=
  [(chars! "inference_function", .toks l.toks), (chars! "path", .num l.path), (chars! "size", .num l.size)] ++
  match l.cst with
  | none => []
  | some k => [(chars! "cst", .bool true), (chars! "cst_name", .num k)]

/-- numbers separated by commas -/
def commas : List Nat → List (CTok K)
  | [] => []
  | [a] => [.num a]
  | a :: b :: l => .num a :: .punct .comma :: commas (b :: l)

/-- `gather_indices_to_str` (`generator/neural_network.py` 817-823) -/
def initT (l : List Nat) : List (CTok K) := .punct .lbrc :: (commas l ++ [.punct .rbrc])

/-- an element of `mustach_hash["indices"]` (829-837): the index of the layer and its flattened `indices` -/
def indexItem (x : Nat × List Nat) : Hash K :=
  [(chars! "idx", .num2 x.1), (chars! "length", .num x.2.length), (chars! "list", .toks (initT x.2))]

/-- `mustach_hash` (`generator/neural_network.py` 805-957); `out` is `output_str` -/
def sourceHash (nOut nIn : Nat) (fl : SrcFlags) (inds : List (Nat × List Nat)) (ls : List (SrcLayer K)) (out : List (CTok K)) : Hash K :=
  [(chars! "data_type", .word (chars! "float")), (chars! "temp_data_type", .word (chars! "float")),
   (chars! "input_size", .num nIn), (chars! "output_size", .num nOut),
   (chars! "is_gather", .bool !inds.isEmpty), (chars! "indices", .list (inds.map indexItem)),
   (chars! "p", .bool fl.p), (chars! "hw", .bool fl.hw), (chars! "is_dense", .bool fl.dense), (chars! "is_sum", .bool fl.sum),
   (chars! "is_max", .bool fl.max), (chars! "is_count", .bool fl.count), (chars! "is_resize", .bool fl.resize),
   (chars! "is_cubic_interpolation", .bool fl.cubic), (chars! "is_linear_interpolation", .bool fl.linear),
   (chars! "is_reduced", .bool fl.reduced), (chars! "layers", .list (ls.map layerItem)), (chars! "output_str", .toks out)]

/-! ## The C function -/

/-- a declaration at the beginning of the function -/
inductive Dcl
  /-- `int x;` -/
  | int (x : Ident)
  /-- `float x;` -/
  | float (x : Ident)
  /-- `int x[n] = {..};` -/
  | ints (x : Ident) (l : List Nat)
  deriving DecidableEq

def Dcl.toks : Dcl → List (CTok K)
  | .int x => [.kw .int_, .id x, .punct .semi]
  | .float x => [.kw .float_, .id x, .punct .semi]
  | .ints x l => .kw .int_ :: .id x :: .punct .lbrk :: .num l.length :: .punct .rbrk :: .punct .assign :: (initT l ++ [.punct .semi])

/-- the declared name -/
def Dcl.name : Dcl → Ident
  | .int x => x
  | .float x => x
  | .ints x _ => x

/-- the variables, with their types -/
def varsOf : List Dcl → List (Ident × Ty)
  | [] => []
  | .int x :: ds => (x, .int) :: varsOf ds
  | .float x :: ds => (x, .float) :: varsOf ds
  | .ints _ _ :: ds => varsOf ds

/-- the constant arrays -/
def intsOf : List Dcl → Ident → Option (List Nat)
  | [], _ => none
  | .ints x l :: ds, y => if y = x then some l else intsOf ds y
  | _ :: ds, y => intsOf ds y

/-- `int inference(inference_t *ctx, float prediction[nOut], float nn_input[nIn]){` -/
def headerT (nOut nIn : Nat) : List (CTok K) :=
  rendered (chars! "int inference(inference_t *ctx, float prediction[{{o}}], float nn_input[{{i}}]){") [(chars! "o", .num nOut), (chars! "i", .num nIn)]

/-- `return 0;}` -/
def returnT : List (CTok K) := rendered (chars! "return 0;}") []

/-- The text is a definition of the function `inference` with the given sizes of its arguments, local declarations and
statements. -/
def IsInference (ts : List (CTok K)) (nOut nIn : Nat) (ds : List Dcl) (s : Stmt K) : Prop :=
  ∃ body, ts = headerT nOut nIn ++ (ds.flatMap Dcl.toks ++ (body ++ returnT)) ∧ IsBody body s

/-! ## What the text is -/

/-- names of C variables -/
def nm (x : Name) : Ident := (x, none)

/-- what each key declares -/
def flagDcls (fl : SrcFlags) (inds : List (Nat × List Nat)) : List Dcl :=
  [.int (nm .f), .int (nm .i), .int (nm .j), .int (nm .k)] ++
  ((if fl.p then [.int (nm .p)] else []) ++
  ((if fl.hw then [.int (nm .h), .int (nm .w)] else []) ++
  ((if fl.dense then [.float (nm .dotproduct)] else []) ++
  ((if fl.sum then [.float (nm .sum)] else []) ++
  ((if fl.max then [.float (nm .max)] else []) ++
  ((if fl.count then [.int (nm .count)] else []) ++
  ((if fl.resize then [.float (nm .x), .float (nm .y), .int (nm .x0), .int (nm .y0)] else []) ++
  ((if fl.cubic then [.int (nm .col_index), .float (nm .a), .float (.f, some ⟨false, 1⟩), .float (nm .f0), .float (nm .f1), .float (nm .f2), .float (nm .s)] else []) ++
  ((if fl.linear then [.int (nm .y1), .int (nm .x1), .float (nm .f11), .float (nm .f12), .float (nm .f21), .float (nm .f22)] else []) ++
  ((if !inds.isEmpty then .int (nm .position) :: inds.map (fun x => .ints (indices x.1) x.2) else []) ++
  (if fl.reduced then [.float (nm .reduced)] else [])))))))))))

/-- the loop that saves the output of a layer -/
def saveT (k size path : Nat) : List (CTok K) :=
  rendered (chars! "for (k = 0; k < {{s}}; k++) { ctx->cst_{{c}}[k] = ctx->output_{{p}}[k]; }") [(chars! "s", .num size), (chars! "c", .num k), (chars! "p", .num path)]

/-- the text of a layer -/
def layerT (l : SrcLayer K) : List (CTok K) :=
  l.toks ++ match l.cst with
  | none => []
  | some k => saveT k l.size l.path

def srcT : List TTok := (tokens Tpl.source_file).getD []
def srcHead : List TTok := (srcT.take 36)
/-- section `n` of the template -/
def srcSec (n : Nat) : List TTok := match srcT.drop n with | .sec _ b :: _ => b | _ => []
def srcTail : List TTok := srcT.drop 49
def srcPos : List TTok := (srcSec 45).take 3
def srcInd : List TTok := match (srcSec 45).drop 3 with | .sec _ b :: _ => b | _ => []

theorem source_tokens : tokens Tpl.source_file = some (srcHead ++ ([.sec (chars! "p") (srcSec 36)] ++ ([.sec (chars! "hw") (srcSec 37)] ++
    ([.sec (chars! "is_dense") (srcSec 38)] ++ ([.sec (chars! "is_sum") (srcSec 39)] ++ ([.sec (chars! "is_max") (srcSec 40)] ++
    ([.sec (chars! "is_count") (srcSec 41)] ++ ([.sec (chars! "is_resize") (srcSec 42)] ++ ([.sec (chars! "is_cubic_interpolation") (srcSec 43)] ++
    ([.sec (chars! "is_linear_interpolation") (srcSec 44)] ++ ([.sec (chars! "is_gather") (srcPos ++ [.sec (chars! "indices") srcInd])] ++
    ([.sec (chars! "is_reduced") (srcSec 46)] ++ ([.raw (chars! "pre_processing")] ++ ([.sec (chars! "layers") (srcSec 48)] ++ srcTail)))))))))))))) := by
  kernel_rfl

/-- a section with a truth value -/
theorem inst_flag {k : List Char} {b : List TTok} {h : Hash K} {c : Bool} {x : List (CTok K)} (hl : h.lookup k = some (.bool c)) (hb : inst b h = some x) :
    inst [.sec k b] h = some (if c then x else []) := by
  simp only [inst, inst1, hl, HVal.truthy, hb]
  cases c <;> simp

variable (nOut nIn : Nat) (fl : SrcFlags) (inds : List (Nat × List Nat)) (ls : List (SrcLayer K)) (out : List (CTok K))

theorem src_head : inst srcHead (sourceHash nOut nIn fl inds ls out) =
    some (headerT nOut nIn ++ ([.int (nm .f), .int (nm .i), .int (nm .j), .int (nm .k)] : List Dcl).flatMap Dcl.toks) := by kernel_rfl

theorem src_tail : inst srcTail (sourceHash nOut nIn fl inds ls out) = some (out ++ returnT) := by kernel_rfl

theorem src_raw : inst [.raw (chars! "pre_processing")] (sourceHash nOut nIn fl inds ls out) = some [] := by kernel_rfl

theorem src_layer (l : SrcLayer K) : inst (srcSec 48) (layerItem l ++ sourceHash nOut nIn fl inds ls out) = some (layerT l) := by
  obtain ⟨ts, p, s, c⟩ := l
  cases c <;> kernel_rfl

theorem src_index (x : Nat × List Nat) : inst srcInd (indexItem x ++ sourceHash nOut nIn fl inds ls out) = some (Dcl.ints (indices x.1) x.2).toks := by
  obtain ⟨n, l⟩ := x
  kernel_rfl

theorem src_gather : inst [.sec (chars! "is_gather") (srcPos ++ [.sec (chars! "indices") srcInd])] (sourceHash nOut nIn fl inds ls out) =
    some ((if !inds.isEmpty then Dcl.int (nm .position) :: inds.map (fun x => .ints (indices x.1) x.2) else []).flatMap Dcl.toks) := by
  have h1 : inst srcPos (sourceHash nOut nIn fl inds ls out) = some ((Dcl.int (nm .position)).toks) := by kernel_rfl
  have h2 := inst_list (k := chars! "indices") (h := sourceHash nOut nIn fl inds ls out) (l := inds) (g := indexItem) (by rfl) (src_index nOut nIn fl inds ls out)
  rw [inst_flag (c := !inds.isEmpty) (by rfl) (inst_append_some h1 h2)]
  cases inds with
  | nil => rfl
  | cons x inds => simp [List.flatMap_map]

theorem flatMap_ite {α β : Type} (c : Bool) (x : List α) (f : α → List β) : (if c then x else []).flatMap f = if c then x.flatMap f else [] := by
  cases c <;> rfl

/-- the text of `inference.c` -/
theorem source_inst : (tokens Tpl.source_file).bind (fun tt => inst tt (sourceHash nOut nIn fl inds ls out)) =
    some (headerT nOut nIn ++ ((flagDcls fl inds).flatMap Dcl.toks ++ ((ls.flatMap layerT ++ out) ++ returnT))) := by
  rw [source_tokens, Option.bind_some]
  have f1 : inst [.sec (chars! "p") (srcSec 36)] (sourceHash nOut nIn fl inds ls out) = some (if fl.p then [Dcl.int (nm .p)].flatMap Dcl.toks else []) := inst_flag (by rfl) (by kernel_rfl)
  have f2 : inst [.sec (chars! "hw") (srcSec 37)] (sourceHash nOut nIn fl inds ls out) = some (if fl.hw then [Dcl.int (nm .h), .int (nm .w)].flatMap Dcl.toks else []) := inst_flag (by rfl) (by kernel_rfl)
  have f3 : inst [.sec (chars! "is_dense") (srcSec 38)] (sourceHash nOut nIn fl inds ls out) = some (if fl.dense then [Dcl.float (nm .dotproduct)].flatMap Dcl.toks else []) := inst_flag (by rfl) (by kernel_rfl)
  have f4 : inst [.sec (chars! "is_sum") (srcSec 39)] (sourceHash nOut nIn fl inds ls out) = some (if fl.sum then [Dcl.float (nm .sum)].flatMap Dcl.toks else []) := inst_flag (by rfl) (by kernel_rfl)
  have f5 : inst [.sec (chars! "is_max") (srcSec 40)] (sourceHash nOut nIn fl inds ls out) = some (if fl.max then [Dcl.float (nm .max)].flatMap Dcl.toks else []) := inst_flag (by rfl) (by kernel_rfl)
  have f6 : inst [.sec (chars! "is_count") (srcSec 41)] (sourceHash nOut nIn fl inds ls out) = some (if fl.count then [Dcl.int (nm .count)].flatMap Dcl.toks else []) := inst_flag (by rfl) (by kernel_rfl)
  have f7 : inst [.sec (chars! "is_resize") (srcSec 42)] (sourceHash nOut nIn fl inds ls out) = some (if fl.resize then [Dcl.float (nm .x), .float (nm .y), .int (nm .x0), .int (nm .y0)].flatMap Dcl.toks else []) := inst_flag (by rfl) (by kernel_rfl)
  have f8 : inst [.sec (chars! "is_cubic_interpolation") (srcSec 43)] (sourceHash nOut nIn fl inds ls out) = some (if fl.cubic then [Dcl.int (nm .col_index), .float (nm .a), .float (.f, some ⟨false, 1⟩), .float (nm .f0), .float (nm .f1), .float (nm .f2), .float (nm .s)].flatMap Dcl.toks else []) := inst_flag (by rfl) (by kernel_rfl)
  have f9 : inst [.sec (chars! "is_linear_interpolation") (srcSec 44)] (sourceHash nOut nIn fl inds ls out) = some (if fl.linear then [Dcl.int (nm .y1), .int (nm .x1), .float (nm .f11), .float (nm .f12), .float (nm .f21), .float (nm .f22)].flatMap Dcl.toks else []) := inst_flag (by rfl) (by kernel_rfl)
  have f10 := src_gather nOut nIn fl inds ls out
  have f11 : inst [.sec (chars! "is_reduced") (srcSec 46)] (sourceHash nOut nIn fl inds ls out) = some (if fl.reduced then [Dcl.float (nm .reduced)].flatMap Dcl.toks else []) := inst_flag (by rfl) (by kernel_rfl)
  have fl' := inst_list (k := chars! "layers") (h := sourceHash nOut nIn fl inds ls out) (l := ls) (g := layerItem) (by rfl) (src_layer nOut nIn fl inds ls out)
  have := inst_append_some (src_head nOut nIn fl inds ls out) (inst_append_some f1 (inst_append_some f2 (inst_append_some f3 (inst_append_some f4 (inst_append_some f5
    (inst_append_some f6 (inst_append_some f7 (inst_append_some f8 (inst_append_some f9 (inst_append_some f10 (inst_append_some f11
    (inst_append_some (src_raw nOut nIn fl inds ls out) (inst_append_some fl' (src_tail nOut nIn fl inds ls out))))))))))))))
  rw [this]
  refine congrArg some ?_
  unfold flagDcls
  simp only [List.flatMap_append, flatMap_ite, List.append_assoc, List.nil_append]

end Verif.CText

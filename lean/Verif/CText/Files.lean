import Verif.CText.Parse
import Verif.CText.BroadcastCode
import Verif.CText.SourceCode
import Verif.CText.FileTemplates
import Verif.Net.Run
import Verif.Props.Text

/-!
# The texts of `parameters.c`, `inference.h` and `global_vars.c`

`templates/template_parameter_file.c.tpl`, `template_header_file.c.tpl` and `template_global_var_file.c.tpl`, filled by
`generate_parameter_file`, `generate_function_header_file` and `generate_globalvars_file`
(`generator/neural_network.py` 962-1065, 1164-1265) for the data type `float`, the generic target and no normalisation.
-/

namespace Verif.CText
open Net Layers
set_option linter.unusedVariables false
set_option linter.unusedSectionVars false
variable {K : Type} [Field K]

/-! ## What C files mean -/

/-- A floating constant with its sign, and its value. -/
inductive Const : List (CTok K) → K → Prop
  | pos (q : K) : Const [.flt q] q
  | neg (q : K) : Const [.punct .minus, .flt q] (-q)

/-- constants separated by commas, and their values -/
inductive Consts : List (CTok K) → List K → Prop
  | one {ts : List (CTok K)} {v : K} : Const ts v → Consts ts [v]
  | cons {ts us : List (CTok K)} {v : K} {vs : List K} : Const ts v → Consts us vs → Consts (ts ++ .punct .comma :: us) (v :: vs)

/-- the definition of a constant array: its identifier, its size, and its first elements (the others being zero,
C11 6.7.9) -/
structure ArrDef (K : Type) where
  id : Ident
  size : Nat
  vals : List K

/-- `const float x[n] __attribute__((aligned(page))) = {..};`, the braces containing the tokens `init` -/
def defT (page : Nat) (x : Ident) (n : Nat) (init : List (CTok K)) : List (CTok K) :=
  .kw .const_ :: .kw .float_ :: .id x :: .punct .lbrk :: .num n :: .punct .rbrk :: (rendered (chars! "__attribute__((aligned({{p}})))") [(chars! "p", .num page)] ++
    (.punct .assign :: .punct .lbrc :: (init ++ [.punct .rbrc, .punct .semi])))

/-- The text is a sequence of definitions of constant arrays, none with more initial values than elements. -/
inductive IsDefs (page : Nat) : List (CTok K) → List (ArrDef K) → Prop
  | nil : IsDefs page [] []
  | cons {x : Ident} {n : Nat} {init rest : List (CTok K)} {vals : List K} {ds : List (ArrDef K)} :
    Consts init vals → vals.length ≤ n → IsDefs page rest ds → IsDefs page (defT page x n init ++ rest) (⟨x, n, vals⟩ :: ds)

theorem IsDefs.append {page : Nat} {ts us : List (CTok K)} {ds es : List (ArrDef K)} (h : IsDefs page ts ds) (h' : IsDefs page us es) :
    IsDefs page (ts ++ us) (ds ++ es) := by
  induction h with
  | nil => exact h'
  | cons hc hl _ ih => rw [List.append_assoc]; exact .cons hc hl ih

/-- a field `float x[n]` of the struct -/
structure Field' where
  id : Ident
  size : Nat
  deriving DecidableEq

/-- `float x[n] __attribute__((aligned()));` -/
def fieldT (f : Field') : List (CTok K) :=
  .kw .float_ :: .id f.id :: .punct .lbrk :: .num f.size :: .punct .rbrk :: rendered (chars! "__attribute__((aligned()));") []

/-- `extern const float x[n];` -/
def externT (f : Field') : List (CTok K) :=
  .id (.ofChars (chars! "extern"), none) :: .kw .const_ :: .kw .float_ :: .id f.id :: .punct .lbrk :: .num f.size :: [.punct .rbrk, .punct .semi]

/-- The text declares the type `inference_t` with these fields, the array `Context`, these constant arrays and the
function `inference`. -/
def IsHeader (ts : List (CTok K)) (fields externs : List Field') : Prop :=
  ts = rendered (chars! "typedef struct inference_t{") [] ++ (fields.flatMap fieldT ++
    (rendered (chars! "}inference_t; extern inference_t Context[MAX_BATCH_SIZE];") [] ++ (externs.flatMap externT ++
    rendered (chars! "int inference(inference_t *context, float *prediction, float *nn_input);") [])))

/-! ## What the generator prints -/

/-- The tokens of the text of a constant (`data2c`, `generator/neural_network.py` 593-601): a sign and a hexadecimal
constant. -/
def constT (d : Gen.Dbl) : Option (List (CTok K)) :=
  match Gen.data2c d with
  | '-' :: cs => (Gen.hexConstant cs).map fun q => [.punct .minus, .flt (q : K)]
  | cs => (Gen.hexConstant cs).map fun q => [.flt (q : K)]

/-- `", ".join(..)` -/
def joinT : List (List (CTok K)) → List (CTok K)
  | [] => []
  | [a] => a
  | a :: b :: l => a ++ .punct .comma :: joinT (b :: l)

/-- `flatten_array_order_c` (`generator/neural_network.py` 603-610) on an array with these elements in C order -/
def flatT (l : List Gen.Dbl) : Option (List (CTok K)) :=
  (l.mapM constT).map fun ts => .punct .lbrc :: (joinT ts ++ [.punct .rbrc])

/-- the double that numpy holds for a parameter is the number itself, and is finite -/
def Exact (dbl : K → Gen.Dbl) (v : K) : Prop :=
  (∃ q : ℚ, (dbl v).value = some q ∧ (q : K) = v) ∧ ∀ neg lead mant exp, dbl v = .fin neg lead mant exp → mant < 2 ^ 52

/-- the value of a key holding the text of an array -/
def arrH (dbl : K → Gen.Dbl) (l : List K) : HVal K := .toks ((flatT (l.map dbl)).getD [])

/-- `name` and `idx` -/
def nameIdx (name : List Char) (idx : Nat) : Hash K := [(chars! "name", .word name), (chars! "idx", .num2 idx)]

def wbHash (dbl : K → Gen.Dbl) (w b : List K) : Hash K :=
  [(chars! "nb_weights", .num w.length), (chars! "weights", arrH dbl w), (chars! "nb_biases", .num b.length), (chars! "biases", arrH dbl b)]

/-- `layer_hash` in `generate_parameter_file` (`generator/neural_network.py` 1174-1206), for the layers whose hash has
more than two keys.  `nb_weights`, `nb_biases` and `constant_size` are numbers of elements (`Layer.count_elements_array`,
`ir/layer.py` 110-113; `constant.py` 39-41); the bias of a Gemm layer has `N` elements. -/
def paramItem (dbl : K → Gen.Dbl) (idx : Nat) : Op K → Option (Hash K)
  | .constant v => some (nameIdx (chars! "Constant") idx ++ [(chars! "nb_weights", .num v.data.length), (chars! "weights", arrH dbl v.data)])
  | .dense p n w b _ => some (nameIdx (chars! "Dense") idx ++ wbHash dbl (matrix p n w) (tensor n b))
  | .gemm _ tB _ N Kd _ _ w c _ => some (nameIdx (chars! "Gemm") idx ++ wbHash dbl (if tB then matrix N Kd w else matrix Kd N w) (tensor N c))
  | .conv _ c wt b _ => some (nameIdx (chars! "Conv2D") idx ++ wbHash dbl (tensor4 c.filters c.inC c.kh c.kw wt) (tensor c.filters b))
  | .broadcast op _ _ (some c) _ =>
    some (nameIdx (bcName op) idx ++ [(chars! "constant", arrH dbl c.flat), (chars! "constant_size", .num c.flat.length)])
  | .batchNorm s _ scale mean var bias _ =>
    some (nameIdx (chars! "BatchNormalization") idx ++ [(chars! "nb_biases", .num s.C), (chars! "biases", arrH dbl (tensor s.C bias)),
      (chars! "channels", .num s.C), (chars! "mean", arrH dbl (tensor s.C mean)), (chars! "var", arrH dbl (tensor s.C var)),
      (chars! "scale", arrH dbl (tensor s.C scale))])
  | _ => none

/-- `mustach_hash` of `generate_parameter_file` (`generator/neural_network.py` 1164-1207); `path` is not used by the
template -/
def paramHash (dbl : K → Gen.Dbl) (page : Nat) (op : Nat → Op K) (order : List Nat) : Hash K :=
  [(chars! "data_type", .word (chars! "float")), (chars! "page_size", .num page),
   (chars! "layers", .list (order.filterMap fun n => paramItem dbl n (op n)))]

/-- `generate_parameter_file`: the tokens of the file `parameters.c` -/
def paramText (dbl : K → Gen.Dbl) (page : Nat) (op : Nat → Op K) (order : List Nat) : Option (List (CTok K)) :=
  (tokens Tpl.parameter_file).bind fun tt => inst tt (paramHash dbl page op order)

/-- `layer_hash` in `generate_function_header_file` (`generator/neural_network.py` 1023-1053), for the layers with
`to_print` -/
def headerItem (idx : Nat) : Op K → Option (Hash K)
  | .constant v => some (nameIdx (chars! "Constant") idx ++ [(chars! "nb_weights", .num v.data.length)])
  | .dense p n w b _ => some (nameIdx (chars! "Dense") idx ++ [(chars! "nb_weights", .num (matrix p n w).length), (chars! "nb_biases", .num (tensor n b).length)])
  | .gemm _ tB _ N Kd _ _ w c _ => some (nameIdx (chars! "Gemm") idx ++
      [(chars! "nb_weights", .num (if tB then matrix N Kd w else matrix Kd N w).length), (chars! "nb_biases", .num (tensor N c).length)])
  | .conv _ c wt b _ => some (nameIdx (chars! "Conv2D") idx ++
      [(chars! "nb_weights", .num (tensor4 c.filters c.inC c.kh c.kw wt).length), (chars! "nb_biases", .num (tensor c.filters b).length)])
  | .broadcast op _ _ (some c) _ => some (nameIdx (bcName op) idx ++ [(chars! "constant_size", .num c.flat.length)])
  | .batchNorm s _ scale mean var bias _ => some (nameIdx (chars! "BatchNormalization") idx ++ [(chars! "nb_biases", .num s.C), (chars! "channels", .num s.C)])
  | _ => none

/-- The loop filling `written` (`generator/neural_network.py` 1000-1013): a dictionary, in the order of insertion; see
`Gen.cstSizes`. -/
def written (ls : List Gen.LayerInfo) : List (Nat × Nat) → Option Gen.LayerInfo → List (Nat × Nat) → Option (List (Nat × Nat))
  | [], _, w => some w
  | (idx, k) :: rest, layer, w =>
    match (ls.find? fun l => l.idx == idx).or layer with
    | none => none
    | some l => written ls rest (some l)
        (if (w.lookup k).isSome then w.map fun p => if p.1 = k then (k, max p.2 l.size) else p else w ++ [(k, l.size)])

/-- `mustach_hash` of `generate_function_header_file` (`generator/neural_network.py` 966-1058) -/
def headerHash (ls : List Gen.LayerInfo) (maxPath : Nat) (csts : List (Nat × Nat)) (op : Nat → Op K) (order : List Nat) : Hash K :=
  [(chars! "data_type", .word (chars! "float")), (chars! "path", .list ((List.range maxPath).map fun i => [(chars! ".", .num i)])),
   (chars! "max_batch_size", .num 32), (chars! "temp_data_type", .word (chars! "float")), (chars! "path_size", .num (Gen.pathSize ls)),
   (chars! "cst", .list (csts.map fun p => [(chars! "name", .num p.1), (chars! "size", .num p.2)])), (chars! "temp_size", .num (Gen.tempSize ls)),
   (chars! "layers", .list (order.filterMap fun n => headerItem n (op n)))]

/-- `generate_function_header_file`: the tokens of the file `inference.h` -/
def headerText (net : Network K) (plan : Graph.Plan) : Option (List (CTok K)) :=
  let ls := plan.order.map fun n => (net.op n).info n
  (written ls (dictOf plan) none []).bind fun csts =>
    (tokens Tpl.header_file).bind fun tt => inst tt (headerHash ls plan.maxPath csts net.op plan.order)

/-- `generate_globalvars_file` (`generator/neural_network.py` 1212-1265): the tokens of the file `global_vars.c` (its template
uses no key) -/
def globalVarsText : Option (List (CTok K)) := (tokens Tpl.global_var_file).bind fun tt => inst tt []

/-! ## Constants -/

theorem hexConstant_minus {cs : List Char} {q : ℚ} (h : Gen.hexConstant ('-' :: cs) = some q) : Gen.hexConstant cs = some (-q) := by
  unfold Gen.hexConstant at h ⊢
  simp only [List.head?_cons, if_true, List.drop_succ_cons, List.drop_zero] at h
  split at h
  · rename_i s
    have e : (some '0' = some '-') = False := by decide
    simp only [List.head?_cons, e, if_false] at h ⊢
    generalize (if (List.dropWhile (fun c => (Gen.hexDigitVal c).isSome) s).head? = some '.' then
      List.dropWhile (fun c => (Gen.hexDigitVal c).isSome) (List.drop 1 (List.dropWhile (fun c => (Gen.hexDigitVal c).isSome) s))
      else List.dropWhile (fun c => (Gen.hexDigitVal c).isSome) s) = X at h ⊢
    revert h
    split
    · generalize (List.takeWhile (fun c => (Gen.hexDigitVal c).isSome) s ++ _ : List Char) = Y
      split
      · intro h
        simp only [Option.some.injEq] at h ⊢
        rw [← h]; ring
      · intro h; cases h
    · intro h; cases h
  · cases h

theorem constT_spec {dbl : K → Gen.Dbl} {v : K} (h : Exact dbl v) : ∃ ts, constT (dbl v) = some ts ∧ Const ts v := by
  obtain ⟨⟨q, hq, rfl⟩, hm⟩ := h
  have hx := Gen.C42_exact (dbl (q : K)) q hq hm
  unfold constT
  split
  · rename_i cs hcs
    rw [hcs] at hx
    have : ∃ q', Gen.hexConstant cs = some q' ∧ q = -q' := by
      exact ⟨-q, hexConstant_minus hx, by ring⟩
    obtain ⟨q', h1, rfl⟩ := this
    refine ⟨_, by rw [h1]; rfl, ?_⟩
    rw [Rat.cast_neg]
    exact .neg _
  · exact ⟨_, by rw [hx]; rfl, .pos _⟩

theorem joinT_consts {dbl : K → Gen.Dbl} (l : List K) (hl : l ≠ []) (h : ∀ v ∈ l, Exact dbl v) :
    ∃ tss, (l.map dbl).mapM (constT (K := K)) = some tss ∧ tss ≠ [] ∧ Consts (joinT tss) l := by
  induction l with
  | nil => exact absurd rfl hl
  | cons v l ih =>
    obtain ⟨ts, h1, h2⟩ := constT_spec (h v (by simp))
    cases l with
    | nil => exact ⟨[ts], by simp [h1], by simp, .one h2⟩
    | cons w l =>
      obtain ⟨tss, h3, h4, h5⟩ := ih (by simp) (fun u hu => h u (by simp [hu]))
      refine ⟨ts :: tss, ?_, by simp, ?_⟩
      · rw [List.map_cons, List.mapM_cons, h1, h3]; rfl
      · cases tss with
        | nil => exact absurd rfl h4
        | cons a b => exact .cons h2 h5

theorem flatT_spec {dbl : K → Gen.Dbl} (l : List K) (hl : l ≠ []) (h : ∀ v ∈ l, Exact dbl v) :
    ∃ init, (flatT (K := K) (l.map dbl)).getD [] = .punct .lbrc :: (init ++ [.punct .rbrc]) ∧ Consts init l := by
  obtain ⟨tss, h1, _, h2⟩ := joinT_consts l hl h
  exact ⟨joinT tss, by unfold flatT; rw [h1]; rfl, h2⟩

/-! ## Which arrays the files have -/

/-- the identifier of a parameter array -/
def parId (x : List Char) (idx : Nat) : Ident := (.other x, some ⟨decide (idx < 10), idx⟩)

/-- The parameter arrays of a layer: their identifiers and elements, in the order of the template.  (What a user expects,
to be compared with `Op.params`.) -/
def parArrays (idx : Nat) : Op K → List (Ident × List K)
  | .constant v => [(parId (chars! "weights_Constant") idx, v.data)]
  | .dense p n w b _ => [(parId (chars! "weights_Dense") idx, matrix p n w), (parId (chars! "biases_Dense") idx, tensor n b)]
  | .gemm _ tB _ N Kd _ _ w c _ =>
    [(parId (chars! "weights_Gemm") idx, if tB then matrix N Kd w else matrix Kd N w), (parId (chars! "biases_Gemm") idx, tensor N c)]
  | .conv _ c wt b _ =>
    [(parId (chars! "weights_Conv2D") idx, tensor4 c.filters c.inC c.kh c.kw wt), (parId (chars! "biases_Conv2D") idx, tensor c.filters b)]
  | .broadcast op _ _ (some c) _ => [(parId (chars! "constant_" ++ bcName op) idx, c.flat)]
  | .batchNorm s _ scale mean var bias _ =>
    [(parId (chars! "biases_BatchNormalization") idx, tensor s.C bias), (parId (chars! "mean_BatchNormalization") idx, tensor s.C mean),
     (parId (chars! "var_BatchNormalization") idx, tensor s.C var), (parId (chars! "scale_BatchNormalization") idx, tensor s.C scale)]
  | _ => []

/-- those with at least one element -/
def nonEmpty (l : List (Ident × List K)) : List (Ident × List K) := l.filter fun p => !p.2.isEmpty

/-- their definitions -/
def arrDef (p : Ident × List K) : ArrDef K := ⟨p.1, p.2.length, p.2⟩
/-- their declarations -/
def arrDecl (p : Ident × List K) : Field' := ⟨p.1, p.2.length⟩

/-! ## `parameters.c` -/

/-- a section whose key is a number -/
theorem inst_num {k : List Char} {b : List TTok} {h : Hash K} {n : Nat} {x : List (CTok K)} (hl : h.lookup k = some (.num n)) (hb : inst b h = some x) :
    inst [.sec k b] h = some (if n = 0 then [] else x) := by
  simp only [inst, inst1, hl, HVal.truthy, hb]
  by_cases hn : n = 0 <;> simp [hn]

/-- a section whose key is absent -/
theorem inst_absent {k : List Char} {b : List TTok} {h : Hash K} (hl : h.lookup k = none) : inst [.sec k b] h = some [] := by
  simp only [inst, inst1, hl]; rfl

def parT : List TTok := (tokens Tpl.parameter_file).getD []
def parBody : List TTok := match parT.drop 1 with | .sec _ b :: _ => b | _ => []
/-- section `n` of the part for a layer -/
def parSec (n : Nat) : List TTok := match parBody.drop n with | .sec _ b :: _ => b | _ => []

theorem par_tokens : tokens Tpl.parameter_file = some ([.sec (chars! "zero") (match parT with | .sec _ b :: _ => b | _ => [])] ++
    [.sec (chars! "layers") ([.sec (chars! "nb_weights") (parSec 0)] ++ ([.sec (chars! "nb_biases") (parSec 1)] ++ ([.sec (chars! "patches_size") (parSec 2)] ++
      ([.sec (chars! "channels") (parSec 3)] ++ [.sec (chars! "constant_size") (parSec 4)]))))]) := by
  kernel_rfl

/-- a definition whose initialiser is the text `T` -/
def defT' (page : Nat) (x : Ident) (n : Nat) (T : List (CTok K)) : List (CTok K) :=
  .kw .const_ :: .kw .float_ :: .id x :: .punct .lbrk :: .num n :: .punct .rbrk :: (rendered (chars! "__attribute__((aligned({{p}})))") [(chars! "p", .num page)] ++
    (.punct .assign :: (T ++ [.punct .semi])))

theorem defs_one {dbl : K → Gen.Dbl} (page : Nat) (x : Ident) (l : List K) (h : ∀ v ∈ l, Exact dbl v) :
    IsDefs page (if l.length = 0 then [] else defT' page x l.length ((flatT (K := K) (l.map dbl)).getD [])) ((nonEmpty [(x, l)]).map arrDef) := by
  cases l with
  | nil => exact .nil
  | cons v l =>
    obtain ⟨init, h1, h2⟩ := flatT_spec (v :: l) (by simp) h
    rw [if_neg (by simp), h1]
    have := IsDefs.cons (page := page) (x := x) h2 (Nat.le_refl _) .nil
    simp only [List.append_nil] at this
    have e : defT' page x (v :: l).length (.punct .lbrc :: (init ++ [.punct .rbrc])) = defT page x (v :: l).length init := by
      simp [defT', defT]
    rw [e]
    exact this

theorem nonEmpty_append (a b : List (Ident × List K)) : nonEmpty (a ++ b) = nonEmpty a ++ nonEmpty b := List.filter_append ..

theorem nonEmpty_cons (a : Ident × List K) (b : List (Ident × List K)) : nonEmpty (a :: b) = nonEmpty [a] ++ nonEmpty b := nonEmpty_append [a] b

section
variable (dbl : K → Gen.Dbl) (page : Nat) (op : Nat → Op K) (order : List Nat)

/-- weights and biases -/
theorem par_wb (name : List Char) (idx : Nat) (w b : List K) (hw : ∀ v ∈ w, Exact dbl v) (hb : ∀ v ∈ b, Exact dbl v)
    (h0 : ∀ (W B : List (CTok K)) (nw nb : Nat) (ls : HVal K), inst (parSec 0) (nameIdx name idx ++ [(chars! "nb_weights", .num nw), (chars! "weights", .toks W), (chars! "nb_biases", .num nb), (chars! "biases", .toks B)] ++
        [(chars! "data_type", .word (chars! "float")), (chars! "page_size", .num page), (chars! "layers", ls)]) =
        some (defT' page (parId (chars! "weights_" ++ name) idx) nw W))
    (h1 : ∀ (W B : List (CTok K)) (nw nb : Nat) (ls : HVal K), inst (parSec 1) (nameIdx name idx ++ [(chars! "nb_weights", .num nw), (chars! "weights", .toks W), (chars! "nb_biases", .num nb), (chars! "biases", .toks B)] ++
        [(chars! "data_type", .word (chars! "float")), (chars! "page_size", .num page), (chars! "layers", ls)]) =
        some (defT' page (parId (chars! "biases_" ++ name) idx) nb B)) :
    ∃ t, inst parBody (nameIdx name idx ++ wbHash dbl w b ++ paramHash dbl page op order) = some t ∧
      IsDefs page t ((nonEmpty [(parId (chars! "weights_" ++ name) idx, w), (parId (chars! "biases_" ++ name) idx, b)]).map arrDef) := by
  have e : (parBody : List TTok) = [.sec (chars! "nb_weights") (parSec 0)] ++ ([.sec (chars! "nb_biases") (parSec 1)] ++ ([.sec (chars! "patches_size") (parSec 2)] ++
      ([.sec (chars! "channels") (parSec 3)] ++ [.sec (chars! "constant_size") (parSec 4)]))) := by kernel_rfl
  rw [e]
  refine ⟨_, inst_append_some (inst_num (n := w.length) rfl (h0 ..)) (inst_append_some (inst_num (n := b.length) rfl (h1 ..)) (inst_append_some (inst_absent rfl)
    (inst_append_some (inst_absent rfl) (inst_absent rfl)))), ?_⟩
  rw [nonEmpty_cons, List.map_append, List.append_nil, List.append_nil, List.append_nil]
  exact (defs_one page _ w hw).append (defs_one page _ b hb)

theorem par_body_eq : (parBody : List TTok) = [.sec (chars! "nb_weights") (parSec 0)] ++ ([.sec (chars! "nb_biases") (parSec 1)] ++ ([.sec (chars! "patches_size") (parSec 2)] ++
      ([.sec (chars! "channels") (parSec 3)] ++ [.sec (chars! "constant_size") (parSec 4)]))) := by kernel_rfl

theorem par_constant (idx : Nat) (w : List K) (hw : ∀ v ∈ w, Exact dbl v) :
    ∃ t, inst parBody (nameIdx (chars! "Constant") idx ++ [(chars! "nb_weights", .num w.length), (chars! "weights", arrH dbl w)] ++ paramHash dbl page op order) = some t ∧
      IsDefs page t ((nonEmpty [(parId (chars! "weights_Constant") idx, w)]).map arrDef) := by
  rw [par_body_eq]
  have h0 : ∀ (W : List (CTok K)) (nw : Nat) (ls : HVal K), inst (parSec 0) (nameIdx (chars! "Constant") idx ++ [(chars! "nb_weights", .num nw), (chars! "weights", .toks W)] ++
        [(chars! "data_type", .word (chars! "float")), (chars! "page_size", .num page), (chars! "layers", ls)]) =
        some (defT' page (parId (chars! "weights_Constant") idx) nw W) := fun W nw ls => by kernel_rfl
  refine ⟨_, inst_append_some (inst_num (n := w.length) rfl (h0 ..)) (inst_append_some (inst_absent rfl) (inst_append_some (inst_absent rfl)
    (inst_append_some (inst_absent rfl) (inst_absent rfl)))), ?_⟩
  rw [List.append_nil, List.append_nil, List.append_nil, List.append_nil]
  exact defs_one page _ w hw

theorem par_broadcast (o : BOp) (idx : Nat) (w : List K) (hw : ∀ v ∈ w, Exact dbl v) :
    ∃ t, inst parBody (nameIdx (bcName o) idx ++ [(chars! "constant", arrH dbl w), (chars! "constant_size", .num w.length)] ++ paramHash dbl page op order) = some t ∧
      IsDefs page t ((nonEmpty [(parId (chars! "constant_" ++ bcName o) idx, w)]).map arrDef) := by
  rw [par_body_eq]
  have h0 : ∀ (W : List (CTok K)) (nw : Nat) (ls : HVal K), inst (parSec 4) (nameIdx (bcName o) idx ++ [(chars! "constant", .toks W), (chars! "constant_size", .num nw)] ++
        [(chars! "data_type", .word (chars! "float")), (chars! "page_size", .num page), (chars! "layers", ls)]) =
        some (defT' page (parId (chars! "constant_" ++ bcName o) idx) nw W) := fun W nw ls => by cases o <;> kernel_rfl
  refine ⟨_, inst_append_some (inst_absent rfl) (inst_append_some (inst_absent rfl) (inst_append_some (inst_absent rfl)
    (inst_append_some (inst_absent rfl) (inst_num (n := w.length) rfl (h0 ..))))), ?_⟩
  exact defs_one page _ w hw

theorem par_batchNorm (idx C : Nat) (bi me va sc : Nat → K) (h1 : ∀ v ∈ tensor C bi, Exact dbl v) (h2 : ∀ v ∈ tensor C me, Exact dbl v) (h3 : ∀ v ∈ tensor C va, Exact dbl v)
    (h4 : ∀ v ∈ tensor C sc, Exact dbl v) :
    ∃ t, inst parBody (nameIdx (chars! "BatchNormalization") idx ++ [(chars! "nb_biases", .num C), (chars! "biases", arrH dbl (tensor C bi)),
      (chars! "channels", .num C), (chars! "mean", arrH dbl (tensor C me)), (chars! "var", arrH dbl (tensor C va)),
      (chars! "scale", arrH dbl (tensor C sc))] ++ paramHash dbl page op order) = some t ∧
      IsDefs page t ((nonEmpty [(parId (chars! "biases_BatchNormalization") idx, tensor C bi), (parId (chars! "mean_BatchNormalization") idx, tensor C me),
       (parId (chars! "var_BatchNormalization") idx, tensor C va), (parId (chars! "scale_BatchNormalization") idx, tensor C sc)]).map arrDef) := by
  rw [par_body_eq]
  have h0 : ∀ (B M V S : List (CTok K)) (n : Nat) (ls : HVal K), inst (parSec 1) (nameIdx (chars! "BatchNormalization") idx ++ [(chars! "nb_biases", .num n), (chars! "biases", .toks B),
      (chars! "channels", .num n), (chars! "mean", .toks M), (chars! "var", .toks V), (chars! "scale", .toks S)] ++
        [(chars! "data_type", .word (chars! "float")), (chars! "page_size", .num page), (chars! "layers", ls)]) =
        some (defT' page (parId (chars! "biases_BatchNormalization") idx) n B) := fun B M V S n ls => by kernel_rfl
  have g0 : ∀ (B M V S : List (CTok K)) (n : Nat) (ls : HVal K), inst ((parSec 3).take 18) (nameIdx (chars! "BatchNormalization") idx ++ [(chars! "nb_biases", .num n), (chars! "biases", .toks B),
      (chars! "channels", .num n), (chars! "mean", .toks M), (chars! "var", .toks V), (chars! "scale", .toks S)] ++
        [(chars! "data_type", .word (chars! "float")), (chars! "page_size", .num page), (chars! "layers", ls)]) =
        some (defT' page (parId (chars! "mean_BatchNormalization") idx) n M) := fun B M V S n ls => by kernel_rfl
  have g1 : ∀ (B M V S : List (CTok K)) (n : Nat) (ls : HVal K), inst (((parSec 3).drop 18).take 18) (nameIdx (chars! "BatchNormalization") idx ++ [(chars! "nb_biases", .num n), (chars! "biases", .toks B),
      (chars! "channels", .num n), (chars! "mean", .toks M), (chars! "var", .toks V), (chars! "scale", .toks S)] ++
        [(chars! "data_type", .word (chars! "float")), (chars! "page_size", .num page), (chars! "layers", ls)]) =
        some (defT' page (parId (chars! "var_BatchNormalization") idx) n V) := fun B M V S n ls => by kernel_rfl
  have g2 : ∀ (B M V S : List (CTok K)) (n : Nat) (ls : HVal K), inst ((parSec 3).drop 36) (nameIdx (chars! "BatchNormalization") idx ++ [(chars! "nb_biases", .num n), (chars! "biases", .toks B),
      (chars! "channels", .num n), (chars! "mean", .toks M), (chars! "var", .toks V), (chars! "scale", .toks S)] ++
        [(chars! "data_type", .word (chars! "float")), (chars! "page_size", .num page), (chars! "layers", ls)]) =
        some (defT' page (parId (chars! "scale_BatchNormalization") idx) n S) := fun B M V S n ls => by kernel_rfl
  have e3 : parSec 3 = (parSec 3).take 18 ++ (((parSec 3).drop 18).take 18 ++ (parSec 3).drop 36) := by kernel_rfl
  have h0' : ∀ (B M V S : List (CTok K)) (n : Nat) (ls : HVal K), inst (parSec 3) (nameIdx (chars! "BatchNormalization") idx ++ [(chars! "nb_biases", .num n), (chars! "biases", .toks B),
      (chars! "channels", .num n), (chars! "mean", .toks M), (chars! "var", .toks V), (chars! "scale", .toks S)] ++
        [(chars! "data_type", .word (chars! "float")), (chars! "page_size", .num page), (chars! "layers", ls)]) =
        some (defT' page (parId (chars! "mean_BatchNormalization") idx) n M ++ (defT' page (parId (chars! "var_BatchNormalization") idx) n V ++
          defT' page (parId (chars! "scale_BatchNormalization") idx) n S)) := fun B M V S n ls => by
    rw [e3]; exact inst_append_some (g0 ..) (inst_append_some (g1 ..) (g2 ..))
  refine ⟨_, inst_append_some (inst_absent rfl) (inst_append_some (inst_num (n := C) rfl (h0 ..)) (inst_append_some (inst_absent rfl)
    (inst_append_some (inst_num (n := C) rfl (h0' ..)) (inst_absent rfl)))), ?_⟩
  have l : ∀ f : Nat → K, (tensor C f).length = C := fun f => by simp [tensor]
  have d1 := defs_one page (parId (chars! "biases_BatchNormalization") idx) _ h1
  have d2 := defs_one page (parId (chars! "mean_BatchNormalization") idx) _ h2
  have d3 := defs_one page (parId (chars! "var_BatchNormalization") idx) _ h3
  have d4 := defs_one page (parId (chars! "scale_BatchNormalization") idx) _ h4
  rw [l] at d1 d2 d3 d4
  rw [nonEmpty_cons, nonEmpty_cons _ [_, _], nonEmpty_cons _ [_], List.map_append, List.map_append, List.map_append]
  have := d1.append (d2.append (d3.append d4))
  by_cases hC : C = 0
  · simp only [hC, if_true, List.append_nil] at this ⊢; exact this
  · simp only [hC, if_false, List.append_nil, List.nil_append] at this ⊢; exact this

/-- the part of the file for a layer -/
theorem par_layer (n : Nat) (o : Op K) (it : Hash K) (hit : paramItem dbl n o = some it) (he : ∀ p ∈ parArrays n o, ∀ v ∈ p.2, Exact dbl v) :
    ∃ t, inst parBody (it ++ paramHash dbl page op order) = some t ∧ IsDefs page t ((nonEmpty (parArrays n o)).map arrDef) := by
  cases o with
  | constant v =>
    cases hit
    exact par_constant dbl page op order n v.data (fun u hu => he _ (by simp only [parArrays, List.mem_singleton]; rfl) u hu)
  | dense p m w b f =>
    cases hit
    exact par_wb dbl page op order (chars! "Dense") n _ _ (fun u hu => he _ (by simp only [parArrays, List.mem_cons]; exact .inl rfl) u hu)
      (fun u hu => he _ (by simp only [parArrays, List.mem_cons]; exact .inr (.inl rfl)) u hu) (fun W B nw nb ls => by kernel_rfl) (fun W B nw nb ls => by kernel_rfl)
  | gemm tA tB M N Kd al be w c f =>
    cases hit
    exact par_wb dbl page op order (chars! "Gemm") n _ _ (fun u hu => he _ (by simp only [parArrays, List.mem_cons]; exact .inl rfl) u hu)
      (fun u hu => he _ (by simp only [parArrays, List.mem_cons]; exact .inr (.inl rfl)) u hu) (fun W B nw nb ls => by kernel_rfl) (fun W B nw nb ls => by kernel_rfl)
  | conv a c wt b f =>
    cases hit
    exact par_wb dbl page op order (chars! "Conv2D") n _ _ (fun u hu => he _ (by simp only [parArrays, List.mem_cons]; exact .inl rfl) u hu)
      (fun u hu => he _ (by simp only [parArrays, List.mem_cons]; exact .inr (.inl rfl)) u hu) (fun W B nw nb ls => by kernel_rfl) (fun W B nw nb ls => by kernel_rfl)
  | broadcast o s ss c f =>
    cases c with
    | none => cases hit
    | some c =>
      cases hit
      exact par_broadcast dbl page op order o n c.flat (fun u hu => he _ (by simp only [parArrays, List.mem_singleton]; rfl) u hu)
  | batchNorm s e sc me va bi f =>
    cases hit
    exact par_batchNorm dbl page op order n s.C bi me va sc (fun u hu => he _ (by simp only [parArrays, List.mem_cons]; exact .inl rfl) u hu)
      (fun u hu => he _ (by simp only [parArrays, List.mem_cons]; exact .inr (.inl rfl)) u hu)
      (fun u hu => he _ (by simp only [parArrays, List.mem_cons]; exact .inr (.inr (.inl rfl))) u hu)
      (fun u hu => he _ (by simp only [parArrays, List.mem_cons]; exact .inr (.inr (.inr (.inl rfl)))) u hu)
  | _ => cases hit

theorem paramItem_none {n : Nat} {o : Op K} (h : paramItem dbl n o = none) : parArrays n o = [] := by
  cases o with
  | broadcast o s ss c f => cases c <;> first | rfl | cases h
  | _ => first | rfl | cases h

/-- sections over the layers that have a hash -/
theorem join_layers {D : Type} {R : List (CTok K) → List D → Prop} (hnil : R [] []) (happ : ∀ {a b c d}, R a c → R b d → R (a ++ b) (c ++ d))
    {item : Nat → Option (Hash K)} {body : List TTok} {H : Hash K} {defs : Nat → List D} (l : List Nat)
    (h1 : ∀ n ∈ l, ∀ it, item n = some it → ∃ t, inst body (it ++ H) = some t ∧ R t (defs n)) (h2 : ∀ n, item n = none → defs n = []) :
    ∃ t, joinAll ((l.filterMap item).map fun h' => inst body (h' ++ H)) = some t ∧ R t (l.flatMap defs) := by
  induction l with
  | nil => exact ⟨[], rfl, hnil⟩
  | cons n l ih =>
    obtain ⟨t, h3, h4⟩ := ih fun m hm => h1 m (by simp [hm])
    cases hi : item n with
    | none => exact ⟨t, by rw [List.filterMap_cons_none hi]; exact h3, by rw [List.flatMap_cons, h2 n hi]; exact h4⟩
    | some it =>
      obtain ⟨t', h5, h6⟩ := h1 n (by simp) it hi
      refine ⟨t' ++ t, ?_, ?_⟩
      · rw [List.filterMap_cons_some hi, List.map_cons, h5]; simp only [joinAll, h3, Option.map_some]
      · rw [List.flatMap_cons]; exact happ h6 h4

/-- **The text of `parameters.c`** is the definitions of the parameter arrays of the layers, in the order of the layers, each
with its number of elements as size and its elements as initial values. -/
theorem params_text (he : ∀ n ∈ order, ∀ p ∈ parArrays n (op n), ∀ v ∈ p.2, Exact dbl v) :
    ∃ ts, paramText dbl page op order = some ts ∧ IsDefs page ts ((nonEmpty (order.flatMap fun n => parArrays n (op n))).map arrDef) := by
  obtain ⟨t, h1, h2⟩ := join_layers (R := IsDefs page) .nil IsDefs.append (item := fun n => paramItem dbl n (op n)) (body := parBody) (H := paramHash dbl page op order)
    (defs := fun n => (nonEmpty (parArrays n (op n))).map arrDef) order (fun n hn it hit => par_layer dbl page op order n (op n) it hit (he n hn))
    (fun n hn => by rw [paramItem_none dbl hn]; rfl)
  refine ⟨t, ?_, ?_⟩
  · unfold paramText
    rw [par_tokens, Option.bind_some]
    have hz : inst [.sec (chars! "zero") (match parT with | .sec _ b :: _ => b | _ => [])] (paramHash dbl page op order) = some [] := inst_absent rfl
    have hl : inst [.sec (chars! "layers") parBody] (paramHash dbl page op order) = some t := by
      simp only [inst, inst1]
      have : (paramHash dbl page op order).lookup (chars! "layers") = some (.list (order.filterMap fun n => paramItem dbl n (op n))) := rfl
      rw [this]
      simp only [h1]
      simp
    rw [← par_body_eq]
    exact inst_append_some hz hl
  · convert h2 using 1
    clear h1 h2 he
    induction order with
    | nil => rfl
    | cons n l ih => rw [List.flatMap_cons, nonEmpty_append, List.map_append, List.flatMap_cons, ih]

end

end Verif.CText

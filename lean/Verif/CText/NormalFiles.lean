import Verif.CText.NnetText
import Verif.CText.Project

/-!
# The files of a normalised network: `global_vars.c` and `inference.h`

`generate_globalvars_file` (`generator/neural_network.py` 1257-1265) appends the definitions of the constants of the normalisation,
`generate_function_header_file` (1056-1058) their declarations.
-/

namespace Verif.CText
open Prog Layers Net Gen
set_option linter.unusedVariables false
set_option linter.unusedSectionVars false
variable {K : Type} [Field K]

/-! ## A key that a template does not mention -/

mutual
/-- does the template mention the key -/
def mentions (k : List Char) : List TTok → Bool
  | [] => false
  | t :: ts => mentions1 k t || mentions k ts
/-- does the token mention the key -/
def mentions1 (k : List Char) : TTok → Bool
  | .word ps => ps.any fun p => p == .hole k
  | .raw j => j == k
  | .opEq j => j == k
  | .sec j b => j == k || mentions k b
  | .inv j b => j == k || mentions k b
  | _ => false
end

theorem lookup_extra {h : Hash K} {j k : List Char} {v : HVal K} (hj : j ≠ k) : List.lookup j (h ++ [(k, v)]) = h.lookup j := by
  have hb : (j == k) = false := by simpa using hj
  induction h with
  | nil => simp [List.lookup, hb]
  | cons a h ih =>
    obtain ⟨a, w⟩ := a
    simp only [List.cons_append, List.lookup]
    split
    · rfl
    · exact ih

theorem partsText_extra {h : Hash K} {k : List Char} {v : HVal K} (ps : List Part) (hp : (ps.any fun p => p == .hole k) = false) :
    partsText (h ++ [(k, v)]) ps = partsText h ps := by
  induction ps with
  | nil => rfl
  | cons p ps ih =>
    simp only [List.any_cons, Bool.or_eq_false_iff] at hp
    have ih := ih hp.2
    cases p with
    | lit cs => simp only [partsText, ih]
    | hole j =>
      have hj : j ≠ k := by
        rintro rfl
        simp at hp
      simp only [partsText, ih, lookup_extra hj]

theorem instWord_extra {h : Hash K} {k : List Char} {v : HVal K} (ps : List Part) (hp : (ps.any fun p => p == .hole k) = false) :
    instWord (h ++ [(k, v)]) ps = instWord h ps := by
  have key : ∀ j, .hole j ∈ ps → j ≠ k := by
    rintro j hj rfl
    rw [List.any_eq_false] at hp
    exact hp _ hj (by simp)
  have hdl : (ps.dropLast.any fun p => p == .hole k) = false := by
    rw [List.any_eq_false] at hp ⊢
    exact fun p hp' => hp p (List.dropLast_subset _ hp')
  unfold instWord
  rw [partsText_extra ps hp, partsText_extra ps.dropLast hdl]
  split
  · rw [lookup_extra (key _ (by simp))]
  · split
    · rename_i j hj
      rw [lookup_extra (key j (List.mem_of_getLast? hj))]
    · rfl

mutual
theorem inst_extra (k : List Char) (v : HVal K) : ∀ (ts : List TTok) (h : Hash K), mentions k ts = false → inst ts (h ++ [(k, v)]) = inst ts h
  | [], h, _ => rfl
  | t :: ts, h, hm => by
    simp only [mentions, Bool.or_eq_false_iff] at hm
    simp only [inst, inst1_extra k v t h hm.1, inst_extra k v ts h hm.2]
theorem inst1_extra (k : List Char) (v : HVal K) : ∀ (t : TTok) (h : Hash K), mentions1 k t = false → inst1 t (h ++ [(k, v)]) = inst1 t h
  | .punct p, h, _ => rfl
  | .num n, h, _ => rfl
  | .flt m e, h, _ => rfl
  | .word ps, h, hm => by
    simp only [mentions1] at hm
    simp only [inst1, instWord_extra ps hm]
    split
    · rename_i j
      rw [lookup_extra (by rintro rfl; simp at hm)]
    · rename_i j qs _
      have hm' := hm
      simp only [List.any_cons, Bool.or_eq_false_iff] at hm'
      rw [lookup_extra (by rintro rfl; simp at hm), instWord_extra qs hm'.2]
    · rfl
  | .raw j, h, hm => by
    have hj : j ≠ k := by rintro rfl; simp [mentions1] at hm
    simp only [inst1, lookup_extra hj]
  | .opEq j, h, hm => by
    have hj : j ≠ k := by rintro rfl; simp [mentions1] at hm
    have hw : instWord (h ++ [(k, v)]) [.hole j] = instWord h [.hole j] := instWord_extra _ (by simpa using hj)
    simp only [inst1, lookup_extra hj, hw]
  | .sec j b, h, hm => by
    simp only [mentions1, Bool.or_eq_false_iff] at hm
    have hj : j ≠ k := by rintro rfl; simp at hm
    simp only [inst1, lookup_extra hj, inst_extra k v b h hm.2]
    have : ∀ h' : Hash K, inst b (h' ++ (h ++ [(k, v)])) = inst b (h' ++ h) := fun h' => by
      rw [← List.append_assoc]; exact inst_extra k v b (h' ++ h) hm.2
    simp only [this]
  | .inv j b, h, hm => by
    simp only [mentions1, Bool.or_eq_false_iff] at hm
    have hj : j ≠ k := by rintro rfl; simp at hm
    simp only [inst1, lookup_extra hj, inst_extra k v b h hm.2]
end

/-! ## What the files mean -/

/-- `extern float x[n] = {..};`, the braces containing the tokens `init` -/
def normArrT (x : Ident) (n : Nat) (init : List (CTok K)) : List (CTok K) :=
  .id (.ofChars (chars! "extern"), none) :: .kw .float_ :: .id x :: .punct .lbrk :: .num n :: .punct .rbrk :: .punct .assign :: .punct .lbrc ::
    (init ++ [.punct .rbrc, .punct .semi])

/-- `extern float x = c;` -/
def normVarT (x : Ident) (c : List (CTok K)) : List (CTok K) :=
  .id (.ofChars (chars! "extern"), none) :: .kw .float_ :: .id x :: .punct .assign :: (c ++ [.punct .semi])

/-- The text is a sequence of definitions of arrays, none with more initial values than elements, and of variables. -/
inductive IsNormDefs : List (CTok K) → List (ArrDef K) → List (Ident × K) → Prop
  | nil : IsNormDefs [] [] []
  | arr {x : Ident} {n : Nat} {init rest : List (CTok K)} {vals : List K} {ds : List (ArrDef K)} {vs : List (Ident × K)} :
    Consts init vals → vals.length ≤ n → IsNormDefs rest ds vs → IsNormDefs (normArrT x n init ++ rest) (⟨x, n, vals⟩ :: ds) vs
  | var {x : Ident} {c rest : List (CTok K)} {v : K} {ds : List (ArrDef K)} {vs : List (Ident × K)} :
    Const c v → IsNormDefs rest ds vs → IsNormDefs (normVarT x c ++ rest) ds ((x, v) :: vs)

/-- The text of `global_vars.c`: the array of contexts, then these definitions. -/
def IsGlobals (ts : List (CTok K)) (ds : List (ArrDef K)) (vs : List (Ident × K)) : Prop :=
  ∃ rest, ts = rendered (chars! "inference_t Context[MAX_BATCH_SIZE];") [] ++ rest ∧ IsNormDefs rest ds vs

/-- `extern float x[n];` -/
def normDeclT (f : Field') : List (CTok K) :=
  .id (.ofChars (chars! "extern"), none) :: .kw .float_ :: .id f.id :: .punct .lbrk :: .num f.size :: [.punct .rbrk, .punct .semi]

/-- `extern float x;` -/
def normVarDeclT (x : Ident) : List (CTok K) := [.id (.ofChars (chars! "extern"), none), .kw .float_, .id x, .punct .semi]

/-! ## The texts -/

/-- an identifier of a constant -/
abbrev cId (cs : List Char) : Ident := (.other cs, none)

/-- `Normalizer.array_to_str` (`importers/NNET_importer/nnet_normalize.py` 53-61), each number having the text `txt`: without
elements, the two characters removed are the brace -/
def arrayToStr (txt : K → List (CTok K)) (l : List K) : List (CTok K) :=
  if l.isEmpty then [.punct .rbrc] else .punct .lbrc :: (joinT (l.map txt) ++ [.punct .rbrc])

/-- `mustach_hash` of `write_normalization_cst_in_globalvars_file` (`nnet_normalize.py` 99-110); `none` is an `IndexError` -/
def globalsHash (txt : K → List (CTok K)) (N : Normalizer K) : Option (Hash K) :=
  match N.means.getLast?, N.ranges.getLast? with
  | some mean, some range => some
    [(chars! "input_size", .num N.inputSize), (chars! "input_min", .toks (arrayToStr txt N.mins)), (chars! "input_max", .toks (arrayToStr txt N.maxes)),
     (chars! "input_mean", .toks (arrayToStr txt N.means.dropLast)), (chars! "input_range", .toks (arrayToStr txt N.ranges.dropLast)),
     (chars! "output_mean", .toks (txt mean)), (chars! "output_range", .toks (txt range))]
  | _, _ => none

/-- `generate_globalvars_file` with `normalize=True` (`generator/neural_network.py` 1257-1265): the tokens of `global_vars.c` -/
def globalVarsTextN (txt : K → List (CTok K)) (N : Normalizer K) : Option (List (CTok K)) := do
  let a ← globalVarsText
  let h ← globalsHash txt N
  let b ← (tokens Tpl.normalization_cst_in_global_var_file).bind fun tt => inst tt h
  pure (a ++ b)

/-- `generate_function_header_file` with `normalize=True` (`generator/neural_network.py` 1056-1058): the tokens of `inference.h` -/
def headerTextN (N : Normalizer K) (net : Network K) (plan : Graph.Plan) : Option (List (CTok K)) :=
  (written (plan.order.map fun n => (net.op n).info n) (dictOf plan) none []).bind fun csts =>
    (tokens Tpl.header_file).bind fun tt => inst tt (headerHash (plan.order.map fun n => (net.op n).info n) plan.maxPath csts net.op plan.order ++
      [(chars! "normalization_cst", .toks (rendered Tpl.normalization_cst_in_header_file (normPreHash N.inputSize)))])

/-! ## What they are -/

/-- the arrays that the normaliser writes -/
def normArrays (N : Normalizer K) : List (ArrDef K) :=
  [⟨cId (chars! "input_min"), N.inputSize, N.mins⟩, ⟨cId (chars! "input_max"), N.inputSize, N.maxes⟩,
   ⟨cId (chars! "input_mean"), N.inputSize, N.means.dropLast⟩, ⟨cId (chars! "input_range"), N.inputSize, N.ranges.dropLast⟩]

/-- the text of `inference.h` declares the type of the context, the constant arrays, the function, and the constants of the
normalisation -/
def IsHeaderN (ts : List (CTok K)) (fields externs norm : List Field') (vars : List Ident) : Prop :=
  ∃ th, IsHeader th fields externs ∧ ts = th ++ (norm.flatMap normDeclT ++ vars.flatMap normVarDeclT)

theorem consts_join (txt : K → List (CTok K)) (l : List K) (hl : l ≠ []) (h : ∀ v ∈ l, Const (txt v) v) : Consts (joinT (l.map txt)) l := by
  induction l with
  | nil => exact absurd rfl hl
  | cons v l ih =>
    cases l with
    | nil => exact .one (h v (by simp))
    | cons w l => exact .cons (h v (by simp)) (ih (by simp) fun u hu => h u (by simp [hu]))

theorem globals_inst (n : Nat) (a b c d e f : List (CTok K)) :
    (tokens Tpl.normalization_cst_in_global_var_file).bind (fun tt => inst tt
      [(chars! "input_size", .num n), (chars! "input_min", .toks a), (chars! "input_max", .toks b), (chars! "input_mean", .toks c),
       (chars! "input_range", .toks d), (chars! "output_mean", .toks e), (chars! "output_range", .toks f)]) =
    some (let ar := fun (x : List Char) (t r : List (CTok K)) => ([.id (.ofChars (chars! "extern"), none), .kw .float_, .id (cId x), .punct .lbrk, .num n, .punct .rbrk, .punct .assign] : List (CTok K)) ++ (t ++ .punct .semi :: r)
      let va := fun (x : List Char) (t r : List (CTok K)) => ([.id (.ofChars (chars! "extern"), none), .kw .float_, .id (cId x), .punct .assign] : List (CTok K)) ++ (t ++ .punct .semi :: r)
      ar (chars! "input_min") a (ar (chars! "input_max") b (ar (chars! "input_mean") c (ar (chars! "input_range") d
        (va (chars! "output_mean") e (va (chars! "output_range") f [])))))) := by
  kernel_rfl

/-- **C73, `global_vars.c`.**  If every number has a text that the C compiler reads back, the file is the definitions of the four arrays
of the normalisation and of its two variables, with the values of the normaliser. -/
theorem C73_globals [LE K] (txt : K → List (CTok K)) (N : Normalizer K) (hN : N.WellFormed)
    (htxt : ∀ l ∈ [N.mins, N.maxes, N.means, N.ranges], ∀ v ∈ l, Const (txt v) v) :
    ∃ ts mean range, globalVarsTextN txt N = some ts ∧ N.means.getLast? = some mean ∧ N.ranges.getLast? = some range ∧
      IsGlobals ts (normArrays N) [(cId (chars! "output_mean"), mean), (cId (chars! "output_range"), range)] := by
  have hp := hN.pos
  have hne : ∀ l : List K, l.length = N.inputSize → l ≠ [] := by
    rintro l h rfl; simp at h; omega
  have hlast : ∀ l : List K, l.length = N.inputSize + 1 → ∃ a, l.getLast? = some a := by
    intro l h
    cases hh : l.getLast? with
    | none => rw [List.getLast?_eq_none_iff] at hh; rw [hh] at h; simp at h
    | some a => exact ⟨a, rfl⟩
  obtain ⟨mean, hmean⟩ := hlast _ hN.means
  obtain ⟨range, hrange⟩ := hlast _ hN.ranges
  have hdl : ∀ l : List K, l.length = N.inputSize + 1 → l.dropLast.length = N.inputSize := by intro l h; simp [h]
  have one : ∀ l : List K, l.length = N.inputSize → (∀ v ∈ l, Const (txt v) v) →
      arrayToStr txt l = .punct .lbrc :: (joinT (l.map txt) ++ [.punct .rbrc]) ∧ Consts (joinT (l.map txt)) l := by
    intro l h hv
    refine ⟨?_, consts_join txt l (hne l h) hv⟩
    unfold arrayToStr
    rw [if_neg (by simpa using hne l h)]
  obtain ⟨a1, a2⟩ := one _ hN.mins (htxt _ (by simp))
  obtain ⟨b1, b2⟩ := one _ hN.maxes (htxt _ (by simp))
  obtain ⟨c1, c2⟩ := one _ (hdl _ hN.means) (fun v hv => htxt N.means (by simp) v (List.dropLast_subset _ hv))
  obtain ⟨d1, d2⟩ := one _ (hdl _ hN.ranges) (fun v hv => htxt N.ranges (by simp) v (List.dropLast_subset _ hv))
  have e2 := htxt N.means (by simp) mean (List.mem_of_getLast? hmean)
  have f2 := htxt N.ranges (by simp) range (List.mem_of_getLast? hrange)
  have hdefs := IsNormDefs.arr (x := cId (chars! "input_min")) a2 (le_of_eq hN.mins) (.arr (x := cId (chars! "input_max")) b2 (le_of_eq hN.maxes)
      (.arr (x := cId (chars! "input_mean")) c2 (le_of_eq (hdl _ hN.means)) (.arr (x := cId (chars! "input_range")) d2 (le_of_eq (hdl _ hN.ranges))
        (.var (x := cId (chars! "output_mean")) e2 (.var (x := cId (chars! "output_range")) f2 .nil)))))
  refine ⟨_, mean, range, ?_, hmean, hrange, _, rfl, hdefs⟩
  unfold globalVarsTextN globalsHash
  simp only [hmean, hrange, globalVars_text, Option.bind_eq_bind, Option.bind_some, globals_inst]
  simp only [a1, b1, c1, d1, normArrT, normVarT]
  simp only [List.cons_append, List.append_assoc, List.nil_append]
  rfl

theorem header_split : (hdrT : List TTok) = hdrT.dropLast ++ [.raw (chars! "normalization_cst")] := by kernel_rfl

theorem header_silent : mentions (chars! "normalization_cst") hdrT.dropLast = false := by kernel_rfl

/-- **C73, `inference.h`.** -/
theorem headerN_inst (N : Normalizer K) (ls : List Gen.LayerInfo) (maxPath : Nat) (csts : List (Nat × Nat)) (op : Nat → Op K) (order : List Nat) :
    ∃ ts, (tokens Tpl.header_file).bind (fun tt => inst tt (headerHash ls maxPath csts op order ++
        [(chars! "normalization_cst", .toks (rendered Tpl.normalization_cst_in_header_file (normPreHash N.inputSize)))])) = some ts ∧
      IsHeaderN ts (ctxFields ls maxPath csts) ((nonEmpty (order.flatMap fun n => parArrays n (op n))).map arrDecl)
        ((normArrays N).map ArrDef.decl) [cId (chars! "output_mean"), cId (chars! "output_range")] := by
  obtain ⟨th, h1, h2⟩ := header_inst ls maxPath csts op order
  have ht : tokens Tpl.header_file = some hdrT := by rw [hdr_tokens]; kernel_rfl
  rw [ht, Option.bind_some] at h1 ⊢
  rw [header_split, inst_append] at h1
  have hz : inst [.raw (chars! "normalization_cst")] (headerHash ls maxPath csts op order) = some [] := by kernel_rfl
  rw [hz] at h1
  obtain ⟨ts, h3, rfl⟩ : ∃ ts, inst hdrT.dropLast (headerHash ls maxPath csts op order) = some ts ∧ ts = th := by
    cases hh : inst hdrT.dropLast (headerHash ls maxPath csts op order) with
    | none => rw [hh] at h1; cases h1
    | some ts =>
      rw [hh] at h1
      simp only [Option.some.injEq, List.append_nil] at h1
      exact ⟨ts, rfl, h1⟩
  refine ⟨_, ?_, ts, h2, rfl⟩
  rw [header_split]
  have h4 := inst_extra (chars! "normalization_cst") (.toks (rendered Tpl.normalization_cst_in_header_file (normPreHash N.inputSize))) hdrT.dropLast
    (headerHash ls maxPath csts op order) header_silent
  rw [h3] at h4
  refine inst_append_some h4 ?_
  have h5 : rendered Tpl.normalization_cst_in_header_file (normPreHash N.inputSize : Hash K) =
      ((normArrays N).map ArrDef.decl).flatMap normDeclT ++ [cId (chars! "output_mean"), cId (chars! "output_range")].flatMap normVarDeclT := by kernel_rfl
  rw [← h5]
  have hlk : List.lookup (chars! "normalization_cst") (headerHash ls maxPath csts op order ++
      [(chars! "normalization_cst", (.toks (rendered Tpl.normalization_cst_in_header_file (normPreHash N.inputSize)) : HVal K))]) =
      some (.toks (rendered Tpl.normalization_cst_in_header_file (normPreHash N.inputSize))) := by kernel_rfl
  simp only [inst, inst1, hlk, List.append_nil]

/-! ## The program of a `.nnet` file -/

/-- what the names of the constants of the normalisation designate -/
def bufN (B : CstBufs) : Ident → Option Buf
  | (.other cs, none) => cstBuf B cs
  | _ => none

/-- The memory when `inference` of a normalised network is called: `Starts`, and the arrays of `global_vars.c` have their definitions. -/
structure StartsN (B : CstBufs) (fields : List Field') (defs norm : List (ArrDef K)) (nOut : Nat) (x : List K) (m : Mem K) : Prop extends
    Starts fields defs nOut x m where
  norm : ∀ a ∈ norm, ∃ b, bufN B a.id = some b ∧ m.size b = a.size ∧ ∀ i < a.size, m.val b i = a.vals.getD i 0

/-- A call of the C function, where the variables of `global_vars.c` have their values. -/
def RunsV [LinearOrder K] [FloorRing K] (L : Lib K) (B : CstBufs) (vars : List (Ident × K)) (ds : List Dcl) (s : Stmt K) (m m' : Mem K) : Prop :=
  ∃ F₀, ∀ F, F₀ ≤ F → ∀ e, Declares e (varsOf ds) → (∀ p ∈ vars, e p.1 = some (.flt p.2)) → ∃ e', s.run (stdCst L (intsOf ds) B) F e m = some (e', m')

theorem dictOf_nnet (net : Nnet K) : dictOf net.plan = [] := by
  unfold dictOf
  rw [List.filterMap_eq_nil_iff]
  intro n hn
  rfl

section program
variable [LinearOrder K] [FloorRing K]

theorem infos_nnet (d : NnetDesc K) : Network.infos (nnetNetwork d.net) d.net.plan = d.net.layers.map fun l => { idx := l.idx, size := l.size } := by
  unfold Network.infos
  have e : d.net.layers = (List.range (d.layers.length + 1)).map (finalLayer d.layers d.sizes) := rfl
  rw [net_order, e, List.map_map]
  refine List.map_congr_left fun n hn => ?_
  rw [List.mem_range] at hn
  show (nnetOp d.net n).info n = _
  have h1 : (nnetOp d.net n).size = d.sizes.getD n 0 := by rw [nnet_size d n (by omega), net_sizeOf d n (by omega)]
  have h2 : (nnetOp d.net n).patches = none := by rw [nnet_op d n (by omega)]; split <;> rfl
  have h3 : (match nnetOp d.net n with | .concat .. => true | _ => false) = false := by
    rw [nnet_op d n (by omega)]
    by_cases h : n = 0
    · rw [if_pos h]
    · rw [if_neg h]
  unfold Op.info
  rw [h1, h2]
  show (⟨n, _, none, match nnetOp d.net n with | .concat .. => true | _ => false⟩ : LayerInfo) = _
  rw [h3]
  rfl

/-- what the layers of a `.nnet` network name is declared -/
theorem nnet_bound (d : NnetDesc K) (hne : Network.NoEmpty (nnetNetwork d.net) d.net.plan) {a : Bool × Ident} (ha : NamedN (nnetNetwork d.net) d.net.plan a) :
    Bound (ctxFields (Network.infos (nnetNetwork d.net) d.net.plan) 1 [])
      ((Network.defs (nnetNetwork d.net) d.net.plan).map ArrDef.decl ++ (normArrays d.net.normalizer).map ArrDef.decl)
      (localDcls (nnetNetwork d.net) d.net.plan) a := by
  have hout : ∀ n, Bound (ctxFields (Network.infos (nnetNetwork d.net) d.net.plan) 1 [])
      ((Network.defs (nnetNetwork d.net) d.net.plan).map ArrDef.decl ++ (normArrays d.net.normalizer).map ArrDef.decl)
      (localDcls (nnetNetwork d.net) d.net.plan) (true, outId (d.net.plan.path n)) := by
    intro n
    rw [net_path]
    exact .field ⟨outId 0, _⟩ (List.mem_append_left _ (List.mem_map.2 ⟨0, by simp, rfl⟩))
  have hnorm : ∀ e ∈ normArrays d.net.normalizer, Bound (ctxFields (Network.infos (nnetNetwork d.net) d.net.plan) 1 [])
      ((Network.defs (nnetNetwork d.net) d.net.plan).map ArrDef.decl ++ (normArrays d.net.normalizer).map ArrDef.decl)
      (localDcls (nnetNetwork d.net) d.net.plan) (false, e.id) := fun e he =>
    .extern e.decl (List.mem_append_right _ (List.mem_map.2 ⟨e, he, rfl⟩))
  cases ha with
  | lo => exact hnorm ⟨_, _, _⟩ (by simp only [normArrays, List.mem_cons]; exact .inl rfl)
  | hi => exact hnorm ⟨_, _, _⟩ (by simp only [normArrays, List.mem_cons]; exact .inr (.inl rfl))
  | mean => exact hnorm ⟨_, _, _⟩ (by simp only [normArrays, List.mem_cons]; exact .inr (.inr (.inl rfl)))
  | range => exact hnorm ⟨_, _, _⟩ (by simp only [normArrays, List.mem_cons]; exact .inr (.inr (.inr (.inl rfl))))
  | plain _ ha =>
    cases ha with
    | input => exact .input
    | pred => exact .pred
    | out n hn => exact hout n
    | cst n k hn hk => cases hk
    | temp => exact .field ⟨tempId, _⟩ (List.mem_append_right _ (List.mem_append_right _ (List.mem_singleton.2 rfl)))
    | src n p hn hp => exact hout p
    | par n x l hn hx =>
      refine .extern (⟨x, l.length⟩ : Field') (List.mem_append_left _ ?_)
      refine List.mem_map.2 ⟨arrDef (x, l), List.mem_map.2 ⟨(x, l), List.mem_filter.2 ⟨List.mem_flatMap.2 ⟨n, hn, hx⟩, ?_⟩, rfl⟩, rfl⟩
      have := hne n hn _ hx
      cases l with
      | nil => exact absurd rfl this
      | cons _ _ => rfl
    | ind n l hn hl =>
      exact .ints _ l (mem_flagDcls_ints _ _ (x := (n, l)) (List.mem_filterMap.2 ⟨n, hn, by rw [hl]; rfl⟩))

/-- arrays for the constants of the normalisation that no layer uses -/
def cstBufsAt (k : Nat) : CstBufs := ⟨.par .constant k, .par .constant (k + 1), .par .constant (k + 2), .par .constant (k + 3)⟩

/-- Every memory of the declarations can be extended with the arrays of `global_vars.c`. -/
theorem C73_program_memory [FloorRing K] (d : NnetDesc K) (x : List K) :
    ∃ m, StartsN (cstBufsAt (d.layers.length + 1)) (ctxFields (Network.infos (nnetNetwork d.net) d.net.plan) 1 [])
      (Network.defs (nnetNetwork d.net) d.net.plan) (normArrays d.net.normalizer) (d.sizes.getLastD 0) x m := by
  obtain ⟨m, hm, -⟩ := starts_exists (nnetNetwork d.net) d.net.plan (by rw [net_order]; exact List.nodup_range) (csts := []) (by simp) (d.sizes.getLastD 0) x
  obtain ⟨k, hk⟩ : ∃ k, k = d.layers.length + 1 := ⟨_, rfl⟩
  obtain ⟨own, hown⟩ : ∃ own : Buf → Bool, own = fun b => match b with | .par .constant i => decide (k ≤ i) | _ => false := ⟨_, rfl⟩
  obtain ⟨m', hm'⟩ : ∃ m' : Mem K, m' = ⟨fun b => if own b then d.net.normalizer.inputSize else m.size b, fun b a => if own b then
    (if b = .par .constant k then d.net.normalizer.mins.getD a 0 else if b = .par .constant (k + 1) then d.net.normalizer.maxes.getD a 0 else
      if b = .par .constant (k + 2) then d.net.normalizer.means.dropLast.getD a 0 else d.net.normalizer.ranges.dropLast.getD a 0) else m.val b a⟩ := ⟨_, rfl⟩
  have h0 : ∀ j, own (.par .constant (k + j)) = true := by intro j; rw [hown]; simp
  have h0' : own (.par .constant k) = true := h0 0
  have ctx : ∀ id b, stdBuf true id = some b → own b = false := by
    intro id b hb
    rcases stdBuf_true_inv hb with ⟨j, -, rfl⟩ | ⟨j, -, rfl⟩ | ⟨-, rfl⟩ <;> rw [hown]
  have size : ∀ b, own b = false → m'.size b = m.size b := by intro b h; rw [hm']; simp [h]
  have val : ∀ b, own b = false → m'.val b = m.val b := by intro b h; rw [hm']; simp [h]
  refine ⟨m', ⟨⟨?_, ?_, ?_, ?_, ?_⟩, ?_⟩⟩
  · intro f hf
    obtain ⟨b, hb, hs⟩ := hm.field f hf
    exact ⟨b, hb, by rw [size b (ctx _ b hb)]; exact hs⟩
  · intro id b hb hno
    rw [size b (ctx _ b hb)]
    exact hm.noField id b hb hno
  · intro e he
    obtain ⟨b, hb, hs, hv⟩ := hm.consts e he
    have hb0 : own b = false := by
      obtain ⟨p, hp, rfl⟩ := List.mem_map.1 he
      obtain ⟨n, hn, hp⟩ := List.mem_flatMap.1 (List.mem_filter.1 hp).1
      obtain ⟨q, hq⟩ := par_buf_mem hp
      have hq' : stdBuf false (arrDef p).id = some (.par q n) := hq
      rw [hb, Option.some.injEq] at hq'
      subst hq'
      rw [net_order, List.mem_range] at hn
      rw [hown]
      cases q <;> simp <;> omega
    exact ⟨b, hb, by rw [size b hb0]; exact hs, by rw [val b hb0]; exact hv⟩
  · exact ⟨by rw [size _ (by rw [hown])]; exact hm.input.1, by rw [val _ (by rw [hown])]; exact hm.input.2⟩
  · rw [size _ (by rw [hown])]; exact hm.pred
  · intro a ha
    rw [← hk]
    simp only [normArrays, List.mem_cons, List.not_mem_nil, or_false] at ha
    rcases ha with rfl | rfl | rfl | rfl
    · exact ⟨.par .constant k, rfl, by rw [hm']; simp [h0'], fun i _ => by rw [hm']; simp [h0']⟩
    · exact ⟨.par .constant (k + 1), rfl, by rw [hm']; simp [h0], fun i _ => by rw [hm']; simp [h0]⟩
    · exact ⟨.par .constant (k + 2), rfl, by rw [hm']; simp [h0], fun i _ => by rw [hm']; simp [h0]⟩
    · exact ⟨.par .constant (k + 3), rfl, by rw [hm']; simp [h0], fun i _ => by rw [hm']; simp [h0]⟩

/-- **C73, the program of a `.nnet` file.**  For every `.nnet` file that a description can be written to, with a well-formed normaliser
and parameters that are doubles, and every input vector: the importer loads it; the Python reference with normalisation returns a vector
`y'`, the de-normalised value, at the normalised input, of the function that the description stands for; `parameters.c` and
`global_vars.c` are definitions of arrays and variables, `inference.h` declares the context, the C function and exactly these arrays and
variables, `inference.c` is a C function which, if no parameter array is empty, names only declared arrays; and, called on any memory that
these declarations and definitions describe, with the input in `nn_input`, it terminates and leaves `y'` in `prediction`.  There is such a
memory, for some places of the constants. -/
theorem C73_nnet_program [IsStrictOrderedRing K] (L : Lib K) {pf : Line → Option K} (T : Codec K pf) (d : NnetDesc K) (hd : d.Ok) (net : Nnet K)
    (hnet : loadNnet pf (d.file T) = some net) (hN : net.normalizer.WellFormed) (dbl : K → Gen.Dbl) (page : Nat)
    (he : Network.Representable (nnetNetwork net) net.plan dbl) (txt : K → List (CTok K))
    (htxt : ∀ l ∈ [net.normalizer.mins, net.normalizer.maxes, net.normalizer.means, net.normalizer.ranges], ∀ v ∈ l, Const (txt v) v)
    (x : List K) (hx : x.length = d.inputSize) {B : CstBufs} (hB : B.Apart) :
    ∃ x' y' tp defs tg norm vars th fields ti ds s, net.normalizer.preProcessing net.normalizer.inputSize x = some x' ∧
      Graph.interp net.prevOf net.nextOf net.forward net.plan.order x' = some (nnetEval d.layers x') ∧
      net.normalizer.postProcessing (nnetEval d.layers x') = some y' ∧
      paramText dbl page (nnetNetwork net).op net.plan.order = some tp ∧ IsDefs page tp defs ∧
      globalVarsTextN txt net.normalizer = some tg ∧ IsGlobals tg norm vars ∧
      headerTextN net.normalizer (nnetNetwork net) net.plan = some th ∧
      IsHeaderN th fields (defs.map ArrDef.decl) (norm.map ArrDef.decl) (vars.map (·.1)) ∧
      nnetText net = some ti ∧ IsInference ti (d.sizes.getLastD 0) d.inputSize ds s ∧ Declared ds s ∧
      (Network.NoEmpty (nnetNetwork net) net.plan → Within s.arrays (Bound fields (defs.map ArrDef.decl ++ norm.map ArrDef.decl) ds)) ∧
      (∃ m, StartsN (cstBufsAt (d.layers.length + 1)) fields defs norm (d.sizes.getLastD 0) x m) ∧
      ∀ m, StartsN B fields defs norm (d.sizes.getLastD 0) x m → ∃ m', RunsV L B vars ds s m m' ∧ Holds m' .pred y' := by
  obtain ⟨C, hC, hCi, hCm, hCr⟩ := consts_eq net.normalizer hN
  have hnet' := hnet
  rw [load_spec T d hd, Option.some.injEq] at hnet'
  subst hnet'
  obtain ⟨tp, p1, p2⟩ := params_text dbl page (nnetNetwork d.net).op d.net.plan.order he
  obtain ⟨tg, mean, range, g1, g2, g3, g4⟩ := C73_globals txt d.net.normalizer hN htxt
  obtain ⟨th, q1, q2⟩ := headerN_inst d.net.normalizer (Network.infos (nnetNetwork d.net) d.net.plan) d.net.plan.maxPath [] (nnetNetwork d.net).op d.net.plan.order
  rw [g2, Option.some.injEq] at hCm
  rw [g3, Option.some.injEq] at hCr
  -- the memory of the declarations
  have hmem : ∀ m, StartsN B (ctxFields (Network.infos (nnetNetwork d.net) d.net.plan) d.net.plan.maxPath []) (Network.defs (nnetNetwork d.net) d.net.plan)
      (normArrays d.net.normalizer) (d.sizes.getLastD 0) x m →
      (∃ other, declared (d.net.layers.map fun l => { idx := l.idx, size := l.size }) 1 [] other = some m.size) ∧ NnetParams d.net m ∧
        HoldsCst B d.net.normalizer.inputSize C m := by
    intro m hm
    have hM : (nnetNetwork d.net).Memory d.net.plan x m := by
      refine starts_memory (csts := []) ?_ ?_ hm.toStarts
      · rw [dictOf_nnet]; rfl
      · intro n hn
        rw [nnet_last, Option.some.injEq] at hn
        subst hn
        show _ = (nnetOp d.net d.layers.length).size
        rw [nnet_size d _ (le_refl _), net_sizeOf d _ (le_refl _)]
        have hlen : d.sizes.length = d.layers.length + 1 := by simp [NnetDesc.sizes]
        rw [List.getLastD_eq_getLast?, List.getLast?_eq_getElem?, hlen]
        rfl
    refine ⟨?_, ?_, ?_⟩
    · obtain ⟨other, ho⟩ := hM.declared
      have ho' : declared (Network.infos (nnetNetwork d.net) d.net.plan) d.net.plan.maxPath (dictOf d.net.plan) other = some m.size := ho
      rw [dictOf_nnet, infos_nnet] at ho'
      exact ⟨other, ho'⟩
    · intro l hl p hp
      obtain ⟨i, hi, rfl⟩ := List.mem_map.mp hl
      have hi := List.mem_range.mp hi
      by_cases h0 : i = 0
      · subst h0; simp [finalLayer] at hp
      · have hprev : (finalLayer d.layers d.sizes i).prev.getD 0 0 = i - 1 := by
          simp [finalLayer, h0]
        have hp' : p = ⟨transposed (d.layers.getD (i - 1) ([], [])).1,
            fun k => (d.layers.getD (i - 1) ([], [])).2.getD k 0, decide (i < d.layers.length)⟩ := by
          simp only [finalLayer, h0, if_false, Option.some.injEq] at hp
          exact hp.symm
        have hpar : ∀ q ∈ (nnetOp d.net i).params i, Holds m q.1 q.2 := hM.params i (by rw [net_order, List.mem_range]; omega)
        rw [nnet_op d i (by omega), if_neg h0] at hpar
        subst hp'
        rw [hprev, net_sizeOf d _ (by omega : i - 1 ≤ d.layers.length)]
        exact ⟨hpar _ (by simp only [Op.params, List.mem_cons]; exact .inl rfl), hpar _ (by simp only [Op.params, List.mem_cons]; exact .inr (.inl rfl))⟩
    · have hdl : ∀ l : List K, l.length = d.net.normalizer.inputSize + 1 → ∀ i < d.net.normalizer.inputSize, l.dropLast.getD i 0 = l.getD i 0 := by
        intro l h i hi
        have h1 : i < l.dropLast.length := by rw [List.length_dropLast, h]; omega
        rw [getD_of_lt _ _ h1, getD_of_lt _ _ (by omega : i < l.length), List.getElem_dropLast]
      obtain ⟨b1, e1, s1, v1⟩ := hm.norm ⟨cId (chars! "input_min"), _, _⟩ (by simp only [normArrays, List.mem_cons]; exact .inl rfl)
      obtain ⟨b2, e2, s2, v2⟩ := hm.norm ⟨cId (chars! "input_max"), _, _⟩ (by simp only [normArrays, List.mem_cons]; exact .inr (.inl rfl))
      obtain ⟨b3, e3, s3, v3⟩ := hm.norm ⟨cId (chars! "input_mean"), _, _⟩ (by simp only [normArrays, List.mem_cons]; exact .inr (.inr (.inl rfl)))
      obtain ⟨b4, e4, s4, v4⟩ := hm.norm ⟨cId (chars! "input_range"), _, _⟩ (by simp only [normArrays, List.mem_cons]; exact .inr (.inr (.inr (.inl rfl))))
      have f1 : B.lo = b1 := Option.some.inj e1
      have f2 : B.hi = b2 := Option.some.inj e2
      have f3 : B.mean = b3 := Option.some.inj e3
      have f4 : B.range = b4 := Option.some.inj e4
      subst f1 f2 f3 f4
      constructor <;> intro i hi <;> obtain ⟨c1, c2, c3, c4⟩ := hCi i hi
      · exact ⟨by rw [s1]; exact hi, by rw [v1 i hi, c1]⟩
      · exact ⟨by rw [s2]; exact hi, by rw [v2 i hi, c2]⟩
      · exact ⟨by rw [s3]; exact hi, by rw [v3 i hi, c3]; exact hdl _ hN.means i hi⟩
      · exact ⟨by rw [s4]; exact hi, by rw [v4 i hi, c4]; exact hdl _ hN.ranges i hi⟩
  obtain ⟨ti, s, t1, t2, t3, t4, t5⟩ := nnet_source L d C hB
  -- what the reference returns
  obtain ⟨other0, sizes0, m0, a1, a2, a3, a4, a5⟩ := nnet_memory_exists d x
  rw [nnetEval_length d hd x hx] at a5
  obtain ⟨C0, m0', x', y, y', hC0, e1, e2, rfl, e3, -, -⟩ := C46_network T d hd d.net hnet hN other0 sizes0 a1 m0 a2 a3 x hx a4 a5
  refine ⟨x', y', tp, _, tg, normArrays d.net.normalizer, [(cId (chars! "output_mean"), mean), (cId (chars! "output_range"), range)], th,
    ctxFields (Network.infos (nnetNetwork d.net) d.net.plan) d.net.plan.maxPath [], ti, _, s, e1, e2, e3, p1, p2, g1, g4, ?_, ?_, t1, t2, t3, ?_, C73_program_memory d x, ?_⟩
  · unfold headerTextN
    rw [dictOf_nnet]
    simp only [written, Option.bind_some]
    exact q1
  · convert q2 using 1
    · rw [List.map_map]
      rfl
    · rfl
  · exact fun hne => t4.mono fun a ha => nnet_bound d hne ha
  · intro m hm
    obtain ⟨⟨other, ho⟩, h1, h2⟩ := hmem m hm
    obtain ⟨C1, m', x1, y1, y1', hC1, i1, i2, rfl, i3, i4, i5⟩ := C46_network T d hd d.net hnet hN other m.size ho m rfl h1 x hx hm.input hm.pred
    rw [e1, Option.some.injEq] at i1
    subst i1
    rw [e3, Option.some.injEq] at i3
    subst i3
    rw [hC, Option.some.injEq] at hC1
    subst hC1
    obtain ⟨F₀, hF⟩ := t5 m m' h2 i4
    refine ⟨m', ⟨F₀, fun F hle e he hv => hF F hle e he ?_ ?_⟩, i5⟩
    · rw [hCr]; exact hv _ (by simp only [List.mem_cons]; exact .inr (.inl rfl))
    · rw [hCm]; exact hv _ (by simp only [List.mem_cons]; exact .inl rfl)

end program

end Verif.CText

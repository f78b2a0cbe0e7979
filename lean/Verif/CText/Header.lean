import Verif.CText.Files

/-!
# The text of `inference.h`
-/

namespace Verif.CText
open Net Layers
set_option linter.unusedVariables false
set_option linter.unusedSectionVars false
variable {K : Type} [Field K]

/-! ## The dictionary `written` -/

theorem lookup_map_eq (w : List (Nat × Nat)) (k : Nat) (f : Nat → Nat) (k' : Nat) :
    (w.map fun p => if p.1 = k then (k, f p.2) else p).lookup k' = if k' = k then (w.lookup k').map f else w.lookup k' := by
  induction w with
  | nil => simp [List.lookup]
  | cons p w ih =>
    obtain ⟨a, b⟩ := p
    rw [List.map_cons]
    by_cases ha : a = k
    · subst ha
      rw [if_pos rfl, List.lookup_cons, List.lookup_cons, ih]
      by_cases h : k' = a
      · subst h; simp
      · have : (k' == a) = false := by simpa using h
        simp [h, this]
    · rw [if_neg ha, List.lookup_cons, List.lookup_cons, ih]
      by_cases h : k' = a
      · subst h; simp [ha]
      · have : (k' == a) = false := by simpa using h
        simp [this]

theorem lookup_append_single (w : List (Nat × Nat)) (k s k' : Nat) : (w ++ [(k, s)]).lookup k' = (w.lookup k').or (if k' = k then some s else none) := by
  induction w with
  | nil => by_cases h : k' = k <;> simp [List.lookup, h]
  | cons p w ih =>
    rw [List.cons_append, List.lookup_cons, List.lookup_cons, ih]
    cases k' == p.1 <;> simp

/-- the dictionary as a function is that of `Gen.cstSizes` -/
theorem written_spec (ls : List Gen.LayerInfo) (dict : List (Nat × Nat)) (layer : Option Gen.LayerInfo) (w : List (Nat × Nat)) :
    Gen.cstSizes ls dict layer (fun k => w.lookup k) = (written ls dict layer w).map fun w' k => w'.lookup k := by
  induction dict generalizing layer w with
  | nil => rfl
  | cons p rest ih =>
    obtain ⟨idx, k⟩ := p
    simp only [Gen.cstSizes, written]
    cases (ls.find? fun l => l.idx == idx).or layer with
    | none => rfl
    | some l =>
      simp only
      rw [← ih]
      congr 1
      funext k'
      cases hk : w.lookup k with
      | none =>
        simp only [Option.isSome_none, Bool.false_eq_true, if_false, lookup_append_single]
        by_cases h : k' = k
        · subst h; simp [hk]
        · simp [h]
      | some s =>
        simp only [Option.isSome_some, if_true, lookup_map_eq w k fun a => max a l.size]
        by_cases h : k' = k
        · subst h; simp [hk]
        · simp [h]

/-- no number is written twice -/
theorem written_nodup (ls : List Gen.LayerInfo) (dict : List (Nat × Nat)) (layer : Option Gen.LayerInfo) (w w' : List (Nat × Nat)) (hw : (w.map (·.1)).Nodup)
    (h : written ls dict layer w = some w') : (w'.map (·.1)).Nodup := by
  induction dict generalizing layer w with
  | nil => cases h; exact hw
  | cons p rest ih =>
    obtain ⟨idx, k⟩ := p
    simp only [written] at h
    cases hl : (ls.find? fun l => l.idx == idx).or layer with
    | none => rw [hl] at h; cases h
    | some l =>
      rw [hl] at h
      refine ih _ _ ?_ h
      split
      · have : (w.map fun p => if p.1 = k then (k, max p.2 l.size) else p).map (·.1) = w.map (·.1) := by
          rw [List.map_map]
          refine List.map_congr_left fun p _ => ?_
          simp only [Function.comp]
          split
          · rename_i h; exact h.symm
          · rfl
        rw [this]; exact hw
      · rename_i hk
        rw [List.map_append, List.nodup_append]
        refine ⟨hw, by simp, ?_⟩
        intro a ha b hb hab
        simp only [List.map_cons, List.map_nil, List.mem_singleton] at hb
        subst hb; subst hab
        apply hk
        obtain ⟨q, hq, e⟩ := List.mem_map.1 ha
        rw [Option.isSome_iff_exists]
        clear hk hw h ih
        induction w with
        | nil => cases hq
        | cons r w ihw =>
          rw [List.lookup_cons]
          cases hr : (a == r.1) with
          | true => exact ⟨_, rfl⟩
          | false =>
            rcases List.mem_cons.1 hq with rfl | hq
            · rw [e] at hr; simp at hr
            · exact ihw (List.mem_map.2 ⟨q, hq, e⟩) hq

/-! ## The text -/

def hdrT : List TTok := (tokens Tpl.header_file).getD []
def hdrSec (n : Nat) : List TTok := match hdrT.drop n with | .sec _ b :: _ => b | _ => []
def hdrSub (n : Nat) : List TTok := match (hdrSec 17).drop n with | .sec _ b :: _ => b | _ => []

theorem hdr_tokens : tokens Tpl.header_file = some (hdrT.take 4 ++ ([.sec (chars! "path") (hdrSec 4)] ++ ([.sec (chars! "cst") (hdrSec 5)] ++
    ([.sec (chars! "temp_size") (hdrSec 6)] ++ ((hdrT.drop 7).take 10 ++ ([.sec (chars! "layers") (hdrSec 17)] ++ hdrT.drop 18)))))) := by kernel_rfl

theorem hdr_body_eq : hdrSec 17 = [.sec (chars! "nb_weights") (hdrSub 0)] ++ ([.sec (chars! "nb_biases") (hdrSub 1)] ++ ([.sec (chars! "patches_size") (hdrSub 2)] ++
      ([.sec (chars! "channels") (hdrSub 3)] ++ [.sec (chars! "constant_size") (hdrSub 4)]))) := by kernel_rfl

/-- `output_k`, `cst_k`, `tensor_temp` -/
def outId (k : Nat) : Ident := (.output, some ⟨false, k⟩)
def cstId (k : Nat) : Ident := (.cst, some ⟨false, k⟩)
def tempId : Ident := (.tensor_temp, none)

/-- the fields of the struct -/
def ctxFields (ls : List Gen.LayerInfo) (maxPath : Nat) (csts : List (Nat × Nat)) : List Field' :=
  (List.range maxPath).map (fun i => ⟨outId i, Gen.pathSize ls⟩) ++ (csts.map (fun p => ⟨cstId p.1, p.2⟩) ++ [⟨tempId, Gen.tempSize ls⟩])

section
variable (ls : List Gen.LayerInfo) (maxPath : Nat) (csts : List (Nat × Nat)) (op : Nat → Op K) (order : List Nat)

theorem hdr_path (i : Nat) : inst (hdrSec 4) ([(chars! ".", .num i)] ++ headerHash ls maxPath csts op order) = some (fieldT ⟨outId i, Gen.pathSize ls⟩) := by kernel_rfl

theorem hdr_cst (p : Nat × Nat) : inst (hdrSec 5) ([(chars! "name", .num p.1), (chars! "size", .num p.2)] ++ headerHash ls maxPath csts op order) = some (fieldT ⟨cstId p.1, p.2⟩) := by
  kernel_rfl

theorem hdr_temp : inst (hdrSec 6) (headerHash ls maxPath csts op order) = some (fieldT ⟨tempId, Gen.tempSize ls⟩) := by kernel_rfl

theorem tempSize_pos : Gen.tempSize ls ≠ 0 := by
  have : ∀ (l : List Gen.LayerInfo) (a : Nat), 0 < a → 0 < l.foldl (fun a l =>
      let a := match l.patches with
        | some p => if p > a then p else a
        | none => a
      if l.concat then max a l.size else a) a := by
    intro l
    induction l with
    | nil => exact fun a h => h
    | cons x l ih =>
      intro a h
      refine ih _ ?_
      have h1 : 0 < (match x.patches with
        | some p => if p > a then p else a
        | none => a) := by
        cases x.patches with
        | none => exact h
        | some p =>
          by_cases hp : p > a
          · simp only [hp, if_true]; omega
          · simp only [hp, if_false]; exact h
      simp only
      split
      · exact Nat.lt_of_lt_of_le h1 (Nat.le_max_left _ _)
      · exact h1
  have h := this ls 1 (by omega)
  have h2 : Gen.patchesSizeMax ls ≤ Gen.tempSize ls := Nat.le_max_right _ _
  have h3 : 0 < Gen.patchesSizeMax ls := h
  omega

/-- `extern` declarations, as a relation between a text and what it declares -/
def IsExterns (ts : List (CTok K)) (es : List Field') : Prop := ts = es.flatMap externT

theorem IsExterns.append {a b : List (CTok K)} {c d : List Field'} (h : IsExterns a c) (h' : IsExterns b d) : IsExterns (a ++ b) (c ++ d) := by
  unfold IsExterns at *; rw [h, h', List.flatMap_append]

theorem extern_one (x : Ident) (l : List K) : IsExterns (K := K) (if l.length = 0 then [] else externT ⟨x, l.length⟩) ((nonEmpty [(x, l)]).map arrDecl) := by
  cases l with
  | nil => rfl
  | cons v l => simp [IsExterns, nonEmpty, arrDecl]

theorem hdr_wb (name : List Char) (idx : Nat) (w b : List K)
    (h0 : ∀ (nw nb : Nat), inst (hdrSub 0) (nameIdx name idx ++ [(chars! "nb_weights", .num nw), (chars! "nb_biases", .num nb)] ++ headerHash ls maxPath csts op order) =
        some (externT ⟨parId (chars! "weights_" ++ name) idx, nw⟩))
    (h1 : ∀ (nw nb : Nat), inst (hdrSub 1) (nameIdx name idx ++ [(chars! "nb_weights", .num nw), (chars! "nb_biases", .num nb)] ++ headerHash ls maxPath csts op order) =
        some (externT ⟨parId (chars! "biases_" ++ name) idx, nb⟩)) :
    ∃ t, inst (hdrSec 17) (nameIdx name idx ++ [(chars! "nb_weights", .num w.length), (chars! "nb_biases", .num b.length)] ++ headerHash ls maxPath csts op order) = some t ∧
      IsExterns t ((nonEmpty [(parId (chars! "weights_" ++ name) idx, w), (parId (chars! "biases_" ++ name) idx, b)]).map arrDecl) := by
  rw [hdr_body_eq]
  refine ⟨_, inst_append_some (inst_num (n := w.length) rfl (h0 ..)) (inst_append_some (inst_num (n := b.length) rfl (h1 ..)) (inst_append_some (inst_absent rfl)
    (inst_append_some (inst_absent rfl) (inst_absent rfl)))), ?_⟩
  rw [nonEmpty_cons, List.map_append, List.append_nil, List.append_nil, List.append_nil]
  exact (extern_one _ w).append (extern_one _ b)

theorem hdr_constant (idx : Nat) (w : List K) :
    ∃ t, inst (hdrSec 17) (nameIdx (chars! "Constant") idx ++ [(chars! "nb_weights", .num w.length)] ++ headerHash ls maxPath csts op order) = some t ∧
      IsExterns t ((nonEmpty [(parId (chars! "weights_Constant") idx, w)]).map arrDecl) := by
  rw [hdr_body_eq]
  have h0 : ∀ nw : Nat, inst (hdrSub 0) (nameIdx (chars! "Constant") idx ++ [(chars! "nb_weights", .num nw)] ++ headerHash ls maxPath csts op order) =
        some (externT ⟨parId (chars! "weights_Constant") idx, nw⟩) := fun nw => by kernel_rfl
  refine ⟨_, inst_append_some (inst_num (n := w.length) rfl (h0 ..)) (inst_append_some (inst_absent rfl) (inst_append_some (inst_absent rfl)
    (inst_append_some (inst_absent rfl) (inst_absent rfl)))), ?_⟩
  rw [List.append_nil, List.append_nil, List.append_nil, List.append_nil]
  exact extern_one _ w

theorem hdr_broadcast (o : BOp) (idx : Nat) (w : List K) :
    ∃ t, inst (hdrSec 17) (nameIdx (bcName o) idx ++ [(chars! "constant_size", .num w.length)] ++ headerHash ls maxPath csts op order) = some t ∧
      IsExterns t ((nonEmpty [(parId (chars! "constant_" ++ bcName o) idx, w)]).map arrDecl) := by
  rw [hdr_body_eq]
  have h0 : ∀ nw : Nat, inst (hdrSub 4) (nameIdx (bcName o) idx ++ [(chars! "constant_size", .num nw)] ++ headerHash ls maxPath csts op order) =
        some (externT ⟨parId (chars! "constant_" ++ bcName o) idx, nw⟩) := fun nw => by cases o <;> kernel_rfl
  exact ⟨_, inst_append_some (inst_absent rfl) (inst_append_some (inst_absent rfl) (inst_append_some (inst_absent rfl)
    (inst_append_some (inst_absent rfl) (inst_num (n := w.length) rfl (h0 ..))))), extern_one _ w⟩

theorem hdr_batchNorm (idx C : Nat) (bi me va sc : Nat → K) :
    ∃ t, inst (hdrSec 17) (nameIdx (chars! "BatchNormalization") idx ++ [(chars! "nb_biases", .num C), (chars! "channels", .num C)] ++ headerHash ls maxPath csts op order) = some t ∧
      IsExterns t ((nonEmpty [(parId (chars! "biases_BatchNormalization") idx, tensor C bi), (parId (chars! "mean_BatchNormalization") idx, tensor C me),
       (parId (chars! "var_BatchNormalization") idx, tensor C va), (parId (chars! "scale_BatchNormalization") idx, tensor C sc)]).map arrDecl) := by
  rw [hdr_body_eq]
  have h0 : inst (hdrSub 1) (nameIdx (chars! "BatchNormalization") idx ++ [(chars! "nb_biases", .num C), (chars! "channels", .num C)] ++ headerHash ls maxPath csts op order) =
        some (externT ⟨parId (chars! "biases_BatchNormalization") idx, C⟩) := by kernel_rfl
  have h1 : inst (hdrSub 3) (nameIdx (chars! "BatchNormalization") idx ++ [(chars! "nb_biases", .num C), (chars! "channels", .num C)] ++ headerHash ls maxPath csts op order) =
        some (externT ⟨parId (chars! "mean_BatchNormalization") idx, C⟩ ++ (externT ⟨parId (chars! "var_BatchNormalization") idx, C⟩ ++
          externT ⟨parId (chars! "scale_BatchNormalization") idx, C⟩)) := by kernel_rfl
  refine ⟨_, inst_append_some (inst_absent rfl) (inst_append_some (inst_num (n := C) rfl h0) (inst_append_some (inst_absent rfl)
    (inst_append_some (inst_num (n := C) rfl h1) (inst_absent rfl)))), ?_⟩
  have l : ∀ f : Nat → K, (tensor C f).length = C := fun f => by simp [tensor]
  have d1 := extern_one (parId (chars! "biases_BatchNormalization") idx) (tensor C bi)
  have d2 := extern_one (parId (chars! "mean_BatchNormalization") idx) (tensor C me)
  have d3 := extern_one (parId (chars! "var_BatchNormalization") idx) (tensor C va)
  have d4 := extern_one (parId (chars! "scale_BatchNormalization") idx) (tensor C sc)
  rw [l] at d1 d2 d3 d4
  rw [nonEmpty_cons, nonEmpty_cons _ [_, _], nonEmpty_cons _ [_], List.map_append, List.map_append, List.map_append]
  have := d1.append (d2.append (d3.append d4))
  by_cases hC : C = 0
  · simp only [hC, if_true, List.append_nil] at this ⊢; exact this
  · simp only [hC, if_false, List.append_nil, List.nil_append] at this ⊢; exact this

theorem hdr_layer (n : Nat) (o : Op K) (it : Hash K) (hit : headerItem n o = some it) :
    ∃ t, inst (hdrSec 17) (it ++ headerHash ls maxPath csts op order) = some t ∧ IsExterns t ((nonEmpty (parArrays n o)).map arrDecl) := by
  cases o with
  | constant v => cases hit; exact hdr_constant ls maxPath csts op order n v.data
  | dense p m w b f => cases hit; exact hdr_wb ls maxPath csts op order (chars! "Dense") n _ _ (fun _ _ => by kernel_rfl) (fun _ _ => by kernel_rfl)
  | gemm tA tB M N Kd al be w c f => cases hit; exact hdr_wb ls maxPath csts op order (chars! "Gemm") n _ _ (fun _ _ => by kernel_rfl) (fun _ _ => by kernel_rfl)
  | conv a c wt b f => cases hit; exact hdr_wb ls maxPath csts op order (chars! "Conv2D") n _ _ (fun _ _ => by kernel_rfl) (fun _ _ => by kernel_rfl)
  | broadcast o s ss c f =>
    cases c with
    | none => cases hit
    | some c => cases hit; exact hdr_broadcast ls maxPath csts op order o n c.flat
  | batchNorm s e sc me va bi f => cases hit; exact hdr_batchNorm ls maxPath csts op order n s.C bi me va sc
  | _ => cases hit

theorem headerItem_none {n : Nat} {o : Op K} (h : headerItem n o = none) : parArrays n o = [] := by
  cases o with
  | broadcast o s ss c f => cases c <;> first | rfl | cases h
  | _ => first | rfl | cases h

theorem header_inst : ∃ ts, (tokens Tpl.header_file).bind (fun tt => inst tt (headerHash ls maxPath csts op order)) = some ts ∧
    IsHeader ts (ctxFields ls maxPath csts) ((nonEmpty (order.flatMap fun n => parArrays n (op n))).map arrDecl) := by
  obtain ⟨t, h1, h2⟩ := join_layers (R := IsExterns (K := K)) rfl IsExterns.append (item := fun n => headerItem n (op n)) (body := hdrSec 17) (H := headerHash ls maxPath csts op order)
    (defs := fun n => (nonEmpty (parArrays n (op n))).map arrDecl) order (fun n hn it hit => hdr_layer ls maxPath csts op order n (op n) it hit)
    (fun n hn => by rw [headerItem_none hn]; rfl)
  have e1 : inst (hdrT.take 4) (headerHash ls maxPath csts op order) = some (rendered (chars! "typedef struct inference_t{") []) := by kernel_rfl
  have e2 := inst_list (k := chars! "path") (h := headerHash ls maxPath csts op order) (l := List.range maxPath) (g := fun i => [(chars! ".", .num i)]) rfl (hdr_path ls maxPath csts op order)
  have e3 := inst_list (k := chars! "cst") (h := headerHash ls maxPath csts op order) (l := csts) (g := fun p => [(chars! "name", .num p.1), (chars! "size", .num p.2)]) rfl
    (hdr_cst ls maxPath csts op order)
  have e4 := inst_num (k := chars! "temp_size") (n := Gen.tempSize ls) rfl (hdr_temp ls maxPath csts op order)
  rw [if_neg (tempSize_pos ls)] at e4
  have e5 : inst ((hdrT.drop 7).take 10) (headerHash ls maxPath csts op order) = some (rendered (chars! "}inference_t; extern inference_t Context[MAX_BATCH_SIZE];") []) := by kernel_rfl
  have e6 : inst [.sec (chars! "layers") (hdrSec 17)] (headerHash ls maxPath csts op order) = some t := by
    simp only [inst, inst1]
    have : (headerHash ls maxPath csts op order).lookup (chars! "layers") = some (.list (order.filterMap fun n => headerItem n (op n))) := rfl
    rw [this]
    simp only [h1]
    simp
  have e7 : inst (hdrT.drop 18) (headerHash ls maxPath csts op order) = some (rendered (chars! "int inference(inference_t *context, float *prediction, float *nn_input);") []) := by kernel_rfl
  rw [hdr_tokens, Option.bind_some]
  refine ⟨_, inst_append_some e1 (inst_append_some e2 (inst_append_some e3 (inst_append_some e4 (inst_append_some e5 (inst_append_some e6 e7))))), ?_⟩
  have h3 : t = ((nonEmpty (order.flatMap fun n => parArrays n (op n))).map arrDecl).flatMap externT := by
    have key : ∀ l : List Nat, (l.flatMap fun n => (nonEmpty (parArrays n (op n))).map arrDecl) = (nonEmpty (l.flatMap fun n => parArrays n (op n))).map arrDecl := by
      intro l
      induction l with
      | nil => rfl
      | cons n l ih => rw [List.flatMap_cons, List.flatMap_cons, nonEmpty_append, List.map_append, ih]
    rw [← key]; exact h2
  unfold IsHeader ctxFields
  rw [h3]
  simp only [List.flatMap_append, List.flatMap_map, List.flatMap_cons, List.flatMap_nil, List.append_nil, List.append_assoc]

end

/-- `global_vars.c` is the definition of the array `Context` -/
theorem globalVars_text : globalVarsText (K := K) = some (rendered (chars! "inference_t Context[MAX_BATCH_SIZE];") []) := by kernel_rfl

end Verif.CText

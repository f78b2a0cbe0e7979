import Verif.CText.Project

/-!
# C62: the texts say what they declare and define without ambiguity; all names are declared
-/

namespace Verif.CText
open Prog Layers Net
set_option linter.unusedVariables false
set_option linter.unusedSectionVars false
variable {K : Type} [Field K]

/-! ## Reading back -/

theorem fields_inj (X X' : List (CTok K)) : ∀ fs gs : List Field', fs.flatMap fieldT ++ .punct .rbrc :: X = gs.flatMap fieldT ++ .punct .rbrc :: X' → fs = gs ∧ X = X' := by
  intro fs
  induction fs with
  | nil =>
    intro gs h
    cases gs with
    | nil => simpa using h
    | cons g gs => simp [fieldT] at h
  | cons f fs ih =>
    intro gs h
    cases gs with
    | nil => simp [fieldT] at h
    | cons g gs =>
      simp only [List.flatMap_cons, List.append_assoc, fieldT, List.cons_append, List.cons.injEq, true_and, CTok.id.injEq, CTok.num.injEq, List.append_cancel_left_eq] at h
      obtain ⟨h1, h2, h3⟩ := h
      obtain ⟨h4, h5⟩ := ih gs h3
      refine ⟨?_, h5⟩
      rw [h4]
      congr 1
      cases f; cases g
      simp_all

theorem externs_inj (k : Kw) (X X' : List (CTok K)) : ∀ fs gs : List Field', fs.flatMap externT ++ .kw k :: X = gs.flatMap externT ++ .kw k :: X' → fs = gs ∧ X = X' := by
  intro fs
  induction fs with
  | nil =>
    intro gs h
    cases gs with
    | nil => simpa using h
    | cons g gs => simp [externT] at h
  | cons f fs ih =>
    intro gs h
    cases gs with
    | nil => simp [externT] at h
    | cons g gs =>
      simp only [List.flatMap_cons, List.append_assoc, externT, List.cons_append, List.nil_append, List.cons.injEq, true_and, CTok.id.injEq, CTok.num.injEq] at h
      obtain ⟨h1, h2, h3⟩ := h
      obtain ⟨h4, h5⟩ := ih gs h3
      refine ⟨?_, h5⟩
      rw [h4]
      congr 1
      cases f; cases g
      simp_all

/-- **C62.**  A text is a header for at most one context and one list of constant arrays. -/
theorem C62_header_unique {ts : List (CTok K)} {fs es fs' es' : List Field'} (h : IsHeader ts fs es) (h' : IsHeader ts fs' es') : fs = fs' ∧ es = es' := by
  unfold IsHeader at h h'
  rw [h'] at h
  have h := List.append_cancel_left h
  have e1 : (rendered (chars! "}inference_t; extern inference_t Context[MAX_BATCH_SIZE];") [] : List (CTok K)) =
      .punct .rbrc :: (rendered (chars! "}inference_t; extern inference_t Context[MAX_BATCH_SIZE];") []).tail := by kernel_rfl
  have e2 : (rendered (chars! "int inference(inference_t *context, float *prediction, float *nn_input);") [] : List (CTok K)) =
      .kw .int_ :: (rendered (chars! "int inference(inference_t *context, float *prediction, float *nn_input);") []).tail := by kernel_rfl
  rw [e1, e2, List.cons_append] at h
  obtain ⟨h1, h2⟩ := fields_inj _ _ _ _ h
  have h2 := List.append_cancel_left h2
  obtain ⟨h3, _⟩ := externs_inj _ _ _ _ _ h2
  exact ⟨h1.symm, h3.symm⟩

/-- the tokens of constants -/
def constTok : CTok K → Bool
  | .flt _ | .punct .minus | .punct .comma => true
  | _ => false

theorem const_toks {ts : List (CTok K)} {v : K} (h : Const ts v) : ∀ t ∈ ts, constTok t = true := by
  cases h <;> simp [constTok]

theorem consts_toks {ts : List (CTok K)} {vs : List K} (h : Consts ts vs) : ∀ t ∈ ts, constTok t = true := by
  induction h with
  | one h => exact const_toks h
  | cons h _ ih =>
    intro t ht
    rcases List.mem_append.1 ht with ht | ht
    · exact const_toks h t ht
    · rcases List.mem_cons.1 ht with rfl | ht
      · rfl
      · exact ih t ht

theorem split_rbrc {a b : List (CTok K)} (X X' : List (CTok K)) (ha : ∀ t ∈ a, constTok t = true) (hb : ∀ t ∈ b, constTok t = true)
    (h : a ++ .punct .rbrc :: X = b ++ .punct .rbrc :: X') : a = b ∧ X = X' := by
  induction a generalizing b with
  | nil =>
    cases b with
    | nil => simpa using h
    | cons t b =>
      simp only [List.nil_append, List.cons_append, List.cons.injEq] at h
      have := hb t (by simp)
      rw [← h.1] at this
      cases this
  | cons t a ih =>
    cases b with
    | nil =>
      simp only [List.nil_append, List.cons_append, List.cons.injEq] at h
      have := ha t (by simp)
      rw [h.1] at this
      cases this
    | cons u b =>
      simp only [List.cons_append, List.cons.injEq] at h
      obtain ⟨rfl, h⟩ := h
      obtain ⟨rfl, h2⟩ := ih (fun t ht => ha t (by simp [ht])) (fun t ht => hb t (by simp [ht])) h
      exact ⟨rfl, h2⟩

theorem const_head {ts us r r' : List (CTok K)} {v w : K} (h : Const ts v) (h' : Const us w) (e : ts ++ r = us ++ r') : v = w ∧ r = r' := by
  cases h <;> cases h' <;> simp at e <;> first | exact e | (obtain ⟨rfl, rfl⟩ := e; exact ⟨rfl, rfl⟩)

theorem consts_unique {ts : List (CTok K)} {vs : List K} (h : Consts ts vs) : ∀ {ws : List K}, Consts ts ws → vs = ws := by
  induction h with
  | @one ts v h =>
    intro ws h'
    cases h' with
    | one h' => obtain ⟨rfl, _⟩ := const_head h h' (r := []) (r' := []) rfl; rfl
    | @cons ts' us w ws h1 h2 =>
      have := const_head h h1 (r := []) (r' := .punct .comma :: us) (by simp)
      cases this.2
  | @cons ts us v vs h1 h2 ih =>
    intro ws h'
    generalize e : ts ++ .punct .comma :: us = x at h'
    cases h' with
    | one h' =>
      have := const_head h1 h' (r := .punct .comma :: us) (r' := []) (by simpa using e)
      cases this.2
    | @cons ts' us' w ws h3 h4 =>
      obtain ⟨rfl, e2⟩ := const_head h1 h3 e
      simp only [List.cons.injEq, true_and] at e2
      subst e2
      rw [ih h4]

/-- **C62.**  A text is definitions of at most one list of constant arrays: their names, sizes and elements are determined. -/
theorem C62_params_unique {page : Nat} {ts : List (CTok K)} {ds es : List (ArrDef K)} (h : IsDefs page ts ds) (h' : IsDefs page ts es) : ds = es := by
  induction h generalizing es with
  | nil =>
    generalize e : ([] : List (CTok K)) = x at h'
    cases h' with
    | nil => rfl
    | cons _ _ _ => simp [defT] at e
  | @cons x n init rest vals ds hc hl hr ih =>
    generalize e : defT page x n init ++ rest = y at h'
    cases h' with
    | nil => simp [defT] at e
    | @cons x' n' init' rest' vals' ds' hc' hl' hr' =>
      simp only [defT, List.cons_append, List.append_assoc, List.cons.injEq, true_and, CTok.id.injEq, CTok.num.injEq, List.append_cancel_left_eq, List.nil_append] at e
      obtain ⟨rfl, rfl, e⟩ := e
      obtain ⟨rfl, e2⟩ := split_rbrc _ _ (consts_toks hc) (consts_toks hc') e
      simp only [List.cons.injEq, true_and] at e2
      subst e2
      rw [ih hr', consts_unique hc hc']

/-! ## All names are declared -/

variable [LinearOrder K] [FloorRing K]

/-- **C62, names.**  Every array that `inference.c` names is an argument of the function, a local array of indices, a field that
`inference.h` gives to the context, or a constant array that `inference.h` declares and `parameters.c` defines. -/
theorem C62_linked [IsStrictOrderedRing K] (t : Texts K) (L : Lib K) (net : Network K) (hu : Graph.UniqueIdx net.graph) (hc : Graph.Consistent net.graph) (plan : Graph.Plan)
    (h : Graph.triTopo net.graph = some plan) (ht : t.Of L net plan) (first last : Nat) (hfirst : plan.order.head? = some first) (hlast : plan.order.getLast? = some last)
    (hpos : ∀ n ∈ plan.order, (net.op n).Positive)
    (hsome : ∀ n ∈ plan.order, ((net.op n).code L.cmath net.fmt n (plan.path n) ((net.graph.prevOf n).map (Graph.outStr plan))).isSome = true)
    (dbl : K → Gen.Dbl) (page : Nat) (he : Network.Representable net plan dbl) (hne : Network.NoEmpty net plan) :
    ∃ tp defs th fields ti ds s, paramText dbl page net.op plan.order = some tp ∧ IsDefs page tp defs ∧ headerText net plan = some th ∧
      IsHeader th fields (defs.map ArrDef.decl) ∧ sourceText t net plan = some ti ∧ IsInference ti (net.op last).size (net.op first).size ds s ∧
      Within s.arrays (Bound fields (defs.map ArrDef.decl) ds) := by
  have hnd : plan.order.Nodup := (Graph.plan_perm hu hc h).symm.nodup hu
  obtain ⟨tp, th, fields, p1, p2, p3, p4, p5, p6, csts, hw, rfl⟩ := C62_files net hu hc plan h dbl page he
  obtain ⟨ts, s, h1, h2, h3, hu', h4⟩ := C54_source_renders t L net plan ht hnd first last hfirst hlast hpos hsome
  exact ⟨tp, _, th, _, ts, _, s, p1, p2, p3, p4, h1, h2, hu'.mono fun a ha => ha.bound hu hc h hne hw⟩

/-- **C62, memory.**  Whatever the network, there is a memory as these files describe, for any input; and on every such memory
the arrays have the sizes, and the parameters the values, that the program `Network.inference` expects. -/
theorem C62_memory (net : Network K) (hu : Graph.UniqueIdx net.graph) (hc : Graph.Consistent net.graph) (plan : Graph.Plan) (h : Graph.triTopo net.graph = some plan)
    (dbl : K → Gen.Dbl) (page : Nat) (he : Network.Representable net plan dbl) (last : Nat) (hlast : plan.order.getLast? = some last) (x : List K) :
    ∃ tp defs th fields, paramText dbl page net.op plan.order = some tp ∧ IsDefs page tp defs ∧ headerText net plan = some th ∧
      IsHeader th fields (defs.map ArrDef.decl) ∧ (∃ m, Starts fields defs (net.op last).size x m) ∧
      ∀ m, Starts fields defs (net.op last).size x m → net.Memory plan x m := by
  have hnd : plan.order.Nodup := (Graph.plan_perm hu hc h).symm.nodup hu
  obtain ⟨tp, th, fields, p1, p2, p3, p4, p5, p6, csts, hw, rfl⟩ := C62_files net hu hc plan h dbl page he
  obtain ⟨m0, hm0, _⟩ := starts_exists net plan hnd (written_nodup _ _ _ _ _ (by simp) hw) (net.op last).size x
  exact ⟨tp, _, th, _, p1, p2, p3, p4, ⟨m0, hm0⟩, fun m hm => starts_memory hw (fun n hn => by rw [hlast] at hn; cases hn; rfl) hm⟩

/-- **C62, an empty array.**  A parameter array without elements is not declared although the text of its layer names it: here a
convolution without filters. -/
theorem C62_empty_not_declared (n : Nat) (c : ConvP) (wt : Nat → Nat → Nat → Nat → K) (b : Nat → K) (f : K → K) (hc : c.filters = 0) :
    nonEmpty (parArrays n (.conv .loops6 c wt b f)) = [] := by
  have h1 : tensor4 c.filters c.inC c.kh c.kw wt = [] := by rw [hc]; simp [tensor4]
  have h2 : tensor c.filters b = [] := by rw [hc]; simp [tensor]
  simp [parArrays, nonEmpty, h1, h2]

end Verif.CText

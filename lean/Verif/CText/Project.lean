import Verif.CText.Header
import Verif.CText.Source

/-!
# The generated files together

`parameters.c` defines what `inference.h` declares; `inference.c` names only arrays that are declared (C62).  The memory that
these definitions and declarations give is the one that `inference` needs: the program made of the generated files computes
what `compute_inference` returns (C63).
-/

namespace Verif.CText
open Prog Layers Net
set_option linter.unusedVariables false
set_option linter.unusedSectionVars false
variable {K : Type} [Field K]

/-! ## Specification -/

/-- the declaration that matches a definition -/
def ArrDef.decl (d : ArrDef K) : Field' := ⟨d.id, d.size⟩

/-- An array that a function may name: a field of the context, a constant array of another file, an argument, a local array
of integers. -/
inductive Bound (fields externs : List Field') (ds : List Dcl) : Bool × Ident → Prop
  | field (f : Field') : f ∈ fields → Bound fields externs ds (true, f.id)
  | extern (f : Field') : f ∈ externs → Bound fields externs ds (false, f.id)
  | input : Bound fields externs ds (false, (.nn_input, none))
  | pred : Bound fields externs ds (false, (.prediction, none))
  | ints (x : Ident) (l : List Nat) : Dcl.ints x l ∈ ds → Bound fields externs ds (false, x)

/-- The memory when `inference(&Context[i], prediction, nn_input)` is called: the context has these fields, with unspecified
contents; the constant arrays have their definitions, elements without initial value being zero; `nn_input` holds `x`,
`prediction` has at least `nOut` elements. -/
structure Starts (fields : List Field') (defs : List (ArrDef K)) (nOut : Nat) (x : List K) (m : Mem K) : Prop where
  field : ∀ f ∈ fields, ∃ b, stdBuf true f.id = some b ∧ m.size b = f.size
  noField : ∀ id b, stdBuf true id = some b → (∀ f ∈ fields, f.id ≠ id) → m.size b = 0
  consts : ∀ d ∈ defs, ∃ b, stdBuf false d.id = some b ∧ m.size b = d.size ∧ ∀ i < d.size, m.val b i = d.vals.getD i 0
  input : Holds m .input x
  pred : nOut ≤ m.size .pred

/-! ## Identifiers -/

theorem stdBuf_par (cs : List Char) (idx : Nat) : stdBuf false (parId cs idx) = (parKind cs).map (.par · idx) := by
  simp [stdBuf, parId]

/-- the parameter arrays of a layer are distinct arrays of this layer -/
theorem par_bufs (n : Nat) (op : Op K) : ∃ ks : List PKind, ks.Nodup ∧ (parArrays n op).map (fun p => stdBuf false p.1) = ks.map fun k => some (.par k n) := by
  cases op with
  | constant v => exact ⟨[.weights], by simp, by simp only [parArrays, List.map_cons, List.map_nil, stdBuf_par]; rfl⟩
  | dense => exact ⟨[.weights, .biases], by decide, by simp only [parArrays, List.map_cons, List.map_nil, stdBuf_par]; rfl⟩
  | gemm => exact ⟨[.weights, .biases], by decide, by simp only [parArrays, List.map_cons, List.map_nil, stdBuf_par]; rfl⟩
  | conv => exact ⟨[.weights, .biases], by decide, by simp only [parArrays, List.map_cons, List.map_nil, stdBuf_par]; rfl⟩
  | broadcast op o s c f =>
    cases c with
    | none => exact ⟨[], by simp, rfl⟩
    | some c =>
      refine ⟨[.constant], by simp, ?_⟩
      simp only [parArrays, List.map_cons, List.map_nil, stdBuf_par]
      cases op <;> rfl
  | batchNorm => exact ⟨[.biases, .mean, .var, .scale], by decide, by simp only [parArrays, List.map_cons, List.map_nil, stdBuf_par]; rfl⟩
  | _ => exact ⟨[], by simp, rfl⟩

/-- the parameters of a layer, as its program names them, are among its parameter arrays -/
theorem params_arrays (n : Nat) (op : Op K) : ∀ p ∈ op.params n, ∃ x, (x, p.2) ∈ parArrays n op ∧ stdBuf false x = some p.1 := by
  intro p hp
  cases op with
  | constant v =>
    simp only [Op.params, List.mem_cons, List.not_mem_nil, or_false] at hp
    subst hp
    exact ⟨_, List.mem_cons_self .., by rw [stdBuf_par]; rfl⟩
  | dense =>
    simp only [Op.params, List.mem_cons, List.not_mem_nil, or_false] at hp
    rcases hp with rfl | rfl
    · exact ⟨_, List.mem_cons_self .., by rw [stdBuf_par]; rfl⟩
    · exact ⟨_, List.mem_cons_of_mem _ (List.mem_cons_self ..), by rw [stdBuf_par]; rfl⟩
  | gemm =>
    simp only [Op.params, List.mem_cons, List.not_mem_nil, or_false] at hp
    rcases hp with rfl | rfl
    · exact ⟨_, List.mem_cons_self .., by rw [stdBuf_par]; rfl⟩
    · exact ⟨_, List.mem_cons_of_mem _ (List.mem_cons_self ..), by rw [stdBuf_par]; rfl⟩
  | conv =>
    simp only [Op.params, List.mem_cons, List.not_mem_nil, or_false] at hp
    rcases hp with rfl | rfl
    · exact ⟨_, List.mem_cons_self .., by rw [stdBuf_par]; rfl⟩
    · exact ⟨_, List.mem_cons_of_mem _ (List.mem_cons_self ..), by rw [stdBuf_par]; rfl⟩
  | broadcast op o s c f =>
    cases c with
    | none => cases hp
    | some c =>
      simp only [Op.params, List.mem_cons, List.not_mem_nil, or_false] at hp
      subst hp
      exact ⟨_, List.mem_cons_self .., by rw [stdBuf_par]; cases op <;> rfl⟩
  | batchNorm =>
    simp only [Op.params, List.mem_cons, List.not_mem_nil, or_false] at hp
    rcases hp with rfl | rfl | rfl | rfl
    · exact ⟨_, List.mem_cons_of_mem _ (List.mem_cons_of_mem _ (List.mem_cons_of_mem _ (List.mem_cons_self ..))), by rw [stdBuf_par]; rfl⟩
    · exact ⟨_, List.mem_cons_of_mem _ (List.mem_cons_self ..), by rw [stdBuf_par]; rfl⟩
    · exact ⟨_, List.mem_cons_of_mem _ (List.mem_cons_of_mem _ (List.mem_cons_self ..)), by rw [stdBuf_par]; rfl⟩
    · exact ⟨_, List.mem_cons_self .., by rw [stdBuf_par]; rfl⟩
  | _ => cases hp

theorem par_buf_mem {n : Nat} {op : Op K} {p : Ident × List K} (h : p ∈ parArrays n op) : ∃ k, stdBuf false p.1 = some (.par k n) := by
  obtain ⟨ks, _, e⟩ := par_bufs n op
  have : stdBuf false p.1 ∈ (parArrays n op).map (fun p => stdBuf false p.1) := List.mem_map.2 ⟨p, h, rfl⟩
  rw [e] at this
  obtain ⟨k, _, hk⟩ := List.mem_map.1 this
  exact ⟨k, hk.symm⟩

/-- all the parameter arrays of a network are distinct arrays -/
theorem par_bufs_nodup (op : Nat → Op K) (order : List Nat) (hnd : order.Nodup) :
    ((order.flatMap fun n => parArrays n (op n)).map fun p => stdBuf false p.1).Nodup := by
  induction order with
  | nil => simp
  | cons n l ih =>
    rw [List.flatMap_cons, List.map_append, List.nodup_append]
    obtain ⟨hn, hnd⟩ := List.nodup_cons.1 hnd
    refine ⟨?_, ih hnd, ?_⟩
    · obtain ⟨ks, h1, h2⟩ := par_bufs n (op n)
      rw [h2]
      exact List.Nodup.map (fun a b h => by simpa using h) h1
    · intro a ha b hb hab
      subst hab
      obtain ⟨p, hp, e⟩ := List.mem_map.1 ha
      obtain ⟨q, hq, e'⟩ := List.mem_map.1 hb
      obtain ⟨n', hn', hq⟩ := List.mem_flatMap.1 hq
      obtain ⟨k, hk⟩ := par_buf_mem hp
      obtain ⟨k', hk'⟩ := par_buf_mem hq
      rw [← e, hk, hk'] at e'
      simp only [Option.some.injEq, Buf.par.injEq] at e'
      exact hn (e'.2 ▸ hn')

theorem stdBuf_true_inv {id : Ident} {b : Buf} (h : stdBuf true id = some b) :
    (∃ k, id = outId k ∧ b = .out k) ∨ (∃ k, id = cstId k ∧ b = .cst k) ∨ (id = tempId ∧ b = .temp) := by
  unfold stdBuf at h
  split at h <;> first | (cases h; done) | skip
  all_goals simp_all [outId, cstId, tempId]

/-! ## `written` -/

theorem lookup_isSome_iff (w : List (Nat × Nat)) (k : Nat) : (w.lookup k).isSome = true ↔ k ∈ w.map (·.1) := by
  induction w with
  | nil => simp
  | cons p w ih =>
    rw [List.lookup_cons, List.map_cons, List.mem_cons]
    by_cases h : k = p.1
    · simp [h]
    · have : (k == p.1) = false := by simpa using h
      rw [this]
      simp [h, ih]

theorem lookup_mem {w : List (Nat × Nat)} {k s : Nat} (h : w.lookup k = some s) : (k, s) ∈ w := by
  induction w with
  | nil => cases h
  | cons p w ih =>
    rw [List.lookup_cons] at h
    by_cases e : k = p.1
    · subst e
      simp only [beq_self_eq_true, if_true, Option.some.injEq] at h
      subst h; simp
    · have : (k == p.1) = false := by simpa using e
      rw [this] at h
      exact List.mem_cons_of_mem _ (ih h)

theorem lookup_of_mem {w : List (Nat × Nat)} {k s : Nat} (hnd : (w.map (·.1)).Nodup) (h : (k, s) ∈ w) : w.lookup k = some s := by
  induction w with
  | nil => cases h
  | cons p w ih =>
    rw [List.map_cons, List.nodup_cons] at hnd
    rw [List.lookup_cons]
    rcases List.mem_cons.1 h with rfl | h
    · simp
    · have : k ≠ p.1 := by
        rintro rfl
        exact hnd.1 (List.mem_map.2 ⟨_, h, rfl⟩)
      have : (k == p.1) = false := by simpa using this
      rw [this]
      exact ih hnd.2 h

/-- every number of the dictionary is written -/
theorem written_keys (ls : List Gen.LayerInfo) (dict : List (Nat × Nat)) (layer : Option Gen.LayerInfo) (w w' : List (Nat × Nat))
    (h : written ls dict layer w = some w') : ∀ k, k ∈ w.map (·.1) ∨ k ∈ dict.map (·.2) → k ∈ w'.map (·.1) := by
  induction dict generalizing layer w with
  | nil => cases h; intro k hk; rcases hk with hk | hk; exact hk; cases hk
  | cons p rest ih =>
    obtain ⟨idx, k₀⟩ := p
    simp only [written] at h
    cases hl : (ls.find? fun l => l.idx == idx).or layer with
    | none => rw [hl] at h; cases h
    | some l =>
      rw [hl] at h
      intro k hk
      refine ih _ _ h k ?_
      have key : (w.map fun p => if p.1 = k₀ then (k₀, max p.2 l.size) else p).map (·.1) = w.map (·.1) := by
        rw [List.map_map]
        refine List.map_congr_left fun p _ => ?_
        simp only [Function.comp]
        split
        · rename_i h; exact h.symm
        · rfl
      rcases hk with hk | hk
      · left
        split
        · rw [key]; exact hk
        · rw [List.map_append]; exact List.mem_append_left _ hk
      · rw [List.map_cons, List.mem_cons] at hk
        rcases hk with rfl | hk
        · left
          split
          · rename_i hs; rw [key]; exact (lookup_isSome_iff w _).1 hs
          · simp
        · right; exact hk

/-! ## The files of a network -/

/-- the sizes of the layers -/
def Network.infos (net : Network K) (plan : Graph.Plan) : List Gen.LayerInfo := plan.order.map fun n => (net.op n).info n

/-- the definitions of the parameters -/
def Network.defs (net : Network K) (plan : Graph.Plan) : List (ArrDef K) := (nonEmpty (plan.order.flatMap fun n => parArrays n (net.op n))).map arrDef

theorem dictOf_mem (plan : Graph.Plan) (n k : Nat) : (n, k) ∈ dictOf plan ↔ n ∈ plan.order ∧ plan.cst n = some k := by
  simp only [dictOf, List.mem_filterMap, Option.map_eq_some_iff, Prod.mk.injEq]
  constructor
  · rintro ⟨a, ha, b, hb, rfl, rfl⟩; exact ⟨ha, hb⟩
  · rintro ⟨a, b⟩; exact ⟨n, a, k, b, rfl, rfl⟩

theorem written_some {net : Network K} (hu : Graph.UniqueIdx net.graph) (hc : Graph.Consistent net.graph) {plan : Graph.Plan} (h : Graph.triTopo net.graph = some plan) :
    ∃ csts, written (Network.infos net plan) (dictOf plan) none [] = some csts := by
  obtain ⟨sizes, hd, _⟩ := Gen.C32_arrays_large_enough hu hc h (Network.infos net plan)
    (by unfold Network.infos; rw [List.map_map]; simp [Function.comp_def, Op.info]) (dictOf plan) (dictOf_mem plan) (fun _ => 0)
  unfold Gen.declared at hd
  have e : (fun k : Nat => (none : Option Nat)) = fun k => ([] : List (Nat × Nat)).lookup k := rfl
  rw [e, written_spec] at hd
  cases hw : written (Network.infos net plan) (dictOf plan) none [] with
  | none => rw [hw] at hd; simp at hd
  | some w => exact ⟨w, rfl⟩

theorem ctxFields_nodup (ls : List Gen.LayerInfo) (mp : Nat) (csts : List (Nat × Nat)) (h : (csts.map (·.1)).Nodup) : ((ctxFields ls mp csts).map (·.id)).Nodup := by
  unfold ctxFields
  rw [List.map_append, List.map_append, List.map_map, List.map_map, List.nodup_append, List.nodup_append]
  refine ⟨List.Nodup.map (fun a b h => by simpa [outId] using h) List.nodup_range, ⟨?_, by simp, ?_⟩, ?_⟩
  · have : (Field'.id ∘ fun p : Nat × Nat => (⟨cstId p.1, p.2⟩ : Field')) = cstId ∘ (·.1) := rfl
    rw [this, ← List.map_map]
    exact List.Nodup.map (fun a b h => by simpa [cstId] using h) h
  · intro a ha b hb hab
    obtain ⟨p, _, rfl⟩ := List.mem_map.1 ha
    simp at hb
    subst hb
    simp [cstId, tempId] at hab
  · intro a ha b hb hab
    obtain ⟨i, _, rfl⟩ := List.mem_map.1 ha
    rcases List.mem_append.1 hb with hb | hb
    · obtain ⟨p, _, rfl⟩ := List.mem_map.1 hb
      simp [outId, cstId] at hab
    · simp at hb
      subst hb
      simp [outId, tempId] at hab

theorem defs_nodup (net : Network K) (plan : Graph.Plan) (hnd : plan.order.Nodup) : ((Network.defs net plan).map fun d => stdBuf false d.id).Nodup := by
  unfold Network.defs nonEmpty
  rw [List.map_map]
  exact List.Nodup.sublist ((List.filter_sublist).map _) (par_bufs_nodup net.op plan.order hnd)

/-- The numbers of the parameters are doubles (`numpy.float64`), as `data2c` prints them. -/
def Network.Representable (net : Network K) (plan : Graph.Plan) (dbl : K → Gen.Dbl) : Prop :=
  ∀ n ∈ plan.order, ∀ p ∈ parArrays n (net.op n), ∀ v ∈ p.2, Exact dbl v

/-- no parameter array is empty -/
def Network.NoEmpty (net : Network K) (plan : Graph.Plan) : Prop := ∀ n ∈ plan.order, ∀ p ∈ parArrays n (net.op n), p.2 ≠ []

/-- **C62, files.**  `parameters.c` is definitions of constant arrays, `inference.h` declares the type of the context and
exactly these arrays, no name being used twice; the context has one array per path, all of the size of the largest layer. -/
theorem C62_files (net : Network K) (hu : Graph.UniqueIdx net.graph) (hc : Graph.Consistent net.graph) (plan : Graph.Plan) (h : Graph.triTopo net.graph = some plan)
    (dbl : K → Gen.Dbl) (page : Nat) (he : Network.Representable net plan dbl) :
    ∃ tp th fields, paramText dbl page net.op plan.order = some tp ∧ IsDefs page tp (Network.defs net plan) ∧
      headerText net plan = some th ∧ IsHeader th fields ((Network.defs net plan).map ArrDef.decl) ∧
      (fields.map (·.id)).Nodup ∧ ((Network.defs net plan).map (·.id)).Nodup ∧
      ∃ csts, written (Network.infos net plan) (dictOf plan) none [] = some csts ∧ fields = ctxFields (Network.infos net plan) plan.maxPath csts := by
  obtain ⟨tp, h1, h2⟩ := params_text dbl page net.op plan.order he
  obtain ⟨csts, hw⟩ := written_some hu hc h
  obtain ⟨th, h3, h4⟩ := header_inst (Network.infos net plan) plan.maxPath csts net.op plan.order
  have hnd : plan.order.Nodup := (Graph.plan_perm hu hc h).symm.nodup hu
  refine ⟨tp, th, _, h1, h2, ?_, ?_, ctxFields_nodup _ _ _ (written_nodup _ _ _ _ _ (by simp) hw), ?_, csts, hw, rfl⟩
  · unfold headerText
    have hw' : written (plan.order.map fun n => (net.op n).info n) (dictOf plan) none [] = some csts := hw
    simp only [hw', Option.bind_some]
    exact h3
  · convert h4 using 1
    unfold Network.defs
    rw [List.map_map]
    rfl
  · have := defs_nodup net plan hnd
    have e : ((Network.defs net plan).map fun d => stdBuf false d.id) = ((Network.defs net plan).map (·.id)).map (stdBuf false) := by rw [List.map_map]; rfl
    rw [e] at this
    exact List.Nodup.of_map _ this

/-! ## Every array is declared -/

variable [LinearOrder K] [FloorRing K]

theorem mem_flagDcls_ints (fl : SrcFlags) (inds : List (Nat × List Nat)) {x : Nat × List Nat} (h : x ∈ inds) : Dcl.ints (indices x.1) x.2 ∈ flagDcls fl inds := by
  have hne : (!inds.isEmpty) = true := by cases inds with | nil => cases h | cons _ _ => rfl
  unfold flagDcls
  simp only [hne, if_true, List.mem_append, List.mem_cons]
  refine .inr (.inr (.inr (.inr (.inr (.inr (.inr (.inr (.inr (.inr (.inl (.inr ?_)))))))))))
  exact List.mem_map.2 ⟨x, h, rfl⟩

/-- what the layers name is declared -/
theorem Named.bound {net : Network K} (hu : Graph.UniqueIdx net.graph) (hc : Graph.Consistent net.graph) {plan : Graph.Plan} (h : Graph.triTopo net.graph = some plan)
    (hne : Network.NoEmpty net plan) {csts : List (Nat × Nat)} (hw : written (Network.infos net plan) (dictOf plan) none [] = some csts) {a : Bool × Ident} (ha : Named net plan a) :
    Bound (ctxFields (Network.infos net plan) plan.maxPath csts) ((Network.defs net plan).map ArrDef.decl) (localDcls net plan) a := by
  have hperm := Graph.plan_perm hu hc h
  have hout : ∀ n ∈ plan.order, (⟨outId (plan.path n), Gen.pathSize (Network.infos net plan)⟩ : Field') ∈ ctxFields (Network.infos net plan) plan.maxPath csts := by
    intro n hn
    obtain ⟨l, hl, rfl⟩ := List.mem_map.1 (hperm.mem_iff.1 hn)
    exact List.mem_append_left _ (List.mem_map.2 ⟨_, List.mem_range.2 ((Graph.C05_buffers_declared hu hc h).1 l hl), rfl⟩)
  have hcst : ∀ n ∈ plan.order, ∀ k, plan.cst n = some k → ∃ sz, (⟨cstId k, sz⟩ : Field') ∈ ctxFields (Network.infos net plan) plan.maxPath csts := by
    intro n hn k hk
    have := written_keys _ _ _ _ _ hw k (.inr (List.mem_map.2 ⟨(n, k), (dictOf_mem plan n k).2 ⟨hn, hk⟩, rfl⟩))
    obtain ⟨p, hp, rfl⟩ := List.mem_map.1 this
    exact ⟨p.2, List.mem_append_right _ (List.mem_append_left _ (List.mem_map.2 ⟨p, hp, rfl⟩))⟩
  cases ha with
  | input => exact .input
  | pred => exact .pred
  | out n hn => exact .field _ (hout n hn)
  | cst n k hn hk => obtain ⟨sz, hf⟩ := hcst n hn k hk; exact .field _ hf
  | temp => exact .field ⟨tempId, _⟩ (List.mem_append_right _ (List.mem_append_right _ (List.mem_singleton.2 rfl)))
  | src n p hn hp =>
    have hpo : p ∈ plan.order := by
      obtain ⟨pre, post, e⟩ := List.append_of_mem hn
      have := (Graph.plan_sorted h pre n post e).2 p hp
      rw [e]; exact List.mem_append_left _ this
    unfold srcRef
    cases hk : plan.cst p with
    | none => exact .field _ (hout p hpo)
    | some k => obtain ⟨sz, hf⟩ := hcst p hpo k hk; exact .field _ hf
  | par n x l hn hx =>
    refine .extern (⟨x, l.length⟩ : Field') ?_
    refine List.mem_map.2 ⟨arrDef (x, l), List.mem_map.2 ⟨(x, l), List.mem_filter.2 ⟨List.mem_flatMap.2 ⟨n, hn, hx⟩, ?_⟩, rfl⟩, rfl⟩
    have := hne n hn _ hx
    cases l with
    | nil => exact absurd rfl this
    | cons _ _ => rfl
  | ind n l hn hl =>
    exact .ints _ l (mem_flagDcls_ints _ _ (x := (n, l)) (List.mem_filterMap.2 ⟨n, hn, by rw [hl]; rfl⟩))

/-! ## The memory -/

theorem starts_memory {net : Network K} {plan : Graph.Plan} {csts : List (Nat × Nat)} (hw : written (Network.infos net plan) (dictOf plan) none [] = some csts)
    {nOut : Nat} (hnOut : ∀ n, plan.order.getLast? = some n → nOut = (net.op n).size) {x : List K} {m : Mem K}
    (hm : Starts (ctxFields (Network.infos net plan) plan.maxPath csts) (Network.defs net plan) nOut x m) : net.Memory plan x m := by
  have hnd := written_nodup _ _ _ _ _ (by simp) hw
  refine ⟨⟨m.size, ?_⟩, ?_, hm.input, fun n hn => by rw [← hnOut n hn]; exact hm.pred⟩
  · unfold Gen.declared
    have e : (fun k : Nat => (none : Option Nat)) = fun k => ([] : List (Nat × Nat)).lookup k := rfl
    rw [e, written_spec]
    have hw' : written (plan.order.map fun n => (net.op n).info n) (dictOf plan) none [] = some csts := hw
    rw [hw', Option.map_some]
    simp only [Option.some.injEq]
    funext b
    have one : ∀ f ∈ ctxFields (Network.infos net plan) plan.maxPath csts, ∀ b, stdBuf true f.id = some b → m.size b = f.size := by
      intro f hf b hb
      obtain ⟨b', h1, h2⟩ := hm.field f hf
      rw [hb, Option.some.injEq] at h1
      rw [h1]; exact h2
    cases b with
    | out k =>
      simp only []
      split
      · rename_i hk
        exact (one ⟨outId k, _⟩ (List.mem_append_left _ (List.mem_map.2 ⟨k, List.mem_range.2 hk, rfl⟩)) (.out k) rfl).symm
      · rename_i hk
        refine (hm.noField (outId k) (.out k) rfl fun f hf he => ?_).symm
        rcases List.mem_append.1 hf with hf | hf
        · obtain ⟨i, hi, rfl⟩ := List.mem_map.1 hf
          simp only [outId, Prod.mk.injEq, Option.some.injEq, Suffix.mk.injEq, true_and] at he
          subst he
          exact hk (List.mem_range.1 hi)
        · rcases List.mem_append.1 hf with hf | hf
          · obtain ⟨p, _, rfl⟩ := List.mem_map.1 hf
            simp [outId, cstId] at he
          · simp only [List.mem_singleton] at hf
            subst hf
            simp [outId, tempId] at he
    | cst k =>
      simp only []
      cases hl : csts.lookup k with
      | some s =>
        exact (one ⟨cstId k, s⟩ (List.mem_append_right _ (List.mem_append_left _ (List.mem_map.2 ⟨(k, s), lookup_mem hl, rfl⟩))) (.cst k) rfl).symm
      | none =>
        refine (hm.noField (cstId k) (.cst k) rfl fun f hf he => ?_).symm
        rcases List.mem_append.1 hf with hf | hf
        · obtain ⟨i, hi, rfl⟩ := List.mem_map.1 hf
          simp [outId, cstId] at he
        · rcases List.mem_append.1 hf with hf | hf
          · obtain ⟨p, hp, rfl⟩ := List.mem_map.1 hf
            simp only [cstId, Prod.mk.injEq, Option.some.injEq, Suffix.mk.injEq, true_and] at he
            have := (lookup_isSome_iff csts k).2 (List.mem_map.2 ⟨p, hp, he⟩)
            rw [hl] at this; cases this
          · simp only [List.mem_singleton] at hf
            subst hf
            simp [cstId, tempId] at he
    | temp => exact (one ⟨tempId, _⟩ (List.mem_append_right _ (List.mem_append_right _ (List.mem_singleton.2 rfl))) .temp rfl).symm
    | _ => rfl
  · intro n hn p hp
    obtain ⟨x', hx, hb⟩ := params_arrays n (net.op n) p hp
    cases hl : p.2 with
    | nil => exact ⟨by simp, fun a ha => by simp at ha⟩
    | cons v l =>
      obtain ⟨b, h1, h2, h3⟩ := hm.consts (arrDef (x', p.2)) (List.mem_map.2 ⟨(x', p.2), List.mem_filter.2 ⟨List.mem_flatMap.2 ⟨n, hn, hx⟩, by simp [hl]⟩, rfl⟩)
      have h1' : stdBuf false x' = some b := h1
      rw [hb, Option.some.injEq] at h1'
      subst h1'
      rw [← hl]
      refine ⟨by rw [h2]; exact le_refl _, fun a ha => ?_⟩
      rw [h3 a ha]
      simp [arrDef, List.getD, ha]

/-- the memory of a program exists -/
theorem starts_exists (net : Network K) (plan : Graph.Plan) (hnd : plan.order.Nodup) {csts : List (Nat × Nat)} (hcs : (csts.map (·.1)).Nodup) (nOut : Nat) (x : List K) :
    ∃ m, Starts (ctxFields (Network.infos net plan) plan.maxPath csts) (Network.defs net plan) nOut x m ∧ m.size .pred = nOut := by
  classical
  let par : Buf → List K := fun b => (((Network.defs net plan).find? fun d => decide (stdBuf false d.id = some b)).map (·.vals)).getD []
  let sz : Buf → Nat := fun b => match b with
    | .out k => if k < plan.maxPath then Gen.pathSize (Network.infos net plan) else 0
    | .cst k => (csts.lookup k).getD 0
    | .temp => Gen.tempSize (Network.infos net plan)
    | .input => x.length
    | .pred => nOut
    | .par k i => (par (.par k i)).length
  refine ⟨⟨sz, fun b a => match b with | .input => x.getD a 0 | b => (par b).getD a 0⟩, ⟨?_, ?_, ?_, ?_, ?_⟩, rfl⟩
  · intro f hf
    rcases List.mem_append.1 hf with hf | hf
    · obtain ⟨i, hi, rfl⟩ := List.mem_map.1 hf
      exact ⟨.out i, rfl, by simp [sz, List.mem_range.1 hi]⟩
    · rcases List.mem_append.1 hf with hf | hf
      · obtain ⟨p, hp, rfl⟩ := List.mem_map.1 hf
        exact ⟨.cst p.1, rfl, by simp [sz, lookup_of_mem hcs hp]⟩
      · simp only [List.mem_singleton] at hf
        subst hf
        exact ⟨.temp, rfl, rfl⟩
  · intro id b hb hno
    rcases stdBuf_true_inv hb with ⟨k, rfl, rfl⟩ | ⟨k, rfl, rfl⟩ | ⟨rfl, rfl⟩
    · simp only [sz]
      rw [if_neg]
      intro hk
      exact hno ⟨outId k, _⟩ (List.mem_append_left _ (List.mem_map.2 ⟨k, List.mem_range.2 hk, rfl⟩)) rfl
    · simp only [sz]
      cases hl : csts.lookup k with
      | none => rfl
      | some s => exact absurd rfl (hno ⟨cstId k, s⟩ (List.mem_append_right _ (List.mem_append_left _ (List.mem_map.2 ⟨(k, s), lookup_mem hl, rfl⟩))))
    · exact absurd rfl (hno ⟨tempId, _⟩ (List.mem_append_right _ (List.mem_append_right _ (List.mem_singleton.2 rfl))))
  · intro d hd
    have hbuf : ∃ k i, stdBuf false d.id = some (.par k i) := by
      obtain ⟨p, hp, rfl⟩ := List.mem_map.1 hd
      obtain ⟨n, _, hp⟩ := List.mem_flatMap.1 (List.mem_filter.1 hp).1
      obtain ⟨k, hk⟩ := par_buf_mem hp
      exact ⟨k, n, hk⟩
    obtain ⟨k, i, hb⟩ := hbuf
    have hfind : (Network.defs net plan).find? (fun e => decide (stdBuf false e.id = some (.par k i))) = some d := by
      have hnd' := defs_nodup net plan hnd
      revert hd hnd'
      generalize Network.defs net plan = l
      intro hd hnd'
      induction l with
      | nil => cases hd
      | cons e l ih =>
        rw [List.map_cons, List.nodup_cons] at hnd'
        rw [List.find?_cons]
        rcases List.mem_cons.1 hd with rfl | hd
        · simp [hb]
        · have : stdBuf false e.id ≠ some (.par k i) := by
            intro he
            exact hnd'.1 (List.mem_map.2 ⟨d, hd, by rw [hb, he]⟩)
          simp only [this, decide_false]
          exact ih hd hnd'.2
    have hp : par (.par k i) = d.vals := by simp only [par, hfind, Option.map_some, Option.getD_some]
    have hds : d.size = d.vals.length := by obtain ⟨p, _, rfl⟩ := List.mem_map.1 hd; rfl
    exact ⟨.par k i, hb, by simp only [sz, hp, hds], fun a _ => by simp only [hp]⟩
  · exact ⟨le_refl _, fun a ha => by simp [List.getD, ha]⟩
  · exact le_refl _

/-! ## The whole program -/

/-- **C63.**  For a network within the conditions of `Net.C52_network_partial`, whose layers have the texts of `Emits` and whose
parameters are non-empty arrays of doubles: `compute_inference` returns a prediction `y`; `parameters.c` is definitions of
constant arrays, `inference.h` declares the context and exactly these arrays, `inference.c` is a C function all of whose arrays
are declared; and, called on any memory that these declarations and definitions describe, with the input in `nn_input`, the
function terminates and leaves `y` in `prediction`, and the input and the parameters unchanged.  There is such a memory. -/
theorem C63_program_partial [IsStrictOrderedRing K] (t : Texts K) (L : Lib K) (net : Network K) (hwf : net.WF) (plan : Graph.Plan)
    (h : Graph.triTopo net.graph = some plan) (ht : t.Of L net plan) (hpos : ∀ n ∈ plan.order, (net.op n).Positive)
    (dbl : K → Gen.Dbl) (page : Nat) (he : Network.Representable net plan dbl) (hne : Network.NoEmpty net plan) (x : Nd K)
    (hx : ∀ l ∈ net.graph, ∀ r s, net.op l.idx = .input r s → x.data.length = s.size)
    (hin : ∀ first x', plan.order.head? = some first → prepare net.fmt (net.op first) x = some x' →
      ∀ n ins, net.Receives L.cmath plan x' n ins → (net.op n).InputsOK L.cmath ins)
    (hlast : net.fmt = .last → ∀ n, plan.order.getLast? = some n → (net.op n).chans = none ∨ (net.op n).Rank3) :
    ∃ y tp defs th fields ti nOut nIn ds s, net.reference L.cmath plan x = some y ∧
      paramText dbl page net.op plan.order = some tp ∧ IsDefs page tp defs ∧
      headerText net plan = some th ∧ IsHeader th fields (defs.map ArrDef.decl) ∧ (fields.map (·.id)).Nodup ∧ (defs.map (·.id)).Nodup ∧
      sourceText t net plan = some ti ∧ IsInference ti nOut nIn ds s ∧ Declared ds s ∧ Within s.arrays (Bound fields (defs.map ArrDef.decl) ds) ∧
      nIn = x.data.length ∧ y.length ≤ nOut ∧
      (∃ m, Starts fields defs nOut x.data m) ∧
      ∀ m, Starts fields defs nOut x.data m → ∃ m', Runs L ds s m m' ∧ Holds m' .pred y ∧ m'.size = m.size ∧ ∀ b, Graph.ReadOnly b → m'.val b = m.val b := by
  obtain ⟨first, r0, s0, hfirst, hop, hfo⟩ := first_input hwf h
  obtain ⟨last, hl⟩ : ∃ n, plan.order.getLast? = some n := by
    cases hh : plan.order.getLast? with
    | none => rw [List.getLast?_eq_none_iff.1 hh] at hfirst; cases hfirst
    | some n => exact ⟨n, rfl⟩
  have hnd : plan.order.Nodup := (Graph.plan_perm hwf.unique hwf.consistent h).symm.nodup hwf.unique
  obtain ⟨tp, th, fields, p1, p2, p3, p4, p5, p6, csts, hw, rfl⟩ := C62_files net hwf.unique hwf.consistent plan h dbl page he
  obtain ⟨m0, hm0, hsz0⟩ := starts_exists net plan hnd (written_nodup _ _ _ _ _ (by simp) hw) (net.op last).size x.data
  have hmem : ∀ m, Starts (ctxFields (Network.infos net plan) plan.maxPath csts) (Network.defs net plan) (net.op last).size x.data m → net.Memory plan x.data m :=
    fun m hm => starts_memory hw (fun n hn => by rw [hl] at hn; cases hn; rfl) hm
  obtain ⟨y, m0', hy, hrun, hpred0, hs0, _⟩ := C52_network_partial net hwf plan h L.cmath x m0 hx (hmem m0 hm0) hin hlast
  obtain ⟨ts, s, h1, h2, h3, hu, h4⟩ := C54_source_renders t L net plan ht hnd first last hfirst hl hpos (by
    have hr := hrun
    unfold Network.inference at hr
    simp only [bind, Prog.andThen] at hr
    cases h1 : Graph.runLayers plan net.graph.prevOf (fun n => (net.op n).size) (net.layerCode L.cmath) plan.order m0 with
    | none => rw [h1] at hr; cases hr
    | some r => exact runLayers_some (net := net) (M := L.cmath) (plan := plan) plan.order (m := m0) (r := r) h1)
  refine ⟨y, tp, _, th, _, ts, _, _, _, s, hy, p1, p2, p3, p4, p5, p6, h1, h2, h3, ?_, ?_, ?_, ⟨m0, hm0⟩, ?_⟩
  · exact hu.mono fun a ha => ha.bound hwf.unique hwf.consistent h hne hw
  · obtain ⟨l, hlm, rfl⟩ := List.mem_map.1 ((Graph.plan_perm hwf.unique hwf.consistent h).mem_iff.1 hfo)
    rw [hx l hlm r0 s0 hop, hop]; rfl
  · rw [← hsz0, ← hs0]; exact hpred0.1
  · intro m hm
    obtain ⟨y', m', hy', hrun', hpred', hsz, hro⟩ := C52_network_partial net hwf plan h L.cmath x m hx (hmem m hm) hin hlast
    rw [hy] at hy'
    cases hy'
    exact ⟨m', h4 m m' hrun', hpred', hsz, hro⟩

end Verif.CText

import Verif.CText.Emits
import Verif.CText.Compiles
import Verif.CText.Linked
import Verif.Net.Run

/-!
# `inference.c`

The text that the generator writes for a network, read as a C function, does what `Network.inference` does (C54); with
`Net.C52_network_partial`, it leaves the reference's prediction in `prediction` (C55).
-/

namespace Verif.CText
open Prog Layers Net
set_option linter.unusedVariables false
set_option linter.unusedSectionVars false
variable {K : Type}

/-! ## Declarations -/

theorem varsOf_append (a b : List Dcl) : varsOf (a ++ b) = varsOf a ++ varsOf b := by
  induction a with
  | nil => rfl
  | cons d a ih => cases d <;> simp [varsOf, ih]

theorem varsOf_ite (c : Bool) (a : List Dcl) : varsOf (if c then a else []) = if c then varsOf a else [] := by cases c <;> rfl

theorem varsOf_ints (inds : List (Nat × List Nat)) : varsOf (inds.map fun x => Dcl.ints (indices x.1) x.2) = [] := by
  induction inds with
  | nil => rfl
  | cons x l ih => simpa [varsOf] using ih

theorem mem_ite_nil {α : Type} {c : Bool} {l : List α} {x : α} : x ∈ (if c then l else []) ↔ c = true ∧ x ∈ l := by
  cases c <;> simp

/-- what is declared for a layer is declared for a network with this layer -/
theorem opVars_subset (op : Nat → Op K) (order : List Nat) (n : Nat) (hn : n ∈ order) :
    ∀ v ∈ opVars n (op n), v ∈ varsOf (flagDcls (flags (order.map op)) (indexArrays op order)) := by
  have hany : ∀ f : Op K → Bool, [op n].any f = true → (order.map op).any f = true := by
    intro f hf
    simp only [List.any_cons, List.any_nil, Bool.or_false] at hf
    exact List.any_eq_true.2 ⟨op n, List.mem_map.2 ⟨n, hn, rfl⟩, hf⟩
  have hind : (!(indexArrays (fun _ => op n) [n]).isEmpty) = true → (!(indexArrays op order).isEmpty) = true := by
    intro h
    simp only [indexArrays, List.filterMap_cons, List.filterMap_nil] at h
    cases hi : (op n).indices? with
    | none => rw [hi] at h; simp at h
    | some l =>
      have : (n, l) ∈ indexArrays op order := List.mem_filterMap.2 ⟨n, hn, by rw [hi]; rfl⟩
      cases h' : indexArrays op order with
      | nil => rw [h'] at this; cases this
      | cons _ _ => rfl
  intro v
  simp only [opVars, flagDcls, varsOf_append, varsOf_ite, List.mem_append, mem_ite_nil, varsOf, varsOf_ints]
  simp only [flags]
  refine Or.imp id (Or.imp (And.imp (hany _) id) (Or.imp (And.imp (hany _) id) (Or.imp (And.imp (hany _) id) (Or.imp (And.imp (hany _) id)
    (Or.imp (And.imp (hany _) id) (Or.imp (And.imp (hany _) id) (Or.imp (And.imp (hany _) id) (Or.imp (And.imp (hany _) id)
    (Or.imp (And.imp (hany _) id) (Or.imp (And.imp hind id) (And.imp (hany _) id)))))))))))

theorem intsOf_append (a b : List Dcl) (y : Ident) : intsOf (a ++ b) y = (intsOf a y).or (intsOf b y) := by
  induction a with
  | nil => simp [intsOf]
  | cons d a ih =>
    cases d with
    | ints x l => by_cases h : y = x <;> simp [intsOf, h, ih]
    | _ => simp [intsOf, ih]

theorem intsOf_ite (c : Bool) (a : List Dcl) (y : Ident) : intsOf (if c then a else []) y = if c then intsOf a y else none := by cases c <;> rfl

theorem indices_inj {a b : Nat} (h : indices a = indices b) : a = b := by
  simp only [indices, Prod.mk.injEq, Option.some.injEq, Suffix.mk.injEq] at h
  exact h.2.2

theorem intsOf_indices (op : Nat → Op K) (order : List Nat) (n : Nat) (hn : n ∈ order) {l : List Nat} (hl : (op n).indices? = some l) :
    intsOf ((indexArrays op order).map fun x => Dcl.ints (indices x.1) x.2) (indices n) = some l := by
  induction order with
  | nil => cases hn
  | cons a order ih =>
    by_cases ha : a = n
    · subst ha
      simp only [indexArrays, List.filterMap_cons, hl, Option.map_some, List.map_cons, intsOf, if_true]
    · have hn' : n ∈ order := by
        rcases List.mem_cons.1 hn with h | h
        · exact absurd h.symm ha
        · exact h
      have := ih hn'
      simp only [indexArrays, List.filterMap_cons]
      cases (op a).indices? with
      | none => exact this
      | some l' =>
        simp only [Option.map_some, List.map_cons, intsOf]
        rw [if_neg (fun h => ha (indices_inj h).symm)]
        exact this

/-- the array of indices of a Gather layer is declared with its indices -/
theorem intsOf_flagDcls (op : Nat → Op K) (order : List Nat) (n : Nat) (hn : n ∈ order) {l : List Nat} (hl : (op n).indices? = some l) (fl : SrcFlags) :
    intsOf (flagDcls fl (indexArrays op order)) (indices n) = some l := by
  have hne : (!(indexArrays op order).isEmpty) = true := by
    have : (n, l) ∈ indexArrays op order := List.mem_filterMap.2 ⟨n, hn, by rw [hl]; rfl⟩
    cases h' : indexArrays op order with
    | nil => rw [h'] at this; cases this
    | cons _ _ => rfl
  simp only [flagDcls, intsOf_append, intsOf_ite, intsOf, hne, if_true, intsOf_indices op order n hn hl]
  simp

/-- no identifier is declared twice -/
theorem flagDcls_nodup (op : Nat → Op K) (order : List Nat) (hnd : order.Nodup) (fl : SrcFlags) :
    ((flagDcls fl (indexArrays op order)).map Dcl.name).Nodup := by
  have hite : ∀ (c : Bool) (l : List Dcl), ((if c then l else []).map Dcl.name).Sublist (l.map Dcl.name) := by
    intro c l; cases c
    · exact List.nil_sublist _
    · exact List.Sublist.refl _
  have hsub : ((flagDcls fl (indexArrays op order)).map Dcl.name).Sublist
      ([nm .f, nm .i, nm .j, nm .k, nm .p, nm .h, nm .w, nm .dotproduct, nm .sum, nm .max, nm .count, nm .x, nm .y, nm .x0, nm .y0,
        nm .col_index, nm .a, (.f, some ⟨false, 1⟩), nm .f0, nm .f1, nm .f2, nm .s, nm .y1, nm .x1, nm .f11, nm .f12, nm .f21, nm .f22, nm .position] ++
        ((indexArrays op order).map (fun x => indices x.1) ++ [nm .reduced])) := by
    simp only [flagDcls, List.map_append]
    have e : ([nm .f, nm .i, nm .j, nm .k, nm .p, nm .h, nm .w, nm .dotproduct, nm .sum, nm .max, nm .count, nm .x, nm .y, nm .x0, nm .y0,
        nm .col_index, nm .a, (.f, some ⟨false, 1⟩), nm .f0, nm .f1, nm .f2, nm .s, nm .y1, nm .x1, nm .f11, nm .f12, nm .f21, nm .f22, nm .position] ++
        ((indexArrays op order).map (fun x => indices x.1) ++ [nm .reduced])) =
      [nm .f, nm .i, nm .j, nm .k] ++ ([nm .p] ++ ([nm .h, nm .w] ++ ([nm .dotproduct] ++ ([nm .sum] ++ ([nm .max] ++ ([nm .count] ++
        ([nm .x, nm .y, nm .x0, nm .y0] ++ ([nm .col_index, nm .a, (.f, some ⟨false, 1⟩), nm .f0, nm .f1, nm .f2, nm .s] ++
        ([nm .y1, nm .x1, nm .f11, nm .f12, nm .f21, nm .f22] ++ ((nm .position :: (indexArrays op order).map (fun x => indices x.1)) ++ [nm .reduced])))))))))) := by
      simp
    rw [e]
    refine (List.Sublist.refl _).append ((hite _ _).append ((hite _ _).append ((hite _ _).append ((hite _ _).append ((hite _ _).append ((hite _ _).append
      ((hite _ _).append ((hite _ _).append ((hite _ _).append (List.Sublist.append ?_ (hite _ _)))))))))))
    refine (hite _ _).trans ?_
    simp [Dcl.name, Function.comp_def]
  refine hsub.nodup ?_
  have hi : ((indexArrays op order).map (fun x => indices x.1)).Nodup := by
    have : ((indexArrays op order).map (fun x => x.1)).Sublist order := by
      clear hnd hsub
      induction order with
      | nil => exact List.Sublist.refl _
      | cons a order ih =>
        simp only [indexArrays, List.filterMap_cons]
        cases (op a).indices? with
        | none => exact ih.cons _
        | some l => exact ih.cons_cons _
    have h1 := this.nodup hnd
    rw [show (fun x : Nat × List Nat => indices x.1) = indices ∘ (fun x => x.1) from rfl, ← List.map_map]
    exact List.Nodup.map (fun a b h => indices_inj h) h1
  rw [List.nodup_append]
  refine ⟨by decide, ?_, ?_⟩
  · rw [List.nodup_append]
    refine ⟨hi, by simp, ?_⟩
    intro a ha b hb
    obtain ⟨x, _, rfl⟩ := List.mem_map.1 ha
    simp only [List.mem_singleton] at hb
    subst hb
    simp [indices, nm]
  · intro a ha b hb hab
    subst hab
    rcases List.mem_append.1 hb with hb | hb
    · obtain ⟨x, _, rfl⟩ := List.mem_map.1 hb
      simp [indices, nm] at ha
    · simp only [List.mem_singleton] at hb
      subst hb
      revert ha
      decide

/-! ## Statements one after the other -/

variable [Field K] [LinearOrder K] [FloorRing K]

theorem Declares.of_agree {V : List Ident} {e e' : Env K} {xs : List (Ident × Ty)} (h : Declares e xs) (ha : Agree V e' e) : Declares e' xs :=
  fun p hp => (ha.ty p.1).trans (h p hp)

theorem DoesOk.then {G : Globals K} {a b S : Stmt K} {xs : List (Ident × Ty)} {p q : Prog K Unit} (ha : DoesOk G a xs p) (hb : DoesOk G b xs q)
    (hT : Then a b S) : DoesOk G S xs (Prog.andThen p fun _ => q) := by
  obtain ⟨F₁, ha⟩ := ha
  obtain ⟨F₂, hb⟩ := hb
  refine ⟨F₁ + F₂, fun e he F hF m u m' hp => ?_⟩
  simp only [Prog.andThen] at hp
  cases h1 : p m with
  | none => rw [h1] at hp; cases hp
  | some r =>
    obtain ⟨u₁, m₁⟩ := r
    rw [h1] at hp
    obtain ⟨e₁, g1, r1⟩ := ha e he F (by omega) m u₁ m₁ h1
    obtain ⟨e₂, g2, r2⟩ := hb e₁ (he.of_agree g1) F (by omega) m₁ u m' hp
    refine ⟨e₂, g2.trans g1, ?_⟩
    rw [hT.run]
    show Prog.andThen _ _ _ = _
    simp only [Prog.andThen, r1]
    exact r2

theorem DoesOk.ret {G : Globals K} {xs : List (Ident × Ty)} : DoesOk G (.skip : Stmt K) xs (ret ()) :=
  ⟨0, fun e he F hF m u m' hp => ⟨e, Agree.refl _ _, by simp only [Prog.ret, Option.some.injEq, Prod.mk.injEq] at hp; rw [← hp.2]; rfl⟩⟩

/-- the tokens of a rendered text are its statements -/
theorem rendered_body {text : List Char} {h : Hash K} {s : Stmt K} (hs : code text h = some s) : IsBody (rendered text h) s := by
  unfold code at hs
  unfold rendered
  cases ht : tokens text with
  | none => rw [ht] at hs; cases hs
  | some tt =>
    rw [ht, Option.bind_some] at hs
    rw [Option.bind_some]
    cases hi : inst tt h with
    | none => rw [hi] at hs; cases hs
    | some ts =>
      rw [hi, Option.bind_some] at hs
      exact IsBody.of_program hs

/-- statements that a C compiler accepts and that declare nothing outside inner blocks -/
def Stmt.Clean (s : Stmt K) : Prop := noRedecl s = true ∧ decls s = []

theorem Stmt.Clean.then {a b S : Stmt K} (ha : a.Clean) (hb : b.Clean) (hT : Then a b S) : S.Clean := by
  refine ⟨?_, ?_⟩
  · rw [hT.redecl, ha.1, hb.1]; rfl
  · rw [hT.decls, ha.2, hb.2]; rfl

/-- the text is clean statements that name only the arrays in `U` and do what `p` does -/
def Body (U : Bool × Ident → Prop) (G : Globals K) (ts : List (CTok K)) (xs : List (Ident × Ty)) (p : Prog K Unit) : Prop :=
  ∃ s, IsBody ts s ∧ s.Clean ∧ Within s.arrays U ∧ DoesOk G s xs p

variable {U : Bool × Ident → Prop}

theorem Body.append {G : Globals K} {ts us : List (CTok K)} {xs : List (Ident × Ty)} {p q : Prog K Unit} (ha : Body U G ts xs p) (hb : Body U G us xs q) :
    Body U G (ts ++ us) xs (Prog.andThen p fun _ => q) := by
  obtain ⟨s, h1, h2, hu, h3⟩ := ha
  obtain ⟨s', h1', h2', hu', h3'⟩ := hb
  obtain ⟨S, hS, hT⟩ := h1.append h1' h1'.startsElse
  exact ⟨S, hS, h2.then h2' hT, by rw [hT.arrays]; exact within_append hu hu', h3.then h3' hT⟩

theorem Body.nil {G : Globals K} {xs : List (Ident × Ty)} : Body U G ([] : List (CTok K)) xs (ret ()) := ⟨.skip, IsBody.nil, ⟨rfl, rfl⟩, within_nil, DoesOk.ret⟩

theorem Body.intro {G : Globals K} {text : List Char} {h : Hash K} {xs : List (Ident × Ty)} {p : Prog K Unit} (hc : CText.Clean text h) (hn : Names text h U)
    (hr : RendersOk G text h xs p) : Body U G (rendered text h) xs p := by
  obtain ⟨s, hs, hd⟩ := hr
  obtain ⟨s', hs', h1, h2⟩ := hc
  rw [hs, Option.some.injEq] at hs'
  subst hs'
  obtain ⟨s', hs', h3⟩ := hn
  rw [hs, Option.some.injEq] at hs'
  subst hs'
  exact ⟨s, rendered_body hs, ⟨h1, h2⟩, h3, hd⟩

theorem Body.mono {G : Globals K} {ts : List (CTok K)} {xs ys : List (Ident × Ty)} {p : Prog K Unit} (h : Body U G ts xs p) (hxy : ∀ v ∈ xs, v ∈ ys) :
    Body U G ts ys p := by
  obtain ⟨s, h1, h2, hu, h3⟩ := h
  exact ⟨s, h1, h2, hu, h3.mono hxy⟩

/-- the loop that saves the output of a layer -/
theorem save_body (L : Lib K) {ints : Ident → Option (List Nat)} (k size path : Nat) (hk : U (true, cstId k)) (hp : U (true, outId path)) :
    Body U (std L ints) (saveT (K := K) k size path) [((.k, none), .int)]
      (forN size fun a => Prog.andThen (load (.out path) (a : Int)) fun v => store (.cst k) (a : Int) v) := by
  have hcode : code (chars! "for (k = 0; k < {{s}}; k++) { ctx->cst_{{c}}[k] = ctx->output_{{p}}[k]; }") [(chars! "s", .num size), (chars! "c", .num k), (chars! "p", .num path)] =
      some (loop (.k, none) size (.block (.assign (.idx true (.cst, some ⟨false, k⟩) (.var (.k, none))) .set
        (.idx true (.output, some ⟨false, path⟩) (.var (.k, none))))) : Stmt K) := by kernel_rfl
  refine Body.intro ⟨_, hcode, rfl, rfl⟩ ⟨_, hcode, within_append within_nil (within_append within_nil (within_append within_nil
    (within_append (within_cons hk within_nil) (within_cons hp within_nil))))⟩ (Renders.ok (q := copyMap size (.out path) (.cst k) id) ?_ fun m r h => h)
  refine Renders.of_sim (size + 1) hcode fun e he F hF => ?_
  exact Sim.copy (by simp) (by simp) (by omega) (he.int _ (by simp)) rfl rfl (.inl rfl)

/-! ## The text of a network -/

/-- `layer.output_str` (`ir/layer.py` 168-179) -/
def srcRef (plan : Graph.Plan) (p : Nat) : Ref :=
  match plan.cst p with
  | some k => .cst k
  | none => .out (plan.path p)

theorem srcRef_buf (plan : Graph.Plan) (p : Nat) : (srcRef plan p).buf = Graph.outStr plan p := by
  unfold srcRef Graph.outStr
  cases plan.cst p <;> rfl

/-- the texts of the layers, each given by its template and its hash -/
structure Texts (K : Type) where
  text : Nat → List Char
  hash : Nat → Hash K

/-- `text` and `hash` are what the generator uses for each layer -/
def Texts.Of (t : Texts K) (L : Lib K) (net : Network K) (plan : Graph.Plan) : Prop :=
  ∀ n ∈ plan.order, Emits L net.fmt n (plan.path n) (net.op n) ((net.graph.prevOf n).map (srcRef plan)) (t.text n) (t.hash n)

/-- `layer_hash` (`generator/neural_network.py` 903-915) -/
def Texts.layer (t : Texts K) (net : Network K) (plan : Graph.Plan) (n : Nat) : SrcLayer K :=
  ⟨rendered (t.text n) (t.hash n), plan.path n, (net.op n).size, plan.cst n⟩

/-- `output_str`, of the last layer (`generator/neural_network.py` 931-957) -/
def outputT (net : Network K) (plan : Graph.Plan) (n : Nat) : List (CTok K) :=
  let s := ((net.op n).chans).getD ⟨0, 0, 0⟩
  rendered Tpl.output (outputHash net.fmt .first (net.op n).chans.isSome s.C s.H s.W (net.op n).size (plan.path n))

/-- `generate_function_source_file` (`generator/neural_network.py` 800-960): the tokens of the file `inference.c` -/
def sourceText (t : Texts K) (net : Network K) (plan : Graph.Plan) : Option (List (CTok K)) :=
  match plan.order.head?, plan.order.getLast? with
  | some first, some last =>
    (tokens Tpl.source_file).bind fun tt => inst tt (sourceHash (net.op last).size (net.op first).size (flags (plan.order.map net.op))
      (indexArrays net.op plan.order) (plan.order.map (t.layer net plan)) (outputT net plan last))
  | _, _ => none

/-- the local declarations of the function -/
def localDcls (net : Network K) (plan : Graph.Plan) : List Dcl := flagDcls (flags (plan.order.map net.op)) (indexArrays net.op plan.order)

theorem layers_body (t : Texts K) (L : Lib K) {ints : Ident → Option (List Nat)} (net : Network K) (plan : Graph.Plan) (ys : List (Ident × Ty))
    (hk : ((.k, none), .int) ∈ ys) (ns : List Nat) (hout : ∀ n ∈ ns, U (true, outId (plan.path n))) (hcst : ∀ n ∈ ns, ∀ k, plan.cst n = some k → U (true, cstId k))
    (h : ∀ n ∈ ns, Body U (std L ints) (rendered (t.text n) (t.hash n)) ys
      (net.layerCode L.cmath n ((net.graph.prevOf n).map (Graph.outStr plan)) (.out (plan.path n)))) :
    Body U (std L ints) ((ns.map (t.layer net plan)).flatMap layerT) ys
      (Graph.runLayers plan net.graph.prevOf (fun n => (net.op n).size) (net.layerCode L.cmath) ns) := by
  induction ns with
  | nil => exact Body.nil
  | cons n ns ih =>
    have h2 : Body U (std L ints) (match (t.layer net plan n).cst with | none => ([] : List (CTok K)) | some k => saveT k (net.op n).size (plan.path n)) ys
        (Graph.cstCopy plan (fun n => (net.op n).size) n) := by
      unfold Graph.cstCopy
      simp only [Texts.layer]
      cases hc : plan.cst n with
      | none => exact Body.nil
      | some k => exact (save_body L k (net.op n).size (plan.path n) (hcst n (by simp) k hc) (hout n (by simp))).mono (by simpa using hk)
    rw [List.map_cons, List.flatMap_cons, layerT, List.append_assoc]
    exact (h n (by simp)).append (h2.append (ih (fun a ha => hout a (List.mem_cons_of_mem _ ha)) (fun a ha => hcst a (List.mem_cons_of_mem _ ha))
      fun a ha => h a (List.mem_cons_of_mem _ ha)))

/-- The arrays of a generated function: its two arguments; of the context, the arrays of the layers' outputs and of their
producers, the copies `cst_k` and the scratch array; the parameters and the indices of the layers. -/
inductive Named (net : Network K) (plan : Graph.Plan) : Bool × Ident → Prop
  | input : Named net plan (false, (.nn_input, none))
  | pred : Named net plan (false, (.prediction, none))
  | out (n : Nat) : n ∈ plan.order → Named net plan (true, outId (plan.path n))
  | src (n p : Nat) : n ∈ plan.order → p ∈ net.graph.prevOf n → Named net plan (true, (srcRef plan p).ident)
  | cst (n k : Nat) : n ∈ plan.order → plan.cst n = some k → Named net plan (true, cstId k)
  | temp : Named net plan (true, tempId)
  | par (n : Nat) (x : Ident) (l : List K) : n ∈ plan.order → (x, l) ∈ parArrays n (net.op n) → Named net plan (false, x)
  | ind (n : Nat) (l : List Nat) : n ∈ plan.order → (net.op n).indices? = some l → Named net plan (false, indices n)

theorem Named.of_allowed {net : Network K} {plan : Graph.Plan} {n : Nat} (hn : n ∈ plan.order) {a : Bool × Ident}
    (h : Allowed n (plan.path n) (net.op n) ((net.graph.prevOf n).map (srcRef plan)) a) : Named net plan a := by
  cases h with
  | src r hr => obtain ⟨p, hp, rfl⟩ := List.mem_map.1 hr; exact .src n p hn hp
  | out => exact .out n hn
  | temp => exact .temp
  | input r s h => exact .input
  | par x l h => exact .par n x l hn h
  | ind l h => exact .ind n l hn h

/-- the text of the layers and of the copy to `prediction` -/
theorem source_body [IsStrictOrderedRing K] (t : Texts K) (L : Lib K) (net : Network K) (plan : Graph.Plan) (ht : t.Of L net plan)
    (hpos : ∀ n ∈ plan.order, (net.op n).Positive)
    (hsome : ∀ n ∈ plan.order, ((net.op n).code L.cmath net.fmt n (plan.path n) ((net.graph.prevOf n).map (Graph.outStr plan))).isSome = true)
    (last : Nat) (hlast : plan.order.getLast? = some last) :
    Body (Named net plan) (std L (intsOf (localDcls net plan))) ((plan.order.map (t.layer net plan)).flatMap layerT ++ outputT net plan last) (varsOf (localDcls net plan))
      (net.inference L.cmath plan) := by
  have hint : ∀ x, x = .f ∨ x = .i ∨ x = .j ∨ x = .k → ((x, none), Ty.int) ∈ varsOf (localDcls net plan) := by
    intro x hx
    unfold localDcls flagDcls
    rw [varsOf_append]
    refine List.mem_append.2 (.inl ?_)
    rcases hx with rfl | rfl | rfl | rfl <;> simp [varsOf, nm]
  have hl := layers_body t L (ints := intsOf (localDcls net plan)) net plan (varsOf (localDcls net plan)) (hint _ (by simp)) plan.order
    (U := Named net plan) (fun n hn => .out n hn) (fun n hn k hk => .cst n k hn hk) (by
    intro n hn
    obtain ⟨p, hp⟩ := Option.isSome_iff_exists.1 (hsome n hn)
    have e : (net.graph.prevOf n).map (Graph.outStr plan) = ((net.graph.prevOf n).map (srcRef plan)).map Ref.buf := by
      rw [List.map_map]
      exact List.map_congr_left fun q _ => (srcRef_buf plan q).symm
    have hl : net.layerCode L.cmath n ((net.graph.prevOf n).map (Graph.outStr plan)) (.out (plan.path n)) = p := by
      simp only [Network.layerCode, hp, Option.getD_some]
    rw [hl]
    rw [e] at hp
    obtain ⟨s, hs, hu⟩ := (ht n hn).names (by rw [hp]; rfl)
    exact Body.intro ((ht n hn).clean (by rw [hp]; rfl)) ⟨s, hs, hu.mono fun a => Named.of_allowed hn⟩
      (((ht n hn).renders (hpos n hn) (fun l hl => intsOf_flagDcls net.op plan.order n hn hl _) hp).mono (opVars_subset net.op plan.order n hn)))
  have ho := Body.intro (output_clean ..) (output_names (P := Named net plan) _ _ _ _ _ _ _ _ .pred (.out last (List.mem_of_getLast? hlast))) ((output_renders L (ints := intsOf (localDcls net plan)) net.fmt .first (net.op last).chans.isSome (((net.op last).chans).getD ⟨0, 0, 0⟩).C
    (((net.op last).chans).getD ⟨0, 0, 0⟩).H (((net.op last).chans).getD ⟨0, 0, 0⟩).W (net.op last).size (plan.path last)).mono (ys := varsOf (localDcls net plan))
    (by
      intro v hv
      simp only [List.mem_cons, List.not_mem_nil, or_false] at hv
      rcases hv with rfl | rfl | rfl | rfl <;> exact hint _ (by simp)))
  have := hl.append ho
  unfold Network.inference
  rw [hlast]
  exact this

/-- The C function with these local declarations and statements, called with this memory, terminates and leaves `m'`,
whatever the initial values of its local variables. -/
def Runs (L : Lib K) (ds : List Dcl) (s : Stmt K) (m m' : Mem K) : Prop :=
  ∃ F₀, ∀ F, F₀ ≤ F → ∀ e, Declares e (varsOf ds) → ∃ e', s.run (std L (intsOf ds)) F e m = some (e', m')

/-- in no block is an identifier declared twice -/
def Declared (ds : List Dcl) (s : Stmt K) : Prop := (ds.map Dcl.name ++ decls s).Nodup ∧ noRedecl s = true

/-- **C54.**  The text of `inference.c` is a definition of the function `inference`, with the sizes of the last and of the
first layer as sizes of its arguments; no block declares an identifier twice, and the arrays it names are those of `Named`;
called on a memory on which the program
`Network.inference` succeeds, it terminates and leaves the same memory, whatever the initial values of the local variables. -/
theorem C54_source_renders [IsStrictOrderedRing K] (t : Texts K) (L : Lib K) (net : Network K) (plan : Graph.Plan) (ht : t.Of L net plan)
    (hnd : plan.order.Nodup) (first last : Nat) (hfirst : plan.order.head? = some first) (hlast : plan.order.getLast? = some last)
    (hpos : ∀ n ∈ plan.order, (net.op n).Positive)
    (hsome : ∀ n ∈ plan.order, ((net.op n).code L.cmath net.fmt n (plan.path n) ((net.graph.prevOf n).map (Graph.outStr plan))).isSome = true) :
    ∃ ts s, sourceText t net plan = some ts ∧ IsInference ts (net.op last).size (net.op first).size (localDcls net plan) s ∧ Declared (localDcls net plan) s ∧
      Within s.arrays (Named net plan) ∧ ∀ m m', net.inference L.cmath plan m = some ((), m') → Runs L (localDcls net plan) s m m' := by
  obtain ⟨s, hs, hc, hu, F₀, hd⟩ := source_body t L net plan ht hpos hsome last hlast
  refine ⟨_, s, ?_, ⟨_, rfl, hs⟩, ⟨?_, hc.1⟩, hu, fun m m' hm => ?_⟩
  · simp only [sourceText, hfirst, hlast]
    exact source_inst ..
  · rw [hc.2, List.append_nil]
    exact flagDcls_nodup net.op plan.order hnd _
  · refine ⟨F₀, fun F hF e he => ?_⟩
    obtain ⟨e', _, hr⟩ := hd e he F hF m () m' hm
    exact ⟨e', hr⟩

/-! ## End to end -/

/-- a run that succeeds meets no layer without code -/
theorem runLayers_some {net : Network K} {M : CMath K} {plan : Graph.Plan} (ns : List Nat) : ∀ {m : Mem K} {r : Unit × Mem K},
    Graph.runLayers plan net.graph.prevOf (fun n => (net.op n).size) (net.layerCode M) ns m = some r →
    ∀ n ∈ ns, ((net.op n).code M net.fmt n (plan.path n) ((net.graph.prevOf n).map (Graph.outStr plan))).isSome = true := by
  induction ns with
  | nil => intro m r _ n hn; cases hn
  | cons a ns ih =>
    intro m r h n hn
    simp only [Graph.runLayers, Prog.andThen] at h
    cases h1 : net.layerCode M a ((net.graph.prevOf a).map (Graph.outStr plan)) (.out (plan.path a)) m with
    | none => rw [h1] at h; cases h
    | some r1 =>
      rw [h1] at h
      simp only [] at h
      cases h2 : Graph.cstCopy plan (fun n => (net.op n).size) a r1.2 with
      | none => rw [h2] at h; cases h
      | some r2 =>
        rw [h2] at h
        simp only [] at h
        rcases List.mem_cons.1 hn with rfl | hn
        · cases hc : (net.op n).code M net.fmt n (plan.path n) ((net.graph.prevOf n).map (Graph.outStr plan)) with
          | none => simp [Network.layerCode, hc, broken] at h1
          | some p => rfl
        · exact ih h n hn

/-- **C55.**  For a network of the modelled layers within the conditions of `Net.C52_network_partial`, whose layers have
the texts of `Emits`: `compute_inference` returns a prediction; the text of `inference.c` is a C function; and, called on a
memory with the arrays of the header, the input and the parameters, this function terminates and leaves exactly this
prediction in `prediction`, and the input and the parameters unchanged. -/
theorem C55_text_end_to_end_partial [IsStrictOrderedRing K] (t : Texts K) (L : Lib K) (net : Network K) (hwf : net.WF) (plan : Graph.Plan)
    (h : Graph.triTopo net.graph = some plan) (ht : t.Of L net plan) (hpos : ∀ n ∈ plan.order, (net.op n).Positive) (x : Nd K) (m : Mem K)
    (hx : ∀ l ∈ net.graph, ∀ r s, net.op l.idx = .input r s → x.data.length = s.size)
    (hm : net.Memory plan x.data m)
    (hin : ∀ first x', plan.order.head? = some first → prepare net.fmt (net.op first) x = some x' →
      ∀ n ins, net.Receives L.cmath plan x' n ins → (net.op n).InputsOK L.cmath ins)
    (hlast : net.fmt = .last → ∀ n, plan.order.getLast? = some n → (net.op n).chans = none ∨ (net.op n).Rank3) :
    ∃ y ts nOut nIn ds s m', net.reference L.cmath plan x = some y ∧ sourceText t net plan = some ts ∧ IsInference ts nOut nIn ds s ∧ Declared ds s ∧
      Runs L ds s m m' ∧ Holds m' .pred y ∧ m'.size = m.size ∧ ∀ b, Graph.ReadOnly b → m'.val b = m.val b := by
  obtain ⟨y, m', hy, hrun, hpred, hsz, hro⟩ := C52_network_partial net hwf plan h L.cmath x m hx hm hin hlast
  obtain ⟨first, _, _, hfirst, _, _⟩ := first_input hwf h
  obtain ⟨last, hl⟩ : ∃ n, plan.order.getLast? = some n := by
    cases hh : plan.order.getLast? with
    | none => rw [List.getLast?_eq_none_iff.1 hh] at hfirst; cases hfirst
    | some n => exact ⟨n, rfl⟩
  have hnd : plan.order.Nodup := (Graph.plan_perm hwf.unique hwf.consistent h).symm.nodup hwf.unique
  have hsome := fun (r : Unit × Mem K) hr => runLayers_some (net := net) (M := L.cmath) (plan := plan) plan.order (m := m) (r := r) hr
  obtain ⟨ts, s, h1, h2, h3, _, h4⟩ := C54_source_renders t L net plan ht hnd first last hfirst hl hpos (by
    have hr := hrun
    unfold Network.inference at hr
    simp only [bind, Prog.andThen] at hr
    cases h1 : Graph.runLayers plan net.graph.prevOf (fun n => (net.op n).size) (net.layerCode L.cmath) plan.order m with
    | none => rw [h1] at hr; cases hr
    | some r => exact hsome r h1)
  exact ⟨y, ts, _, _, _, s, m', hy, h1, h2, h3, h4 m m' hrun, hpred, hsz, hro⟩

end Verif.CText

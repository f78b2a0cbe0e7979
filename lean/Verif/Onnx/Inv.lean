import Verif.Onnx.Wire

/-!
# The first loop of `load_onnx`

An invariant that relates the layers created so far to the values of the tensors of the model.
-/

namespace Verif.Onnx
open Net Layers
open scoped Classical

/-- the names of the tensors defined before the nodes `pre` and by them -/
def Model.namesOf (m : Model) (input : String) (pre : List Node) : List String :=
  input :: (m.inits.map Init.name ++ pre.filterMap Node.output?)

/-- the layer `op` with the inputs `names` was made for a supported node of value `y`; `im` is the model at that time, with the
initializers that Constant nodes have added -/
structure Origin (m : Model) (E : Spec.Env) (op : Op ℝ) (names : List String) (y : Nd ℝ) (n : Node) (im : Model) (as : List (Option (Nd ℝ))) : Prop where
  node : n ∈ m.nodes
  create : create im n = some (op, names)
  args : Spec.args E n = some as
  value : Spec.node m.opset n as = some y
  supported : Supported m n as y
  known : Known im m.Dynamic E
  declared : Declared im
  dynamic : ∀ s, m.Dynamic s → im.init? s = none
  named : Named im m.Dynamic n
  out : ∀ o, n.output? = some o → m.Dynamic o ∧ E o = some y
  opset : im.opset = m.opset

/-- After the nodes `pre`: `Ec` are the values of the tensors so far, `E` those at the end, `vals` the elements that the
layers return. -/
structure Inv (M : CMath ℝ) (m : Model) (input : String) (x : Nd ℝ) (E : Spec.Env) (pre : List Node) (Ec : Spec.Env) (st : State)
    (vals : List (List ℝ)) : Prop where
  sub : ∀ s t, Ec s = some t → E s = some t
  name : ∀ s t, Ec s = some t → s ∈ m.namesOf input pre ∧ (m.Dynamic s ∨ (st.model.init? s).isSome)
  model : ∃ more, st.model = { m with inits := m.inits ++ more }
  inits : ∀ s i, st.model.init? s = some i → ¬ m.Dynamic s ∧ (m.rawShape s = [] ∨ m.rawShape s = i.dims) ∧ ∃ t, i.array = some t ∧ Ec s = some t
  length : vals.length = st.layers.length
  first : ∃ d, m.inputs = [(input, d)] ∧ st.layers[0]? = some (inputOp d) ∧ vals[0]? = some x.data
  out : ∀ s k, st.dictOut s = some k → m.Dynamic s ∧ ∃ t, Ec s = some t ∧ vals[k]? = some t.data
  made : ∀ e ∈ st.dictIn, ∃ op y, st.layers[e.1]? = some op ∧ vals[e.1]? = some y.data ∧ Correct M E op e.2 y ∧ ∃ n im as, Origin m E op e.2 y n im as
  keys : st.dictIn.map Prod.fst = List.range' 1 (st.layers.length - 1)
  named : ∀ k < st.layers.length, ∃ s, st.dictOut s = some k
  before : ∀ e ∈ st.dictIn, ∀ s ∈ e.2, (s = "" ∨ ∃ t, Ec s = some t) ∧ ∀ k, st.dictOut s = some k → k < e.1
  plain : ∀ op ∈ st.layers, isConstant op = false
  fed : (∀ n ∈ pre, n.op ≠ .Constant → ∃ s ∈ n.operands, m.Dynamic s) → ∀ e ∈ st.dictIn, ∃ s ∈ e.2, m.Dynamic s
  read : ∀ n ∈ pre, ∀ s ∈ n.operands, m.Dynamic s → (∃ t, Ec s = some t) ∧ (st.dictOut s = none ∨ ∃ e ∈ st.dictIn, s ∈ e.2)

theorem filterMap_inj {l : List Node} (h : (l.filterMap Node.output?).Nodup) {a b : Node} (ha : a ∈ l) (hb : b ∈ l) {o : String}
    (h1 : a.output? = some o) (h2 : b.output? = some o) : a = b := by
  induction l with
  | nil => simp at ha
  | cons c l ih =>
    have mem : ∀ d : Node, d ∈ l → d.output? = some o → o ∈ l.filterMap Node.output? :=
      fun d hd ho => List.mem_filterMap.mpr ⟨d, hd, ho⟩
    rw [List.filterMap_cons] at h
    rcases List.mem_cons.mp ha with rfl | ha' <;> rcases List.mem_cons.mp hb with rfl | hb'
    · rfl
    · rw [h1] at h; exact absurd (mem b hb' h2) (List.nodup_cons.mp h).1
    · rw [h2] at h; exact absurd (mem a ha' h1) (List.nodup_cons.mp h).1
    · refine ih ?_ ha' hb'
      split at h
      · exact h
      · exact (List.nodup_cons.mp h).2

theorem names_split {m : Model} {input out : String} (hv : Valid m input out) {pre post : List Node} {n : Node} (hm : m.nodes = pre ++ n :: post)
    {o : String} (ho : n.output? = some o) : o ∉ m.namesOf input pre ∧ o ≠ "" ∧ o ∉ post.filterMap Node.output? ∧
      ∀ s ∈ m.namesOf input pre, s ∉ post.filterMap Node.output? := by
  have h := hv.names
  have e := hv.nonempty
  rw [hm, List.filterMap_append, List.filterMap_cons, ho] at h e
  have hre : input :: (m.inits.map Init.name ++ (pre.filterMap Node.output? ++ o :: post.filterMap Node.output?)) =
      m.namesOf input pre ++ (o :: post.filterMap Node.output?) := by simp [Model.namesOf]
  simp only at h e
  rw [hre] at h e
  obtain ⟨h1, h2, h3⟩ := List.nodup_append.mp h
  refine ⟨fun hc => h3 o hc o (by simp) rfl, fun hc => e (by simp [hc]), (List.nodup_cons.mp h2).1, fun s hs hp => h3 s hs s (by simp [hp]) rfl⟩

theorem setOut_same (d : String → Option Nat) (k : String) (v : Option Nat) : setOut d k v k = v := by simp [setOut]
theorem setOut_ne (d : String → Option Nat) {k s : String} (v : Option Nat) (h : s ≠ k) : setOut d k v s = d s := by simp [setOut, h]

theorem namesOf_snoc (m : Model) (input : String) (pre : List Node) {n : Node} {o : String} (ho : n.output? = some o) :
    m.namesOf input (pre ++ [n]) = m.namesOf input pre ++ [o] := by
  simp [Model.namesOf, ho]

variable {M : CMath ℝ} {m : Model} {input out : String} {x : Nd ℝ} {E Ec : Spec.Env} {pre post : List Node} {n : Node} {st : State} {vals : List (List ℝ)}

theorem Inv.known (hI : Inv M m input x E pre Ec st vals) (hf : Fits m E) (hok : ∀ s t, E s = some t → t.Ok) : Known st.model m.Dynamic E := by
  obtain ⟨more, hmod⟩ := hI.model
  refine ⟨fun s i h => ?_, fun s t hd he => ?_, hok⟩
  · obtain ⟨_, _, t, ht, hE⟩ := hI.inits s i h
    exact ⟨t, ht, hI.sub s t hE⟩
  · rw [hmod]; exact hf.decl s t hd he

theorem Inv.declared (hI : Inv M m input x E pre Ec st vals) : Declared st.model := by
  intro s i h
  obtain ⟨more, hmod⟩ := hI.model
  have := (hI.inits s i h).2.1
  rw [hmod]; exact this

theorem Inv.dis (hI : Inv M m input x E pre Ec st vals) (s : String) (hs : m.Dynamic s) : st.model.init? s = none := by
  cases h : st.model.init? s with
  | none => rfl
  | some i => exact absurd hs (hI.inits s i h).1

theorem Inv.opset (hI : Inv M m input x E pre Ec st vals) : st.model.opset = m.opset := by
  obtain ⟨more, hmod⟩ := hI.model
  rw [hmod]

/-- one node -/
theorem Inv.step (hexp : M.exp = Real.exp) (hsqrt : M.sqrt = Real.sqrt) (hv : Valid m input out) (hf : Fits m E)
    (hok : ∀ s t, E s = some t → t.Ok) (hm : m.nodes = pre ++ n :: post) (hI : Inv M m input x E pre Ec st vals)
    {Ec' : Spec.Env} (hs : Spec.step m.opset Ec n = some Ec') {st' : State} (hst : Onnx.step st n = some st')
    (hpost : post.foldlM (Spec.step m.opset) Ec' = some E) : ∃ vals', Inv M m input x E (pre ++ [n]) Ec' st' vals' := by
  obtain ⟨as, y, o, ha, hy, ho, rfl⟩ := spec_step hs
  obtain ⟨hfresh, hone, hop, hpp⟩ := names_split hv hm ho
  have hEo : Ec o = none := by
    cases h : Ec o with
    | none => rfl
    | some t => exact absurd (hI.name o t h).1 hfresh
  have hdo : st.dictOut o = none := by
    cases h : st.dictOut o with
    | none => rfl
    | some k => obtain ⟨_, t, ht, _⟩ := hI.out o k h; rw [hEo] at ht; simp at ht
  have ne_o : ∀ s t, Ec s = some t → s ≠ o := by rintro s t h rfl; rw [hEo] at h; simp at h
  have keep : ∀ s t, Ec s = some t → (if s = o then some y else Ec s) = some t := fun s t h => by rw [if_neg (ne_o s t h)]; exact h
  have hEy : E o = some y := by rw [eval_keep hpost hop]; simp
  have haE : Spec.args E n = some as := args_mono hI.sub ha
  have hnm : n ∈ m.nodes := by rw [hm]; simp
  have hsup := hf.nodes n hnm as y haE hy
  have sub' : ∀ s t, (if s = o then some y else Ec s) = some t → E s = some t := by
    intro s t h
    split at h
    · rename_i e; subst e; cases h; exact hEy
    · exact hI.sub s t h
  have name' : ∀ s t, (if s = o then some y else Ec s) = some t → s ∈ m.namesOf input (pre ++ [n]) := by
    intro s t h
    rw [namesOf_snoc m input pre ho]
    split at h
    · rename_i e; simp [e]
    · exact List.mem_append_left _ (hI.name s t h).1
  have okas : ∀ t, some t ∈ as → t.Ok := fun t ht => let ⟨s, hs⟩ := args_mem haE ht; hok s t hs
  unfold Onnx.step at hst
  split at hst
  · rename_i hb
    have hbp : n.op = .Dropout ∨ n.op = .Flatten ∨ n.op = .Reshape ∨ n.op = .Unsqueeze := by
      unfold OpType.isBypass at hb
      unfold Supported at hsup
      split at hb <;> rename_i e <;> simp_all
    have hconst : n.op ≠ .Constant := by rcases hbp with e | e | e | e <;> rw [e] <;> simp
    have hDo : m.Dynamic o := .inr ⟨n, hnm, hconst, ho⟩
    obtain ⟨i, hi, hst⟩ := Option.bind_eq_some_iff.mp hst
    obtain ⟨o', ho', hst⟩ := Option.bind_eq_some_iff.mp hst
    obtain ⟨k, hk, hst⟩ := Option.bind_eq_some_iff.mp hst
    cases hst
    rw [ho] at ho'; cases ho'
    obtain ⟨hDi, t, hti, hvk⟩ := hI.out i k hk
    have hio := ne_o i t hti
    obtain ⟨x0, hx0, hyd, _⟩ := bypass_data okas hbp hy
    have hx0t : x0 = t := by
      rcases args_get haE (k := 0) hi with ⟨e, _⟩ | ⟨t', hne, ht', h0⟩
      · have hE := (hI.name i t hti).1
        exact absurd (e ▸ hE) (by
          intro hc
          apply hv.nonempty
          rw [hm, List.filterMap_append]
          simp only [Model.namesOf, List.mem_cons, List.mem_append] at hc ⊢
          tauto)
      · rw [← List.head?_eq_getElem?] at h0
        rw [hx0] at h0
        cases h0
        have := hI.sub i t hti
        rw [ht'] at this
        cases this; rfl
    subst hx0t
    refine ⟨vals, sub', fun s t h => ⟨name' s t h, ?_⟩, hI.model, ?_, hI.length, hI.first, ?_, hI.made, hI.keys, ?_, ?_, hI.plain,
      fun h => hI.fed fun n' hn' => h n' (List.mem_append_left _ hn'), ?_⟩
    · split at h
      · rename_i e; rw [e]; exact .inl hDo
      · exact (hI.name s t h).2
    · intro s i' h
      obtain ⟨h1, h2, t, ht, hE⟩ := hI.inits s i' h
      exact ⟨h1, h2, t, ht, keep s t hE⟩
    · intro s k' h
      by_cases hso : s = o
      · subst hso
        simp only [setOut_same, Option.some.injEq] at h
        subst h
        exact ⟨hDo, y, by simp, by rw [hyd]; exact hvk⟩
      · simp only [setOut_ne _ _ hso] at h
        by_cases hsi : s = i
        · subst hsi; simp [setOut_same] at h
        · rw [setOut_ne _ _ hsi] at h
          obtain ⟨h1, t, ht, h2⟩ := hI.out s k' h
          exact ⟨h1, t, keep s t ht, h2⟩
    · intro k' hk'
      obtain ⟨s, hs'⟩ := hI.named k' hk'
      by_cases hsi : s = i
      · subst hsi
        rw [hk] at hs'; cases hs'
        exact ⟨o, setOut_same _ _ _⟩
      · have : s ≠ o := by rintro rfl; rw [hdo] at hs'; simp at hs'
        exact ⟨s, by simp only [setOut_ne _ _ this, setOut_ne _ _ hsi]; exact hs'⟩
    · intro e he s hs'
      obtain ⟨h1, h2⟩ := hI.before e he s hs'
      refine ⟨h1.imp_right fun ⟨t, ht⟩ => ⟨t, keep s t ht⟩, fun k' h => h2 k' ?_⟩
      have hso : s ≠ o := by
        rcases h1 with rfl | ⟨t, ht⟩
        · exact fun h => hone h.symm
        · exact ne_o s t ht
      simp only [setOut_ne _ _ hso] at h
      by_cases hsi : s = i
      · rw [hsi, setOut_same] at h; simp at h
      · rw [setOut_ne _ _ hsi] at h; exact h
    · intro n' hn' s hs' hd
      rcases List.mem_append.mp hn' with hn' | hn'
      · obtain ⟨⟨t, ht⟩, h⟩ := hI.read n' hn' s hs' hd
        refine ⟨⟨t, keep s t ht⟩, h.imp_left fun h => ?_⟩
        simp only [setOut_ne _ _ (ne_o s t ht)]
        by_cases hsi : s = i
        · rw [hsi, setOut_same]
        · rw [setOut_ne _ _ hsi]; exact h
      · simp only [List.mem_singleton] at hn'
        subst hn'
        have : s = i := by
          have : n'.operands = n'.inputs.take 1 := by
            unfold Node.operands
            rcases hbp with e | e | e | e <;> rw [e]
          rw [this] at hs'
          unfold Node.input? at hi
          cases hin : n'.inputs with
          | nil => simp [hin] at hi
          | cons a l => rw [hin] at hi hs'; simp at hi hs'; rw [hs', hi]
        subst this
        exact ⟨⟨x0, keep s x0 hti⟩, .inl (by simp only [setOut_ne _ _ hio, setOut_same])⟩
  · rename_i hnb
    split at hst
    · rename_i hc
      obtain ⟨o', ho', hst⟩ := Option.bind_eq_some_iff.mp hst
      rw [ho] at ho'; cases ho'
      simp only [Spec.node, hc] at hy
      unfold Supported at hsup
      rw [hc] at hsup
      simp only at hsup
      split at hst
      · rename_i _ _ d p _ hat
        cases hst
        rw [hat] at hy
        simp only [Option.ite_none_right_eq_some, Option.some.injEq] at hy
        obtain ⟨⟨hargs, hlen⟩, rfl⟩ := hy
        simp only at hsup
        subst hsup
        obtain ⟨more, hmod⟩ := hI.model
        have hDo : ¬ m.Dynamic o := by
          rintro (⟨e, he, rfl⟩ | ⟨n', hn', hnc, hno⟩)
          · obtain ⟨d, hd⟩ := hv.inputs
            rw [hd] at he
            simp only [List.mem_singleton] at he
            subst he
            exact hfresh (by simp [Model.namesOf])
          · have hnd : (m.nodes.filterMap Node.output?).Nodup := ((List.nodup_append.mp (List.nodup_cons.mp hv.names).2).2.1)
            have := filterMap_inj hnd hn' hnm hno ho
            subst this
            exact hnc hc
        have hinit : ∀ s, s ≠ o → ({ st.model with inits := st.model.inits ++ [⟨o, [], p⟩] } : Model).init? s = st.model.init? s := by
          intro s hs'
          have : o ≠ s := fun h => hs' h.symm
          simp [Model.init?, List.find?_append, this]
        have hnone : st.model.init? o = none := by
          cases h : st.model.init? o with
          | none => rfl
          | some i => obtain ⟨_, _, t, _, ht⟩ := hI.inits o i h; rw [hEo] at ht; simp at ht
        have hinito : ({ st.model with inits := st.model.inits ++ [⟨o, [], p⟩] } : Model).init? o = some ⟨o, [], p⟩ := by
          simp only [Model.init?, hone, if_false] at hnone ⊢
          rw [List.find?_append, hnone]
          simp
        refine ⟨vals, sub', fun s t h => ⟨name' s t h, ?_⟩, ⟨more ++ [⟨o, [], p⟩], by rw [hmod]; simp⟩, ?_, hI.length, hI.first, ?_, hI.made, hI.keys, hI.named, ?_, hI.plain,
          fun h => hI.fed fun n' hn' => h n' (List.mem_append_left _ hn'), ?_⟩
        · by_cases hso : s = o
          · right; subst hso; simp only; rw [hinito]; rfl
          · rw [if_neg hso] at h
            simp only; rw [hinit s hso]; exact (hI.name s t h).2
        · intro s i' h
          by_cases hso : s = o
          · subst hso
            simp only at h
            rw [hinito] at h
            cases h
            exact ⟨hDo, .inl (hf.const n hnm hc s ho), ⟨[], p.reals⟩, by simp [Init.array, hlen], by simp⟩
          · simp only at h
            rw [hinit s hso] at h
            obtain ⟨h1, h2, t, ht, hE⟩ := hI.inits s i' h
            exact ⟨h1, h2, t, ht, keep s t hE⟩
        · intro s k' h
          obtain ⟨h1, t, ht, h2⟩ := hI.out s k' h
          exact ⟨h1, t, keep s t ht, h2⟩
        · intro e he s hs'
          obtain ⟨h1, h2⟩ := hI.before e he s hs'
          exact ⟨h1.imp_right fun ⟨t, ht⟩ => ⟨t, keep s t ht⟩, h2⟩
        · intro n' hn' s hs' hd
          rcases List.mem_append.mp hn' with hn' | hn'
          · obtain ⟨⟨t, ht⟩, h⟩ := hI.read n' hn' s hs' hd
            exact ⟨⟨t, keep s t ht⟩, h⟩
          · simp only [List.mem_singleton] at hn'
            subst hn'
            have hl := args_length ha
            rw [hargs] at hl
            have : n'.inputs = [] := List.eq_nil_of_length_eq_zero (by simpa using hl.symm)
            unfold Node.operands at hs'
            rw [hc, this] at hs'
            simp at hs'
      · simp at hst
    · rename_i hnc
      obtain ⟨⟨op, ins⟩, hmk, hst⟩ := Option.bind_eq_some_iff.mp hst
      obtain ⟨o', ho', hst⟩ := Option.bind_eq_some_iff.mp hst
      rw [ho] at ho'; cases ho'
      cases hst
      have hDo : m.Dynamic o := .inr ⟨n, hnm, hnc, ho⟩
      have hnamed : Named st.model m.Dynamic n := by
        intro s hs' hne
        obtain ⟨t, ht⟩ := args_defined ha hs' hne
        exact (hI.name s t ht).2.symm
      have hcor : Correct M E op ins y := create_correct hexp hsqrt hI.opset (hI.known hf hok) hI.declared hI.dis hmk hnamed haE hy
        (fun o' h => by rw [ho] at h; cases h; exact ⟨hDo, hEy⟩) hsup
      obtain ⟨hrec, hsubn, hplain⟩ := create_names hsup.spells hmk
      have hlen := hI.length
      have hget : ∀ {k : Nat} {v : List ℝ}, vals[k]? = some v → (vals ++ [y.data])[k]? = some v := by
        intro k v h
        rw [List.getElem?_append_left (List.getElem?_eq_some_iff.mp h).1]; exact h
      have hgetl : ∀ {k : Nat} {v : Op ℝ}, st.layers[k]? = some v → (st.layers ++ [op])[k]? = some v := by
        intro k v h
        rw [List.getElem?_append_left (List.getElem?_eq_some_iff.mp h).1]; exact h
      have hlast : (vals ++ [y.data])[st.layers.length]? = some y.data := by rw [← hlen]; simp
      have hpos : 1 ≤ st.layers.length := by
        obtain ⟨d, _, h, _⟩ := hI.first
        exact (List.getElem?_eq_some_iff.mp h).1
      refine ⟨vals ++ [y.data], sub', fun s t h => ⟨name' s t h, ?_⟩, hI.model, ?_, by simp [hlen], ?_, ?_, ?_, ?_, ?_, ?_, ?_, ?_, ?_⟩
      · split at h
        · rename_i e; rw [e]; exact .inl hDo
        · exact (hI.name s t h).2
      · intro s i' h
        obtain ⟨h1, h2, t, ht, hE⟩ := hI.inits s i' h
        exact ⟨h1, h2, t, ht, keep s t hE⟩
      · obtain ⟨d, h1, h2, h3⟩ := hI.first
        exact ⟨d, h1, hgetl h2, hget h3⟩
      · intro s k' h
        by_cases hso : s = o
        · subst hso
          simp only [setOut_same, Option.some.injEq] at h
          subst h
          exact ⟨hDo, y, by simp, hlast⟩
        · simp only [setOut_ne _ _ hso] at h
          obtain ⟨h1, t, ht, h2⟩ := hI.out s k' h
          exact ⟨h1, t, keep s t ht, hget h2⟩
      · intro e he
        rcases List.mem_append.mp he with he | he
        · obtain ⟨op', y', h1, h2, h3⟩ := hI.made e he
          exact ⟨op', y', hgetl h1, hget h2, h3⟩
        · simp only [List.mem_singleton] at he
          subst he
          exact ⟨op, y, by simp, hlast, hcor, n, st.model, as, hnm, hmk, haE, hy, hsup, hI.known hf hok, hI.declared, hI.dis, hnamed,
            fun o' h => by rw [ho] at h; cases h; exact ⟨hDo, hEy⟩, hI.opset⟩
      · simp only [List.map_append, hI.keys, List.map_cons, List.map_nil, List.length_append, List.length_cons, List.length_nil]
        obtain ⟨k, hk⟩ : ∃ k, st.layers.length = k + 1 := ⟨_, (Nat.sub_add_cancel hpos).symm⟩
        rw [hk]
        simp [List.range'_concat, Nat.add_comm]
      · intro k hk
        simp only [List.length_append, List.length_cons, List.length_nil] at hk
        rcases Nat.lt_or_ge k st.layers.length with h | h
        · obtain ⟨s, hs'⟩ := hI.named k h
          have : s ≠ o := by rintro rfl; rw [hdo] at hs'; simp at hs'
          exact ⟨s, by simp only [setOut_ne _ _ this]; exact hs'⟩
        · exact ⟨o, by simp only [setOut_same]; congr 1; omega⟩
      · intro e he s hs'
        rcases List.mem_append.mp he with he | he
        · obtain ⟨h1, h2⟩ := hI.before e he s hs'
          have hso : s ≠ o := by
            rcases h1 with rfl | ⟨t, ht⟩
            · exact fun h => hone h.symm
            · exact ne_o s t ht
          refine ⟨h1.imp_right fun ⟨t, ht⟩ => ⟨t, keep s t ht⟩, fun k' h => h2 k' ?_⟩
          simpa only [setOut_ne _ _ hso] using h
        · simp only [List.mem_singleton] at he
          subst he
          have h1 : s = "" ∨ ∃ t, Ec s = some t := by
            by_cases hse : s = ""
            · exact .inl hse
            · exact .inr (args_defined ha (hsubn s hs') hse)
          have hso : s ≠ o := by
            rcases h1 with rfl | ⟨t, ht⟩
            · exact fun h => hone h.symm
            · exact ne_o s t ht
          refine ⟨h1.imp_right fun ⟨t, ht⟩ => ⟨t, keep s t ht⟩, fun k' h => ?_⟩
          simp only [setOut_ne _ _ hso] at h
          obtain ⟨_, t, _, ht⟩ := hI.out s k' h
          have := (List.getElem?_eq_some_iff.mp ht).1
          rw [hlen] at this
          exact this
      · intro op' h
        rcases List.mem_append.mp h with h | h
        · exact hI.plain op' h
        · simp only [List.mem_singleton] at h
          subst h; exact hplain
      · intro h e he
        rcases List.mem_append.mp he with he | he
        · exact hI.fed (fun n' hn' => h n' (List.mem_append_left _ hn')) e he
        · simp only [List.mem_singleton] at he
          subst he
          obtain ⟨s, hs', hd⟩ := h n (by simp) hnc
          exact ⟨s, hrec s hs' (hI.dis s hd), hd⟩
      · intro n' hn' s hs' hd
        rcases List.mem_append.mp hn' with hn' | hn'
        · obtain ⟨⟨t, ht⟩, h⟩ := hI.read n' hn' s hs' hd
          refine ⟨⟨t, keep s t ht⟩, h.imp (fun h => ?_) ?_⟩
          · simp only [setOut_ne _ _ (ne_o s t ht)]; exact h
          · rintro ⟨e, he, hse⟩; exact ⟨e, List.mem_append_left _ he, hse⟩
        · simp only [List.mem_singleton] at hn'
          subst hn'
          have hin : s ∈ n'.inputs := by
            unfold Node.operands at hs'
            split at hs' <;> first | exact hs' | exact List.mem_of_mem_take hs'
          have hne : s ≠ "" := by
            rintro rfl
            apply hv.nonempty
            rcases hd with ⟨e, he, h⟩ | ⟨n'', hn'', _, h⟩
            · obtain ⟨d, hd'⟩ := hv.inputs
              rw [hd'] at he
              simp only [List.mem_singleton] at he
              subst he
              simp only at h
              simp [h]
            · exact List.mem_cons_of_mem _ (List.mem_append_right _ (List.mem_filterMap.mpr ⟨n'', hn'', h⟩))
          obtain ⟨t, ht⟩ := args_defined ha hin hne
          exact ⟨⟨t, keep s t ht⟩, .inr ⟨_, List.mem_append_right _ (List.mem_singleton_self _), hrec s hs' (hI.dis s hd)⟩⟩

end Verif.Onnx

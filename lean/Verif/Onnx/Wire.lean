import Verif.Onnx.NodeOk
import Verif.Onnx.Load
import Verif.Net.Run

/-!
# From the nodes of a model to the layers of a network

The first loop of `load_onnx`, side by side with the evaluation of the model.
-/

namespace Verif.Onnx
open Net Layers
open scoped Classical

/-- the operands of a node that carry data (the other inputs are parameters: weights, indices, shapes, ...) -/
def Node.operands (n : Node) : List String :=
  match n.op with
  | .Add | .Sub | .Mul | .Div | .Max | .Min | .MatMul | .Concat => n.inputs
  | _ => n.inputs.take 1

/-- A model in the form the checker of ONNX asks for: one input, distinct names, arrays that fit their dimensions, one output,
and no other tensor computed without being read. -/
structure Valid (m : Model) (input out : String) : Prop where
  inputs : ∃ d, m.inputs = [(input, d)]
  names : (input :: (m.inits.map Init.name ++ m.nodes.filterMap Node.output?)).Nodup
  nonempty : "" ∉ input :: (m.inits.map Init.name ++ m.nodes.filterMap Node.output?)
  arrays : ∀ i ∈ m.inits, i.array.isSome
  used : ∀ s, m.Dynamic s → s ≠ out → ∃ n ∈ m.nodes, s ∈ n.operands

/-- Shape inference has given every tensor the dimensions of its value, and the nodes are among those that are supported. -/
structure Fits (m : Model) (E : Spec.Env) : Prop where
  decl : ∀ s t, m.Dynamic s → E s = some t → m.rawShape s = t.dims
  init : ∀ i ∈ m.inits, m.rawShape i.name = [] ∨ m.rawShape i.name = i.dims
  const : ∀ n ∈ m.nodes, n.op = .Constant → ∀ o, n.output? = some o → m.rawShape o = []
  nodes : ∀ n ∈ m.nodes, ∀ as y, Spec.args E n = some as → Spec.node m.opset n as = some y → Supported m n as y

/-! ## Evaluation -/

theorem spec_step {v : Nat} {E E' : Spec.Env} {n : Node} (h : Spec.step v E n = some E') :
    ∃ as y o, Spec.args E n = some as ∧ Spec.node v n as = some y ∧ n.output? = some o ∧ E' = fun s => if s = o then some y else E s := by
  unfold Spec.step at h
  obtain ⟨as, h1, h⟩ := Option.bind_eq_some_iff.mp h
  obtain ⟨y, h2, h⟩ := Option.bind_eq_some_iff.mp h
  obtain ⟨o, h3, h⟩ := Option.bind_eq_some_iff.mp h
  cases h
  exact ⟨as, y, o, h1, h2, h3, rfl⟩

/-- a tensor keeps its value if no later node has the same output -/
theorem eval_keep {v : Nat} {l : List Node} {E E' : Spec.Env} (h : l.foldlM (Spec.step v) E = some E') {s : String}
    (hs : s ∉ l.filterMap Node.output?) : E' s = E s := by
  induction l generalizing E with
  | nil => cases h; rfl
  | cons n l ih =>
    rw [List.foldlM_cons] at h
    obtain ⟨E1, h1, h⟩ := Option.bind_eq_some_iff.mp h
    obtain ⟨as, y, o, _, _, ho, rfl⟩ := spec_step h1
    rw [List.filterMap_cons, ho] at hs
    simp only [List.mem_cons, not_or] at hs
    rw [ih h hs.2]
    simp [hs.1]

theorem args_mono {E E' : Spec.Env} (h : ∀ s t, E s = some t → E' s = some t) {n : Node} {as : List (Option (Nd ℝ))}
    (ha : Spec.args E n = some as) : Spec.args E' n = some as := by
  unfold Spec.args at *
  generalize n.inputs = l at *
  induction l generalizing as with
  | nil => simpa using ha
  | cons a l ih =>
    rw [List.mapM_cons] at ha ⊢
    obtain ⟨b, hb, ha⟩ := Option.bind_eq_some_iff.mp ha
    obtain ⟨bs, hbs, ha⟩ := Option.bind_eq_some_iff.mp ha
    cases ha
    rw [ih hbs]
    have : (if a = "" then some none else (E' a).map some) = some b := by
      split at hb
      · rename_i e; simpa [e] using hb
      · rename_i e
        rw [Option.map_eq_some_iff] at hb
        obtain ⟨t, ht, rfl⟩ := hb
        simp [e, h a t ht]
    rw [this]
    rfl

theorem args_defined {E : Spec.Env} {n : Node} {as : List (Option (Nd ℝ))} (ha : Spec.args E n = some as) {s : String} (hs : s ∈ n.inputs) (hne : s ≠ "") :
    ∃ t, E s = some t := by
  obtain ⟨k, hk⟩ := List.getElem?_of_mem hs
  rcases args_get ha (k := k) hk with ⟨e, _⟩ | ⟨t, _, ht, _⟩
  · exact absurd e hne
  · exact ⟨t, ht⟩

theorem args_mem {E : Spec.Env} {n : Node} {as : List (Option (Nd ℝ))} (ha : Spec.args E n = some as) {t : Nd ℝ} (ht : some t ∈ as) :
    ∃ s, E s = some t := by
  unfold Spec.args at ha
  generalize n.inputs = l at ha
  revert ht
  induction l generalizing as with
  | nil => cases ha; simp
  | cons a l ih =>
    rw [List.mapM_cons] at ha
    obtain ⟨b, hb, ha⟩ := Option.bind_eq_some_iff.mp ha
    obtain ⟨bs, hbs, ha⟩ := Option.bind_eq_some_iff.mp ha
    cases ha
    intro ht
    rcases List.mem_cons.mp ht with rfl | ht
    · split at hb
      · simp at hb
      · rw [Option.map_eq_some_iff] at hb
        obtain ⟨u, hu, e⟩ := hb
        cases e
        exact ⟨a, hu⟩
    · exact ih hbs ht

theorem eval_ok {v : Nat} {l : List Node} {E E' : Spec.Env} (hE : ∀ s t, E s = some t → t.Ok) (h : l.foldlM (Spec.step v) E = some E') :
    ∀ s t, E' s = some t → t.Ok := by
  induction l generalizing E with
  | nil => cases h; exact hE
  | cons n l ih =>
    rw [List.foldlM_cons] at h
    obtain ⟨E1, h1, h⟩ := Option.bind_eq_some_iff.mp h
    obtain ⟨as, y, o, ha, hy, ho, rfl⟩ := spec_step h1
    refine ih ?_ h
    intro s t hs
    split at hs
    · cases hs
      exact node_ok (fun t ht => let ⟨s, hs⟩ := args_mem ha ht; hE s t hs) hy
    · exact hE s t hs

theorem env0_ok {m : Model} {input : String} {x : Nd ℝ} (hx : x.Ok) : ∀ s t, Spec.env0 m input x s = some t → t.Ok := by
  intro s t h
  unfold Spec.env0 at h
  split at h
  · cases h; exact hx
  · obtain ⟨i, _, hi⟩ := Option.bind_eq_some_iff.mp h
    unfold Init.array at hi
    split at hi
    · rename_i e; cases hi; exact e
    · simp at hi

/-! ## The names recorded -/

theorem foldInit_names {im : Model} {op : ℝ → ℝ → ℝ} {l : List String} {c c' : Nd ℝ} {acc names : List String}
    (h : l.foldlM (foldInit im op) (c, acc) = some (c', names)) :
    names = acc ++ l.filter fun s => im.init? s = none := by
  induction l generalizing c acc with
  | nil => cases h; simp
  | cons a l ih =>
    rw [List.foldlM_cons] at h
    obtain ⟨⟨c1, acc1⟩, h1, h⟩ := Option.bind_eq_some_iff.mp h
    have := ih h
    unfold foldInit at h1
    cases hi : im.init? a with
    | some i =>
      rw [hi] at h1
      simp only [Option.bind_eq_bind, Option.bind_eq_some_iff, Option.some.injEq, Prod.mk.injEq] at h1
      obtain ⟨_, _, _, _, _, rfl⟩ := h1
      simpa [hi] using this
    | none =>
      rw [hi] at h1
      simp only [Option.some.injEq, Prod.mk.injEq] at h1
      obtain ⟨_, rfl⟩ := h1
      simpa [hi] using this

/-- the operators for which the importer records the characters of the name of the operand -/
def OpType.spells : OpType → Bool
  | .Tile | .ReduceSum | .ReduceMax | .ReduceMin | .ReduceMean | .ReduceProd => true
  | _ => false

theorem Supported.spells {m : Model} {n : Node} {as : List (Option (Nd ℝ))} {y : Nd ℝ} (hs : Supported m n as y) : n.op.spells = false := by
  unfold Supported at hs
  unfold OpType.spells
  cases hop : n.op <;> simp_all

/-- The operands that are not initializers are recorded, and only inputs of the node; the layer is not a constant. -/
theorem create_names {im : Model} {n : Node} (hs : n.op.spells = false) {made : Made}
    (h : create im n = some made) : (∀ s ∈ n.operands, im.init? s = none → s ∈ made.2) ∧ (∀ s ∈ made.2, s ∈ n.inputs) ∧ isConstant made.1 = false := by
  have all : made.2 = n.inputs → isConstant made.1 = false → (∀ s ∈ n.operands, im.init? s = none → s ∈ made.2) ∧ (∀ s ∈ made.2, s ∈ n.inputs) ∧ isConstant made.1 = false := by
    intro e hc
    rw [e]
    refine ⟨fun s hm _ => ?_, fun s hm => hm, hc⟩
    unfold Node.operands at hm
    split at hm <;> first | exact hm | exact List.mem_of_mem_take hm
  have first : ∀ x, n.input? 0 = some x → made.2 = [x] → isConstant made.1 = false → n.operands = n.inputs.take 1 →
      (∀ s ∈ n.operands, im.init? s = none → s ∈ made.2) ∧ (∀ s ∈ made.2, s ∈ n.inputs) ∧ isConstant made.1 = false := by
    intro x hx e hc ho
    rw [e, ho]
    unfold Node.input? at hx
    cases hn : n.inputs with
    | nil => simp [hn] at hx
    | cons a l =>
      rw [hn] at hx
      simp only [List.getElem?_cons_zero, Option.some.injEq] at hx
      subst hx
      simpa using hc
  have act : ∀ made', createActivation im n = some made' → made = made' → n.operands = n.inputs.take 1 →
      (∀ s ∈ n.operands, im.init? s = none → s ∈ made.2) ∧ (∀ s ∈ made.2, s ∈ n.inputs) ∧ isConstant made.1 = false := by
    intro made' hc e ho
    unfold createActivation at hc
    obtain ⟨x, hx, hc⟩ := Option.bind_eq_some_iff.mp hc
    obtain ⟨_, _, hc⟩ := Option.bind_eq_some_iff.mp hc
    obtain ⟨_, _, hc⟩ := Option.bind_eq_some_iff.mp hc
    cases hc
    exact first x hx (by rw [e]) (by rw [e]; rfl) ho
  have bin : ∀ (bop : BOp) (op : ℝ → ℝ → ℝ) e, createBin im n bop op e = some made → n.operands = n.inputs →
      (∀ s ∈ n.operands, im.init? s = none → s ∈ made.2) ∧ (∀ s ∈ made.2, s ∈ n.inputs) ∧ isConstant made.1 = false := by
    intro bop op e hc ho
    unfold createBin at hc
    obtain ⟨x, hx, hc⟩ := Option.bind_eq_some_iff.mp hc
    obtain ⟨_, _, hc⟩ := Option.bind_eq_some_iff.mp hc
    obtain ⟨_, _, hc⟩ := Option.bind_eq_some_iff.mp hc
    obtain ⟨⟨c, names⟩, hf, hc⟩ := Option.bind_eq_some_iff.mp hc
    obtain ⟨_, _, hc⟩ := Option.bind_eq_some_iff.mp hc
    have hn := foldInit_names hf
    have e : made.2 = names ∧ isConstant made.1 = false := by
      split at hc
      · obtain ⟨_, _, hc⟩ := Option.bind_eq_some_iff.mp hc
        cases hc; exact ⟨rfl, rfl⟩
      · cases hc; exact ⟨rfl, rfl⟩
    rw [e.1, hn, ho]
    refine ⟨fun s hm hi => ?_, fun s hm => ?_, e.2⟩
    · simp [hm, hi]
    · simp at hm; exact hm.1
  have hops : ∀ {o}, n.op = o → n.operands = match o with
      | .Add | .Sub | .Mul | .Div | .Max | .Min | .MatMul | .Concat => n.inputs
      | _ => n.inputs.take 1 := by rintro _ rfl; rfl
  unfold create at h
  cases hop : n.op <;> rw [hop] at hs <;> simp only [hop] at h <;> have hops' := hops hop <;> simp only at hops'
  all_goals try contradiction
  case Softmax =>
    unfold createSoftmax at h
    obtain ⟨_, _, h⟩ := Option.bind_eq_some_iff.mp h
    obtain ⟨_, _, h⟩ := Option.bind_eq_some_iff.mp h
    obtain ⟨_, _, h⟩ := Option.bind_eq_some_iff.mp h
    obtain ⟨_, _, h⟩ := Option.bind_eq_some_iff.mp h
    cases h; exact all rfl rfl
  case BatchNormalization =>
    unfold createBatchNorm at h
    obtain ⟨x, hx, h⟩ := Option.bind_eq_some_iff.mp h
    iterate 14 obtain ⟨_, _, h⟩ := Option.bind_eq_some_iff.mp h
    simp only [Option.ite_none_right_eq_some, Option.some.injEq] at h
    exact first x hx (by rw [← h.2]) (by rw [← h.2]; rfl) hops'
  case Conv =>
    unfold createConv at h
    obtain ⟨x, hx, h⟩ := Option.bind_eq_some_iff.mp h
    iterate 21 obtain ⟨_, _, h⟩ := Option.bind_eq_some_iff.mp h
    simp only [Option.ite_none_right_eq_some, Option.some.injEq] at h
    exact first x hx (by rw [← h.2]) (by rw [← h.2]; rfl) hops'
  case Pad =>
    unfold createPad at h
    obtain ⟨x, hx, h⟩ := Option.bind_eq_some_iff.mp h
    iterate 3 obtain ⟨_, _, h⟩ := Option.bind_eq_some_iff.mp h
    obtain ⟨⟨_, _⟩, _, h⟩ := Option.bind_eq_some_iff.mp h
    iterate 6 obtain ⟨_, _, h⟩ := Option.bind_eq_some_iff.mp h
    split at h
    · rcases pad_modes h with ⟨_, e⟩ | ⟨_, e⟩ | ⟨_, e⟩ | ⟨_, e⟩ <;> exact first x hx (by rw [← e]) (by rw [← e]; rfl) hops'
    · simp at h
  case Concat =>
    unfold createConcat at h
    iterate 4 obtain ⟨_, _, h⟩ := Option.bind_eq_some_iff.mp h
    cases h; exact all rfl rfl
  case Gather =>
    unfold createGather at h
    obtain ⟨x, hx, h⟩ := Option.bind_eq_some_iff.mp h
    iterate 3 obtain ⟨_, _, h⟩ := Option.bind_eq_some_iff.mp h
    obtain ⟨⟨_, _⟩, _, h⟩ := Option.bind_eq_some_iff.mp h
    iterate 2 obtain ⟨_, _, h⟩ := Option.bind_eq_some_iff.mp h
    cases h; exact first x hx rfl rfl hops'
  case GatherElements =>
    unfold createGatherElements at h
    obtain ⟨x, hx, h⟩ := Option.bind_eq_some_iff.mp h
    iterate 5 obtain ⟨_, _, h⟩ := Option.bind_eq_some_iff.mp h
    obtain ⟨⟨_, _⟩, _, h⟩ := Option.bind_eq_some_iff.mp h
    iterate 2 obtain ⟨_, _, h⟩ := Option.bind_eq_some_iff.mp h
    simp only [Option.ite_none_right_eq_some, Option.some.injEq] at h
    exact first x hx (by rw [← h.2]) (by rw [← h.2]; rfl) hops'
  case Gemm =>
    unfold createGemm at h
    obtain ⟨x, hx, h⟩ := Option.bind_eq_some_iff.mp h
    iterate 7 obtain ⟨_, _, h⟩ := Option.bind_eq_some_iff.mp h
    simp only [Option.ite_none_right_eq_some, Option.some.injEq] at h
    exact first x hx (by rw [← h.2]) (by rw [← h.2]; rfl) hops'
  case MatMul =>
    unfold createMatMul at h
    iterate 7 obtain ⟨_, _, h⟩ := Option.bind_eq_some_iff.mp h
    simp only [Option.ite_none_right_eq_some, Option.some.injEq] at h
    exact all (by rw [← h.2]) (by rw [← h.2]; rfl)
  case Transpose =>
    unfold createTranspose at h
    iterate 4 obtain ⟨_, _, h⟩ := Option.bind_eq_some_iff.mp h
    cases h; exact all rfl rfl
  case MaxPool =>
    unfold createMaxPool at h
    iterate 1 obtain ⟨_, _, h⟩ := Option.bind_eq_some_iff.mp h
    cases h; exact all rfl rfl
  case AveragePool =>
    unfold createAveragePool at h
    iterate 1 obtain ⟨_, _, h⟩ := Option.bind_eq_some_iff.mp h
    obtain ⟨x, hx, h⟩ := Option.bind_eq_some_iff.mp h
    cases h; exact first x hx rfl rfl hops'
  case GlobalAveragePool =>
    unfold createGlobalAveragePool at h
    iterate 5 obtain ⟨_, _, h⟩ := Option.bind_eq_some_iff.mp h
    cases h; exact all rfl rfl
  case Add =>
    unfold createAdd at h
    iterate 3 obtain ⟨_, _, h⟩ := Option.bind_eq_some_iff.mp h
    cases h; exact all rfl rfl
  case Max =>
    unfold createMinMax at h
    iterate 3 obtain ⟨_, _, h⟩ := Option.bind_eq_some_iff.mp h
    cases h; exact all rfl rfl
  case Min =>
    unfold createMinMax at h
    iterate 3 obtain ⟨_, _, h⟩ := Option.bind_eq_some_iff.mp h
    cases h; exact all rfl rfl
  case Mul => exact bin _ _ _ h hops'
  case Div => exact bin _ _ _ h hops'
  case Sub => exact bin _ _ _ h hops'
  all_goals exact act _ h rfl hops'

end Verif.Onnx

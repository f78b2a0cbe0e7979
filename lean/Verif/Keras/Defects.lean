import Verif.Keras.Examples

/-!
# C65, C66: models that the importer rejects or renders otherwise
-/

namespace Verif.Keras
open Net Layers Graph
open Onnx (prod indices mk ravel)
open scoped Classical

variable {m : Model}

/-- number of Reshape and Dropout layers -/
def skips (ls : List Layer) : Nat := ls.countP fun l => l.kind.skipped

/-- the number of layers made so far -/
theorem step_count {st st' : State} {pre : List Layer} {l : Layer} (h1 : m.start ≤ pre.length)
    (hc : st.layers.length + skips (pre.drop m.start) = pre.length + 1 - m.start + st.nb) (h : m.step st (pre.length, l) = some st') :
    st'.layers.length + skips ((pre ++ [l]).drop m.start) = (pre ++ [l]).length + 1 - m.start + st'.nb := by
  have hd : (pre ++ [l]).drop m.start = pre.drop m.start ++ [l] := List.drop_append_of_le_length h1
  rw [hd]
  unfold Model.step at h
  simp only at h
  split at h
  · rename_i hs
    cases h
    simp [skips, List.countP_append, hs] at hc ⊢
    omega
  · rename_i hs
    obtain ⟨op, _, h⟩ := Option.bind_eq_some_iff.mp h
    obtain ⟨prev, _, h⟩ := Option.bind_eq_some_iff.mp h
    have hz : skips (pre.drop m.start ++ [l]) = skips (pre.drop m.start) := by simp [skips, List.countP_append, hs]
    rw [hz]
    split at h
    · obtain ⟨sm, _, h⟩ := Option.bind_eq_some_iff.mp h
      cases h
      simp at hc ⊢
      omega
    · cases h
      simp at hc ⊢
      omega

/-- the loop stops at a layer that raises -/
theorem fold_split {pre post a : List Layer} {l : Layer} {st st' : State} (hpost : post = a ++ l :: []) (h1 : m.start ≤ pre.length)
    (hc : st.layers.length + skips (pre.drop m.start) = pre.length + 1 - m.start + st.nb)
    (h : ((post.zipIdx pre.length).map fun e => (e.2, e.1)).foldlM m.step st = some st') :
    ∃ s, s.layers.length + skips ((pre ++ a).drop m.start) = (pre ++ a).length + 1 - m.start + s.nb ∧
      m.step s ((pre ++ a).length, l) = some st' ∧ ((∀ k ∈ pre ++ a, k.kind.softmaxed = false) → st.nb = 0 → s.nb = 0) := by
  induction a generalizing pre post st with
  | nil =>
    subst hpost
    simp at h
    exact ⟨st, by simpa using hc, by simpa using h, fun _ h => h⟩
  | cons b a ih =>
    subst hpost
    rw [List.cons_append, List.zipIdx_cons, List.map_cons, List.foldlM_cons] at h
    obtain ⟨st1, hst1, h⟩ := Option.bind_eq_some_iff.mp h
    obtain ⟨s, g1, g2, g3⟩ := ih (pre := pre ++ [b]) rfl (by rw [List.length_append]; omega) (step_count h1 hc hst1) (by simpa using h)
    refine ⟨s, by simpa using g1, by simpa using g2, fun hns hnb => ?_⟩
    refine g3 (by simpa using hns) ?_
    have hb := hns b (by simp)
    unfold Model.step at hst1
    simp only at hst1
    split at hst1
    · cases hst1; exact hnb
    · obtain ⟨op, _, hst1⟩ := Option.bind_eq_some_iff.mp hst1
      obtain ⟨prev, _, hst1⟩ := Option.bind_eq_some_iff.mp hst1
      rw [hb] at hst1
      simp only [Bool.false_eq_true, if_false] at hst1
      cases hst1; exact hnb

/-- what the iteration on the layer after `a` starts from -/
theorem built_split {st : State} (h : m.built = some st) {a b : List Layer} {l : Layer} (hm : m.layers = a ++ l :: b) (hst : m.start ≤ a.length) :
    ∃ s s', s.layers.length + skips (a.drop m.start) = a.length + 1 - m.start + s.nb ∧ m.step s (a.length, l) = some s' ∧
      ((∀ k ∈ a, k.kind.softmaxed = false) → s.nb = 0) := by
  obtain ⟨l0, op0, hl0, hop, h⟩ := built_unfold h
  have hd : m.layers.drop m.start = (a.drop m.start ++ [l]) ++ b := by rw [hm, List.drop_append_of_le_length hst]; simp
  rw [hd, List.zipIdx_append, List.map_append, List.foldlM_append] at h
  obtain ⟨s', hs', _⟩ := Option.bind_eq_some_iff.mp h
  have htl : (a.take m.start).length = m.start := by simp [hst]
  obtain ⟨s, g1, g2, g3⟩ := fold_split (m := m) (pre := a.take m.start) (a := a.drop m.start) (l := l) (st := ⟨[(0, op0)], [], 0⟩) rfl (by omega)
    (by rw [List.drop_take, Nat.sub_self]; simp [skips, hst]) (by rw [htl]; exact hs')
  rw [List.take_append_drop] at g1 g2 g3
  exact ⟨s, s', g1, g2, fun h => g3 h rfl⟩

/-- **C65** A Sequential model in which a Reshape or Dropout layer comes before a layer of another class is rejected. -/
theorem C65_sequential_skipped_raises (hsq : m.sequential = true) {a b : List Layer} {l k : Layer} (hm : m.layers = a ++ l :: b) (hl : l.kind.skipped = false)
    (hk : k ∈ a) (hks : k.kind.skipped = true) : importNet m = none := by
  cases hb : m.built with
  | none => simp [importNet, hb]
  | some st =>
    exfalso
    have hki : k.kind.isInput = false := by cases hkk : k.kind <;> rw [hkk] at hks <;> simp [Kind.skipped] at hks <;> rfl
    obtain ⟨a0, a', ha⟩ : ∃ a0 a', a = a0 :: a' := by cases a with | nil => simp at hk | cons a0 a' => exact ⟨a0, a', rfl⟩
    have hcase := start_cases (m := m) (l0 := a0) (by rw [hm, ha]; rfl)
    have hst : m.start ≤ a.length := by rcases hcase with ⟨_, e⟩ | ⟨_, e⟩ <;> rw [e, ha] <;> simp
    obtain ⟨s, s', hc, hstep, _⟩ := built_split hb hm hst
    have hsk : 0 < skips (a.drop m.start) := by
      unfold skips
      rw [List.countP_pos_iff]
      refine ⟨k, ?_, hks⟩
      rcases hcase with ⟨h0, e⟩ | ⟨_, e⟩ <;> rw [e]
      · rw [ha] at hk ⊢
        rcases List.mem_cons.mp hk with rfl | hk
        · rw [hki] at h0; simp at h0
        · simpa using hk
      · simpa using hk
    unfold Model.step at hstep
    simp only [hl, Bool.false_eq_true, if_false] at hstep
    obtain ⟨op, _, hstep⟩ := Option.bind_eq_some_iff.mp hstep
    obtain ⟨prev, hp, _⟩ := Option.bind_eq_some_iff.mp hstep
    unfold Model.producers at hp
    rw [hsq] at hp
    simp only [if_true] at hp
    rw [if_pos (by omega)] at hp
    simp only [List.mapM_cons, List.mapM_nil] at hp
    obtain ⟨_, hp, _⟩ := Option.bind_eq_some_iff.mp hp
    obtain ⟨e, he, _⟩ := Option.map_eq_some_iff.mp hp
    have := (List.getElem?_eq_some_iff.mp he).1
    omega

/-- **C65** A functional model in which a layer reads the one listed just before it is rejected if a Reshape or Dropout layer is listed before it (and no
softmax activation is). -/
theorem C65_functional_skipped_raises (hsq : m.sequential = false) (hst1 : m.start = 1) (hnames : (m.layers.map Layer.name).Nodup) {a b : List Layer} {p l k : Layer}
    (hm : m.layers = a ++ p :: l :: b) (hl : l.kind.skipped = false) (hr : p.name ∈ l.inputs) (hk : k ∈ a ++ [p]) (hks : k.kind.skipped = true)
    (hns : ∀ k ∈ a ++ [p], k.kind.softmaxed = false) : importNet m = none := by
  cases hb : m.built with
  | none => simp [importNet, hb]
  | some st =>
    exfalso
    have hm' : m.layers = (a ++ [p]) ++ l :: b := by rw [hm]; simp
    have hst : m.start ≤ (a ++ [p]).length := by rw [hst1]; simp
    obtain ⟨s, s', hc, hstep, hnb⟩ := built_split hb hm' hst
    have hnb := hnb hns
    have hsk : 0 < skips ((a ++ [p]).drop m.start) := by
      unfold skips
      rw [List.countP_pos_iff]
      refine ⟨k, ?_, hks⟩
      rw [hst1]
      have hki : k.kind.isInput = false := by cases hkk : k.kind <;> rw [hkk] at hks <;> simp [Kind.skipped] at hks <;> rfl
      cases hap : a ++ [p] with
      | nil => simp at hap
      | cons a0 a' =>
        have hcase := start_cases (m := m) (l0 := a0) (by rw [hm', hap]; rfl)
        rw [hap] at hk
        rcases List.mem_cons.mp hk with rfl | hk
        · rcases hcase with ⟨h0, _⟩ | ⟨_, e⟩
          · rw [hki] at h0; simp at h0
          · omega
        · simpa using hk
    have hfi : (m.layers.findIdx? fun k => decide (k.name = p.name)) = some a.length := by
      rw [List.findIdx?_eq_some_iff_getElem]
      have hpl : a.length < m.layers.length := by rw [hm]; simp
      have hpe : m.layers[a.length] = p := by simp [hm]
      refine ⟨hpl, by simp [hpe], fun j hj hcn => ?_⟩
      simp only [decide_eq_true_eq] at hcn
      rw [List.nodup_iff_getElem?_ne_getElem?] at hnames
      refine hnames j a.length hj (by simpa using hpl) ?_
      rw [List.getElem?_map, List.getElem?_map, List.getElem?_eq_getElem hpl, List.getElem?_eq_getElem (show j < m.layers.length by omega)]
      simpa [hpe] using hcn
    unfold Model.step at hstep
    simp only [hl, Bool.false_eq_true, if_false] at hstep
    obtain ⟨op, _, hstep⟩ := Option.bind_eq_some_iff.mp hstep
    obtain ⟨prev, hp, _⟩ := Option.bind_eq_some_iff.mp hstep
    have hin : a.length ∈ m.producers ((a ++ [p]).length + 1 - m.start + s.nb) l := by
      unfold Model.producers
      rw [hsq]
      simp only [Bool.false_eq_true, if_false, List.mem_filterMap]
      exact ⟨p.name, hr, hfi⟩
    have hall : ∀ (ps : List Nat) prev, (ps.mapM fun p => (s.layers[p]?).map Prod.fst) = some prev → ∀ q ∈ ps, q < s.layers.length := by
      intro ps
      induction ps with
      | nil => simp
      | cons q ps ih =>
        intro prev h q' hq'
        rw [List.mapM_cons] at h
        obtain ⟨_, h1, h⟩ := Option.bind_eq_some_iff.mp h
        obtain ⟨_, h2, _⟩ := Option.bind_eq_some_iff.mp h
        rcases List.mem_cons.mp hq' with rfl | hq'
        · obtain ⟨e, he, _⟩ := Option.map_eq_some_iff.mp h1
          exact (List.getElem?_eq_some_iff.mp he).1
        · exact ih _ h2 q' hq'
    have := hall _ _ hp _ hin
    simp only [List.length_append, List.length_cons, List.length_nil] at hc
    omega

/-! ## Layers that are rejected -/

/-- **C66** Dense and Conv2D layers with `use_bias=False` are rejected. -/
theorem C66_no_bias_raises {l : Layer} {w : Nd ℝ} (h : (∃ a, l.kind = .dense [w] a) ∨ ∃ f k s d p g a, l.kind = .conv2D [w] f k s d p g a) : create l = none := by
  unfold create
  rcases h with ⟨a, h⟩ | ⟨f, k, s, d, p, g, a, h⟩ <;> rw [h]
  · simp [createDense]
  · simp [createConv]

/-- **C66** BatchNormalization layers with `scale=False` or `center=False` are rejected. -/
theorem C66_partial_bn_raises {l : Layer} {axis : Int} {eps : ℝ} {scale center : Bool} {ws : List (Nd ℝ)} (h : l.kind = .batchNormalization axis eps scale center ws)
    (hw : ws.length = 2 + scale.toNat + center.toNat) (hsc : scale = false ∨ center = false) : create l = none := by
  have : ws[3]? = none := by
    rw [List.getElem?_eq_none_iff]
    rcases hsc with rfl | rfl <;> simp at hw
    · cases center <;> simp at hw <;> omega
    · cases scale <;> simp at hw <;> omega
  unfold create
  rw [h]
  simp only [createBatchNorm, this]
  cases l.inShapes.head? <;> simp

/-- **C66** Concatenate layers with the default axis, -1, are rejected. -/
theorem C66_concat_default_raises {l : Layer} (h : l.kind = .concatenate (-1)) : create l = none := by
  unfold create
  rw [h]
  simp only [createConcat]
  cases l.inShapes.mapM shape4 <;> simp
  cases shape4 l.outShape <;> simp [Onnx.npAxis]

/-- **C66** The axis of BatchNormalization is not read: whatever it is, the last one is normalised. -/
theorem C66_bn_axis_ignored (n : String) (inp : List String) (ins : List (List Nat)) (out : List Nat) (a b : Int) (eps : ℝ) (scale center : Bool) (ws : List (Nd ℝ)) :
    create ⟨n, .batchNormalization a eps scale center ws, inp, ins, out⟩ = create ⟨n, .batchNormalization b eps scale center ws, inp, ins, out⟩ := rfl

/-- **C66** `groups` of Conv2D is not read. -/
theorem C66_groups_ignored (n : String) (inp : List String) (ins : List (List Nat)) (out : List Nat) (ws : List (Nd ℝ)) (f : Nat) (k s d : Nat × Nat) (p : Padding) (g g' : Nat) (a : Activation) :
    create ⟨n, .conv2D ws f k s d p g a, inp, ins, out⟩ = create ⟨n, .conv2D ws f k s d p g' a, inp, ins, out⟩ := rfl

/-- **C66** Only the first of the two strides and the first of the two dilations of Conv2D are read. -/
theorem C66_second_stride_ignored (n : String) (inp : List String) (ins : List (List Nat)) (out : List Nat) (ws : List (Nd ℝ)) (f : Nat) (k : Nat × Nat) (s d t t' e e' : Nat) (p : Padding) (g : Nat) (a : Activation) :
    create ⟨n, .conv2D ws f k (s, t) (d, e) p g a, inp, ins, out⟩ = create ⟨n, .conv2D ws f k (s, t') (d, e') p g a, inp, ins, out⟩ := rfl

/-! ## A softmax activation inside a functional model -/

/-- two Dense layers, the first with softmax; the kernels are the identity -/
noncomputable def smModel : Model where
  sequential := false
  inputShape := [2]
  output := "b"
  layers := [⟨"x", .inputLayer, [], [], [2]⟩,
    ⟨"a", .dense [⟨[2, 2], [1, 0, 0, 1]⟩, ⟨[2], [0, 0]⟩] .softmax, ["x"], [[2]], [2]⟩,
    ⟨"b", .dense [⟨[2, 2], [1, 0, 0, 1]⟩, ⟨[2], [0, 0]⟩] .linear, ["a"], [[2]], [2]⟩]

/-- **C65** In a functional model a layer that reads a layer with a softmax activation reads its value before the softmax: the model above is imported without
error, with the softmax as a layer whose value nobody reads. -/
theorem C65_softmax_bypassed : ∃ net, importNet smModel = some net ∧ net.graph.prevOf 2 = [1] ∧ net.op 2 = .softmax ⟨1, 1, 2⟩ none id ∧
    net.graph.prevOf 3 = [1] ∧ net.graph.nextOf 2 = [] := by
  let W : Nat → Nat → ℝ := fun i j => (⟨[2, 2], [1, 0, 0, 1]⟩ : Nd ℝ).get [i, j]
  let B : Nat → ℝ := fun j => (⟨[2], [0, 0]⟩ : Nd ℝ).get [j]
  let st : State := ⟨[(0, .input false ⟨1, 1, 2⟩), (1, .dense 2 2 W B id), (2, .softmax ⟨1, 1, 2⟩ none id), (3, .dense 2 2 W B id)], [(0, 1), (1, 2), (1, 3)], 1⟩
  have hb : importNet smModel = some st.net := by
    simp [importNet, Model.built, Model.init, smModel, Kind.isInput, inputOp, Model.rest, Model.start, Model.step, Kind.skipped, create, prod,
      Model.producers, Kind.softmaxed, Kind.activation?, createDense, actFn, softmaxOp, List.findIdx?_cons, st, W, B]
  have hg : st.Good := ⟨rfl, by simp [st]⟩
  refine ⟨st.net, hb, ?_, net_op hg rfl, ?_, ?_⟩
  · show st.graph.prevOf 2 = _
    rw [graph_prev hg (by simp [st])]; rfl
  · show st.graph.prevOf 3 = _
    rw [graph_prev hg (by simp [st])]; rfl
  · show st.graph.nextOf 2 = _
    rw [graph_next hg (by simp [st])]; rfl

end Verif.Keras

import Verif.Export.Local
import Verif.Torch.Fuse

/-!
# An exported node against the layer it is exported from: the other layers
-/

namespace Verif.Export
open Net Layers Graph
open Onnx (prod mk indices shapeOf cut Init OpType Attr)
open Torch (Gives map_one)
open scoped Classical

variable {M : CMath ℝ} {opset : Nat}

/-- as `NodeGives`, for a node that may end with omitted inputs -/
def NodeValue (opset : Nat) (L : XLayer) (ts : List (Nd ℝ)) (t : Nd ℝ) : Prop :=
  ∀ i (ins : List String), ins.length = ts.length → ∃ (op : OpType) (inits : List Init) (attrs : List (String × Attr)) (arrays : List (Nd ℝ)) (k : Nat),
    exportNode L i ins = some (some (⟨op, ins ++ inits.map Init.name ++ List.replicate k "", [L.dest i], attrs⟩, inits)) ∧
    List.Forall₂ (fun (a : Init) v => a.array = some v) inits arrays ∧
    (∃ ss : List String, inits.map Init.name = ss.map (fun s => L.tensor i s) ∧ ss.Nodup ∧
      ∀ s ∈ ss, s ∈ ["_weight", "_bias", "_constant", "_scale", "_biases", "_mean", "_var", "_pads"]) ∧
    Onnx.Spec.node opset ⟨op, ins ++ inits.map Init.name ++ List.replicate k "", [L.dest i], attrs⟩ ((ts ++ arrays).map some ++ List.replicate k none) = some t

theorem NodeGives.value {L : XLayer} {ts : List (Nd ℝ)} {t : Nd ℝ} (h : NodeGives opset L ts t) : NodeValue opset L ts t := by
  intro i ins hl
  obtain ⟨op, inits, attrs, arrays, h1, h2, ⟨ss, h3, h4, h5⟩, h6⟩ := h i ins hl
  refine ⟨op, inits, attrs, arrays, 0, by simpa using h1, h2, ⟨ss, h3, h4, fun s hs => ?_⟩, by simpa using h6⟩
  have := h5 s hs
  simp only [List.mem_cons, List.not_mem_nil, or_false] at this ⊢
  tauto

/-- The exported node of the layer has a value of dimensions `d` on `ts`, and it is that of the layer before its activation function if that is exported apart. -/
def Good (M : CMath ℝ) (opset : Nat) (L : XLayer) (ts : List (Nd ℝ)) (d : List Nat) : Prop :=
  ∃ t, NodeValue opset L ts t ∧ t.dims = d ∧ t.Ok ∧ Gives M L.full (ts.map Nd.data) (if L.fused then t.data.map L.act.compute else t.data)

theorem compute_linear : (Act.linear : Act ℝ).compute = id := rfl

/-- a layer that applies its activation function -/
theorem good_of' {L : XLayer} {ts : List (Nd ℝ)} {t : Nd ℝ} (hact : ∀ n f, L.op ≠ .activation n f) (h1 : NodeValue opset L ts t) (h2 : LayerGives M L.op ts t) :
    Good M opset L ts t.dims := by
  refine ⟨t, h1, rfl, h2.1, ?_⟩
  have := h2.2 L.act.compute
  obtain ⟨op, act⟩ := L
  simp only [XLayer.full] at this ⊢
  cases act with
  | linear =>
    rw [compute_linear, List.map_id] at this
    have hf : (⟨op, .linear⟩ : XLayer).fused = false := by cases op <;> rfl
    simpa [hf, compute_linear] using this
  | _ =>
    rw [if_pos]
    · exact this
    · cases op <;> first | rfl | exact absurd rfl (hact _ _)

theorem good_of {L : XLayer} {ts : List (Nd ℝ)} {t : Nd ℝ} (hact : ∀ n f, L.op ≠ .activation n f) (h1 : NodeGives opset L ts t) (h2 : LayerGives M L.op ts t) :
    Good M opset L ts t.dims := good_of' hact h1.value h2

/-- a layer without activation function -/
theorem good_linear {op : Op ℝ} {ts : List (Nd ℝ)} {d : List Nat} {t : Nd ℝ} (h1 : NodeGives opset ⟨op, .linear⟩ ts t) (h2 : t.dims = d) (h3 : t.Ok)
    (h4 : Gives M (setAct id op) (ts.map Nd.data) t.data) : Good M opset ⟨op, .linear⟩ ts d := by
  have hf : (⟨op, .linear⟩ : XLayer).fused = false := by cases op <;> rfl
  exact ⟨t, h1.value, h2, h3, by simpa [hf, XLayer.full, compute_linear] using h4⟩

/-! ## Flatten -/

theorem flatten_good (s : Shape) {x : Nd ℝ} (hok : x.Ok) : Good M opset ⟨.flatten s, .linear⟩ [x] [1, prod x.dims] := by
  refine good_linear (t := ⟨[1, prod x.dims], x.data⟩) ?_ rfl ?_ ?_
  · intro i ins hl
    obtain ⟨x0, rfl⟩ := List.length_eq_one_iff.mp hl
    refine ⟨.Flatten, [], _, [], rfl, .nil, ⟨[], rfl, by decide, by decide⟩, ?_⟩
    show Onnx.Spec.flatten _ x = _
    unfold Onnx.Spec.flatten
    rw [show (Onnx.Node.int? _ "axis").getD 1 = (0 : Int) from rfl]
    rcases Nat.eq_zero_or_pos x.dims.length with h | h
    · have : x.dims = [] := by simpa using h
      simp [this, Onnx.Spec.reshaped, prod]
    · have h1 : ¬ (0 : Int) = (x.dims.length : Int) := by omega
      simp [h1, Onnx.Spec.axis?, h, Onnx.Spec.reshaped, prod]
  · simpa [Nd.Ok, prod] using hok
  · intro zs hzs
    obtain ⟨z, rfl, hz⟩ := map_one hzs
    exact ⟨_, rfl, hz⟩

/-! ## Activation functions -/

/-- the nodes without attributes for the activation functions -/
theorem act_value {a : Act ℝ} (ha : a = .relu ∨ a = .tanh ∨ a = .sigmoid ∨ a = .exponential ∨ a = .logarithm) (n : Onnx.Node) (hn : n.op = actOp a) (x : Nd ℝ) :
    Onnx.Spec.node opset n [some x] = some ⟨x.dims, x.data.map a.compute⟩ := by
  rw [Onnx.compute_math a (by rcases ha with rfl | rfl | rfl | rfl | rfl <;> trivial)]
  rcases ha with rfl | rfl | rfl | rfl | rfl <;> simp only [Onnx.Spec.node, hn, actOp, Onnx.Spec.arg1, Onnx.Spec.unary]
  · congr 2; apply List.map_congr_left; intro v _; exact max_comm _ _
  · rfl
  · congr 2; apply List.map_congr_left; intro v _; simp [Act.math, Real.sigmoid]
  · rfl
  · rfl

theorem activation_good {a : Act ℝ} (ha : a = .relu ∨ a = .tanh ∨ a = .sigmoid ∨ a = .exponential ∨ a = .logarithm ∨ a = .leakyRelu 0.01) (n : Nat) (f0 : ℝ → ℝ) {x : Nd ℝ}
    (hok : x.Ok) : Good M opset ⟨.activation n f0, a⟩ [x] x.dims := by
  refine ⟨⟨x.dims, x.data.map a.compute⟩, NodeGives.value ?_, rfl, ?_, ?_⟩
  · intro i ins hl
    obtain ⟨x0, rfl⟩ := List.length_eq_one_iff.mp hl
    refine ⟨actOp a, [], [], [], ?_, .nil, ⟨[], rfl, by decide, by decide⟩, ?_⟩
    · rcases ha with rfl | rfl | rfl | rfl | rfl | rfl <;> rfl
    · by_cases hl : a = .leakyRelu 0.01
      · subst hl
        rfl
      · exact act_value (by tauto) _ rfl x
  · simpa [Nd.Ok] using hok
  · intro zs hzs
    obtain ⟨z, rfl, hz⟩ := map_one hzs
    refine ⟨_, rfl, ?_⟩
    show z.data.map a.compute = _
    rw [hz]
    rfl

/-- what the node of an activation function computes -/
theorem exportAct_good (L : XLayer) (i : Nat) (hacc : L.act.accepted) (h1 : L.act ≠ .silu) (h2 : L.act ≠ .linear) :
    ∃ (op : OpType) (inits : List Init) (attrs : List (String × Attr)) (arrays : List (Nd ℝ)),
    exportAct L i = some (⟨op, L.tensor i "_pre_activation" :: inits.map Init.name, [L.tensor i], attrs⟩, inits) ∧
    List.Forall₂ (fun (a : Init) v => a.array = some v) inits arrays ∧
    (∃ ss : List String, inits.map Init.name = ss.map (fun s => L.tensor i s) ∧ ss.Nodup ∧ ∀ s ∈ ss, s ∈ ["_clip_min", "_clip_max"]) ∧
    ∀ t : Nd ℝ, Onnx.Spec.node opset ⟨op, L.tensor i "_pre_activation" :: inits.map Init.name, [L.tensor i], attrs⟩ ((t :: arrays).map some) =
      some ⟨t.dims, t.data.map L.act.compute⟩ := by
  obtain ⟨o, a⟩ := L
  simp only at hacc h1 h2
  cases a with
  | silu => exact absurd rfl h1
  | linear => exact absurd rfl h2
  | leakyRelu k =>
    refine ⟨_, [], _, [], rfl, .nil, ⟨[], rfl, by decide, by decide⟩, fun t => ?_⟩
    rfl
  | clip hi lo =>
    refine ⟨_, _, _, _, rfl, .cons (floats_array _ _ _ (by simp [prod])) (.cons (floats_array _ _ _ (by simp [prod])) .nil), ⟨["_clip_min", "_clip_max"], rfl, by decide, by decide⟩, fun t => ?_⟩
    rfl
  | relu => exact ⟨_, [], _, [], rfl, .nil, ⟨[], rfl, by decide, by decide⟩, fun t => act_value (by tauto) _ rfl t⟩
  | tanh => exact ⟨_, [], _, [], rfl, .nil, ⟨[], rfl, by decide, by decide⟩, fun t => act_value (by tauto) _ rfl t⟩
  | sigmoid => exact ⟨_, [], _, [], rfl, .nil, ⟨[], rfl, by decide, by decide⟩, fun t => act_value (by tauto) _ rfl t⟩
  | exponential => exact ⟨_, [], _, [], rfl, .nil, ⟨[], rfl, by decide, by decide⟩, fun t => act_value (by tauto) _ rfl t⟩
  | logarithm => exact ⟨_, [], _, [], rfl, .nil, ⟨[], rfl, by decide, by decide⟩, fun t => act_value (by tauto) _ rfl t⟩

/-! ## Batch normalisation -/

theorem batchNorm_good (hM : M.sqrt = Real.sqrt) (s : Shape) (eps : ℝ) (scale mean var bias : Nat → ℝ) (f0 : ℝ → ℝ) (a : Act ℝ) {x : Nd ℝ}
    (hx : x.dims = [1, s.C, s.H, s.W]) (hok : x.Ok) : Good M opset ⟨.batchNorm s eps scale mean var bias f0, a⟩ [x] [1, s.C, s.H, s.W] := by
  rw [← hx]
  refine good_of (t := mk x.dims fun ix => (x.get ix - mean (ix.getD 1 0)) / Real.sqrt (var (ix.getD 1 0) + eps) * scale (ix.getD 1 0) + bias (ix.getD 1 0))
    (by simp) ?_ ⟨Onnx.mk_ok _ _, ?_⟩
  · intro i ins hl
    obtain ⟨x0, rfl⟩ := List.length_eq_one_iff.mp hl
    refine ⟨.BatchNormalization, _, _, _, rfl, .cons (floats_array _ _ _ (by simp [prod])) (.cons (floats_array _ _ _ (by simp [prod]))
      (.cons (floats_array _ _ _ (by simp [prod])) (.cons (floats_array _ _ _ (by simp [prod])) .nil))),
      ⟨["_scale", "_biases", "_mean", "_var"], rfl, by decide, by decide⟩, ?_⟩
    show Onnx.Spec.batchNorm _ x _ _ _ _ = some _
    unfold Onnx.Spec.batchNorm
    rw [hx]
    simp only
    rw [if_pos ⟨trivial, trivial, trivial, trivial, rfl⟩]
    congr 1
    apply Keras.mk_congr
    intro ix hix
    obtain ⟨k, u, v, rfl, hk, hu, hv⟩ := Onnx.mem_four hix
    simp only [List.getD_cons_succ, List.getD_cons_zero, get_tensor _ _ hk]
    rfl
  · intro f zs hzs
    obtain ⟨z, rfl, hz⟩ := map_one hzs
    refine ⟨_, by simp only [setAct, Op.forward, Onnx.reshape3_ok (s := s) hz hok (by rw [hx]; rfl), Option.bind_eq_bind, Option.bind_some]; rfl, ?_⟩
    show tensor3 _ _ _ _ = ((indices x.dims).map _).map f
    rw [Onnx.indices_cut (s := s) (by rw [hx]; rfl), Torch.tensor3_map]
    apply tensor3_congr
    intro c p q hf hp hq
    rw [Onnx.get_cut x (s := s) (by rw [hx]; rfl) hf hp hq]
    simp only [hx, batchNormForward, hM, cut, List.length_cons, List.length_nil, List.drop_zero, Nat.sub_self, List.getD_cons_succ, List.getD_cons_zero]

/-! ## Softmax -/

theorem softmax_data {x : Nd ℝ} {s : Shape} (hs : shapeOf x.dims = some s) (hne : x.dims ≠ []) :
    (mk x.dims fun ix => Real.exp (x.get ix) / ∑ k ∈ Finset.range (x.dims.getD (x.dims.length - 1) 0), Real.exp (x.get (ix.set (x.dims.length - 1) k))).data =
      tensor3 s.C s.H s.W (softmaxForward3 Real.exp s.C s.H s.W .w (arrOf s x.data).v) := by
  have his : Onnx.AxisIs x.dims (x.dims.length - 1) .w := by
    have h4 := Onnx.shapeOf_length hs
    have h0 : 0 < x.dims.length := List.length_pos_of_ne_nil hne
    exact ⟨by omega, by simp only; omega⟩
  simp only [mk, Onnx.indices_cut hs]
  apply tensor3_congr
  intro f i j hf hi hj
  have c0 := Onnx.axis_cut hs his f i j
  rw [Onnx.get_cut x hs hf hi hj, softmaxForward3, (c0 0).1]
  congr 1
  simp only [sumAxis, Shape.dim]
  apply Finset.sum_congr rfl
  intro v hv
  rw [Finset.mem_range] at hv
  rw [(c0 v).2.1, Onnx.get_cut x hs hf hi hv]

theorem softmax_node (hv : 13 ≤ opset) (s : Shape) (ax : Option Layers.Axis) (f0 : ℝ → ℝ) {x : Nd ℝ} (hne : x.dims ≠ []) :
    NodeGives opset ⟨.softmax s ax f0, .linear⟩ [x]
      (mk x.dims fun ix => Real.exp (x.get ix) / ∑ k ∈ Finset.range (x.dims.getD (x.dims.length - 1) 0), Real.exp (x.get (ix.set (x.dims.length - 1) k))) := by
  intro i ins hl
  obtain ⟨x0, rfl⟩ := List.length_eq_one_iff.mp hl
  refine ⟨.Softmax, [], _, [], rfl, .nil, ⟨[], rfl, by decide, by decide⟩, ?_⟩
  have h0 : 0 < x.dims.length := List.length_pos_of_ne_nil hne
  have hax : Onnx.Spec.axis? x.dims.length (-1) = some (x.dims.length - 1) := by
    unfold Onnx.Spec.axis?
    rw [if_neg (by omega), if_pos (by omega)]
    congr 1; omega
  show Onnx.Spec.arg1 [some x] (if 13 ≤ opset then _ else _) = _
  rw [if_pos hv]
  show Onnx.Spec.softmax13 _ x = _
  unfold Onnx.Spec.softmax13
  rw [show (Onnx.Node.int? _ "axis").getD (-1) = (-1 : Int) from rfl, hax]
  rfl

/-- along the last axis -/
theorem softmax_good (hM : M.exp = Real.exp) (hv : 13 ≤ opset) (s : Shape) (f0 : ℝ → ℝ) {x : Nd ℝ} (hs : shapeOf x.dims = some s) (hne : x.dims ≠ []) (hok : x.Ok)
    (hone : softmaxOneDim s.size s.C s.H s.W = false) : Good M opset ⟨.softmax s (some .w) f0, .linear⟩ [x] x.dims := by
  refine good_linear (softmax_node hv s _ f0 hne) rfl (Onnx.mk_ok _ _) ?_
  intro zs hzs
  obtain ⟨z, rfl, hz⟩ := map_one hzs
  refine ⟨_, by simp only [setAct, Op.forward, hone, Bool.false_eq_true, if_false, Onnx.reshape3_ok hz hok hs, Option.bind_eq_bind, Option.bind_some]; rfl, ?_⟩
  rw [softmax_data hs hne, hM]

/-- in one dimension -/
theorem softmax_row_good (hM : M.exp = Real.exp) (hv : 13 ≤ opset) (s : Shape) (ax : Option Layers.Axis) (f0 : ℝ → ℝ) {x : Nd ℝ} (hx : x.dims = [1, s.size]) (hok : x.Ok)
    (hone : softmaxOneDim s.size s.C s.H s.W = true) : Good M opset ⟨.softmax s ax f0, .linear⟩ [x] [1, s.size] := by
  have hne : x.dims ≠ [] := by simp [hx]
  rw [← hx]
  refine good_linear (softmax_node hv s _ f0 hne) rfl (Onnx.mk_ok _ _) ?_
  intro zs hzs
  obtain ⟨z, rfl, hz⟩ := map_one hzs
  refine ⟨_, by simp only [setAct, Op.forward, hone, if_true]; rfl, ?_⟩
  show tensor _ _ = _
  rw [softmax_data (s := ⟨1, 1, s.size⟩) (by rw [hx]; rfl) hne, hM]
  have hl : z.data.length = s.size := by rw [hz, hok, hx]; simp [prod]
  rw [hl, hz]
  simp [tensor, tensor3, softmaxForward1, softmaxForward3, sumAxis, arrOf, at3]

/-! ## Transpose -/

theorem transpose_good (s : Shape) (p : Perm3) (f0 : ℝ → ℝ) {x : Nd ℝ} (hx : x.dims = [1, s.C, s.H, s.W]) (hok : x.Ok) :
    Good M opset ⟨.transpose s p f0, .linear⟩ [x] [1, (transposeShape p s).C, (transposeShape p s).H, (transposeShape p s).W] := by
  have hs : shapeOf x.dims = some s := by rw [hx]; rfl
  have r4 : List.range 4 = [0, 1, 2, 3] := rfl
  refine good_linear (t := mk [1, (transposeShape p s).C, (transposeShape p s).H, (transposeShape p s).W] fun ix =>
    x.get ((List.range 4).map fun d => ix.getD (([0, axisInt (p.axis .c), axisInt (p.axis .h), axisInt (p.axis .w)].map Int.toNat).idxOf d) 0)) ?_ rfl (Onnx.mk_ok _ _) ?_
  · intro i ins hl
    obtain ⟨x0, rfl⟩ := List.length_eq_one_iff.mp hl
    refine ⟨.Transpose, [], _, [], rfl, .nil, ⟨[], rfl, by decide, by decide⟩, ?_⟩
    show Onnx.Spec.transpose _ x = some _
    unfold Onnx.Spec.transpose
    rw [show Onnx.Node.ints? _ "perm" = some [0, axisInt (p.axis .c), axisInt (p.axis .h), axisInt (p.axis .w)] from rfl]
    simp only [Option.map_some, Option.getD_some, hx, List.length_cons, List.length_nil, show 0 + 1 + 1 + 1 + 1 = 4 from rfl]
    have hp : ([0, axisInt (p.axis .c), axisInt (p.axis .h), axisInt (p.axis .w)].map Int.toNat).Perm (List.range 4) := by cases p <;> decide
    rw [if_pos hp]
    cases p <;> rfl
  · intro zs hzs
    obtain ⟨z, rfl, hz⟩ := map_one hzs
    refine ⟨_, by simp only [setAct, Op.forward, Onnx.reshape3_ok hz hok hs, Option.bind_eq_bind, Option.bind_some]; rfl, ?_⟩
    have hg : ∀ {c i j}, c < s.C → i < s.H → j < s.W → x.get [0, c, i, j] = (arrOf s x.data).v c i j := by
      intro c i j h1 h2 h3
      have := Onnx.get_cut x hs h1 h2 h3
      rw [hx] at this
      exact this
    show tensor3 _ _ _ _ = (indices _).map _
    rw [Onnx.indices_four]
    apply tensor3_congr
    intro f i j hf hi hj
    cases p <;> simp only [transposeShape, Perm3.axis] at hf hi hj <;> simp [Perm3.axis, axisInt, r4, List.idxOf_cons] <;>
      exact (hg (by assumption) (by assumption) (by assumption)).symm

end Verif.Export

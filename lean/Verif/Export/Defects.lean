import Verif.Export.Main

/-!
# C70: layers that are exported otherwise than they compute
-/

namespace Verif.Export
open Net Layers Graph
open Onnx (prod mk ravel Init OpType Attr)
open scoped Classical

/-! ## Exports that raise -/

/-- **C70** Every other format is rejected. -/
theorem C70_unknown_format {format : String} (h : format ≠ "onnx") (net : XNet) (opset : Nat) (order : List Nat) : exporter format net opset order = none := by
  unfold exporter
  exact if_neg h

theorem mapM_none {A B : Type} {f : A → Option B} {l : List A} {a : A} (ha : a ∈ l) (hf : f a = none) : l.mapM f = none := by
  induction l with
  | nil => simp at ha
  | cons b l ih =>
    rw [List.mapM_cons]
    rcases List.mem_cons.mp ha with rfl | ha
    · rw [hf]; rfl
    · rw [ih ha]; cases f b <;> rfl

theorem export_layer_raises {net : XNet} {opset : Nat} {order : List Nat} {n : Nat} (hn : n ∈ order) (h : exportLayer (net.layer n) n (net.ins n) = none) :
    net.export opset order = none := by
  unfold XNet.export
  rw [mapM_none (f := fun i => exportLayer (net.layer i) i (net.ins i)) hn h]
  cases (order.filter fun i => net.graph.prevOf i = []).mapM fun i => exportInput (net.layer i) i <;> rfl

/-- **C70** A network with a MatMul layer cannot be exported. -/
theorem C70_matmul_raises {net : XNet} {opset : Nat} {order : List Nat} {n : Nat} (hn : n ∈ order) (C C' H Kd W : Nat) (f : ℝ → ℝ)
    (h : (net.layer n).op = .matmul C C' H Kd W f) : exporter "onnx" net opset order = none := by
  unfold exporter
  rw [if_pos rfl]
  refine export_layer_raises hn ?_
  have : exportNode (net.layer n) n (net.ins n) = none := by
    unfold exportNode
    rw [h]
  unfold exportLayer
  rw [this]
  rfl

/-- **C70** A network with a Constant layer cannot be exported. -/
theorem C70_constant_raises {net : XNet} {opset : Nat} {order : List Nat} {n : Nat} (hn : n ∈ order) (v : Nd ℝ) (h : (net.layer n).op = .constant v)
    (hp : net.graph.prevOf n = []) : exporter "onnx" net opset order = none := by
  have : exportInput (net.layer n) n = none := by
    unfold exportInput
    rw [h]
  unfold exporter XNet.export
  rw [if_pos rfl, mapM_none (f := fun i => exportInput (net.layer i) i) (a := n) (List.mem_filter.mpr ⟨hn, by simp [hp]⟩) this]
  rfl

/-! ## Nodes that are not ONNX operators -/

/-- **C70** A Dense layer is exported to a node that is not an ONNX operator. -/
theorem C70_dense_not_onnx (p n : Nat) (w : Nat → Nat → ℝ) (b : Nat → ℝ) (f : ℝ → ℝ) (a : Act ℝ) (i : Nat) (ins : List String) (opset : Nat) (args : List (Option (Nd ℝ))) :
    ∃ q, exportNode ⟨.dense p n w b f, a⟩ i ins = some (some q) ∧ q.1.op = .other "Dense" ∧ Onnx.Spec.node opset q.1 args = none := ⟨_, rfl, rfl, rfl⟩

/-- **C70** So is a SiLU function, as a layer … -/
theorem C70_silu_not_onnx (n : Nat) (f : ℝ → ℝ) (i : Nat) (ins : List String) (opset : Nat) (args : List (Option (Nd ℝ))) :
    ∃ q, exportNode ⟨.activation n f, .silu⟩ i ins = some (some q) ∧ q.1.op = .other "Silu" ∧ Onnx.Spec.node opset q.1 args = none := ⟨_, rfl, rfl, rfl⟩

/-- **C70** … and as the function of a layer … -/
theorem C70_fused_silu_not_onnx (op : Op ℝ) (i : Nat) (opset : Nat) (args : List (Option (Nd ℝ))) :
    ∃ q, exportAct ⟨op, .silu⟩ i = some q ∧ q.1.op = .other "Silu" ∧ Onnx.Spec.node opset q.1 args = none := ⟨_, rfl, rfl, rfl⟩

/-- **C70** … and an Average layer. -/
theorem C70_average_not_onnx (o : Shape) (ss : List Shape) (k : Option (Arr ℝ)) (f : ℝ → ℝ) (a : Act ℝ) (i : Nat) (ins : List String) (opset : Nat)
    (args : List (Option (Nd ℝ))) : ∃ q, exportNode ⟨.broadcast .avg o ss k f, a⟩ i ins = some (some q) ∧ q.1.op = .other "Ave" ∧ Onnx.Spec.node opset q.1 args = none :=
  ⟨_, rfl, rfl, rfl⟩

/-- **C70** An addition of three tensors is exported to an Add node with three inputs, which ONNX does not define. -/
theorem C70_add_three (o s1 s2 s3 : Shape) (f : ℝ → ℝ) (a : Act ℝ) (i : Nat) (u v w : String) (opset : Nat) (x y z : Nd ℝ) :
    ∃ q, exportNode ⟨.broadcast .add o [s1, s2, s3] none f, a⟩ i [u, v, w] = some (some q) ∧ q.1.inputs = [u, v, w] ∧
      Onnx.Spec.node opset q.1 [some x, some y, some z] = none := ⟨_, rfl, rfl, rfl⟩

/-! ## Layers that are dropped, and parameters that are not written -/

/-- **C70** No node is exported for an ActivationLayer with the function Linear: the name of its tensor, which its consumers read, is not defined by the model. -/
theorem C70_linear_layer_dropped (n : Nat) (f : ℝ → ℝ) (i : Nat) (ins : List String) : exportLayer ⟨.activation n f, .linear⟩ i ins = some [] := rfl

/-- **C70** … so the exported model of input, linear activation, ReLU activation has no value. -/
theorem C70_linear_layer_undefined (n : Nat) (opset : Nat) (x : Nd ℝ) :
    ∃ m, (XNet.export ⟨[⟨0, [], [1], false⟩, ⟨1, [0], [2], false⟩, ⟨2, [1], [], false⟩],
        fun | 0 => ⟨.input true ⟨1, 1, n⟩, .linear⟩ | 1 => ⟨.activation n id, .linear⟩ | _ => ⟨.activation n id, .relu⟩, .first⟩ opset [0, 1, 2]) = some m ∧
      Onnx.Spec.eval m "Input_layer_0" x = none := by
  refine ⟨_, rfl, ?_⟩
  have e : ("Linear_1" : String) ≠ "" := by decide
  have e' : ("Linear_1" : String) ≠ "Input_layer_0" := by decide
  have h : ∀ E : Onnx.Spec.Env, E "Linear_1" = none → Onnx.Spec.step opset E ⟨.Relu, ["Linear_1"], ["Relu_2"], []⟩ = none := by
    intro E hE
    have : Onnx.Spec.args E ⟨.Relu, ["Linear_1"], ["Relu_2"], []⟩ = none := by
      simp [Onnx.Spec.args, hE]
    unfold Onnx.Spec.step
    rw [this]
    rfl
  have hE : ∀ (m : Onnx.Model), m.inits = [] → Onnx.Spec.env0 m "Input_layer_0" x "Linear_1" = none := by
    intro m hm
    unfold Onnx.Spec.env0
    rw [if_neg e', hm]
    rfl
  have hm : ∀ (m : Onnx.Model), m.inits = [] → m.opset = opset → m.nodes = [⟨.Relu, ["Linear_1"], ["Relu_2"], []⟩] → Onnx.Spec.eval m "Input_layer_0" x = none := by
    intro m h1 h2 h3
    unfold Onnx.Spec.eval
    rw [h2, h3, List.foldlM_cons, h _ (hE m h1)]
    rfl
  exact hm _ rfl rfl rfl

/-- **C70** The slope of a LeakyReLU layer is not written. -/
theorem C70_slope_dropped (n : Nat) (f : ℝ → ℝ) (a b : ℝ) (i : Nat) (ins : List String) :
    exportNode ⟨.activation n f, .leakyRelu a⟩ i ins = exportNode ⟨.activation n f, .leakyRelu b⟩ i ins := rfl

/-- **C70** Nor are the bounds of a Clip layer: the exported node is the identity. -/
theorem C70_clip_bounds_dropped (n : Nat) (f : ℝ → ℝ) (hi lo : ℝ) (i : Nat) (ins : List String) (opset : Nat) (x : Nd ℝ) :
    ∃ q, exportNode ⟨.activation n f, .clip hi lo⟩ i ins = some (some q) ∧ Onnx.Spec.node opset q.1 [some x] = some x := by
  refine ⟨_, rfl, ?_⟩
  have hb : Onnx.Spec.bound none = some none := rfl
  have hc : Onnx.Spec.clip none none = (id : ℝ → ℝ) := rfl
  simp [Onnx.Spec.node, actOp, hb, Onnx.Spec.unary, hc]

/-- **C70** The axis of a Softmax layer is not written. -/
theorem C70_softmax_axis_dropped (s : Shape) (ax ax' : Option Layers.Axis) (f : ℝ → ℝ) (a : Act ℝ) (i : Nat) (ins : List String) :
    exportNode ⟨.softmax s ax f, a⟩ i ins = exportNode ⟨.softmax s ax' f, a⟩ i ins := by
  cases a <;> rfl

/-- **C70** The number of groups of a convolution is not written. -/
theorem C70_group_dropped (impl : ConvImpl) (c : ConvP) (wt : Nat → Nat → Nat → Nat → ℝ) (b : Nat → ℝ) (f : ℝ → ℝ) (a : Act ℝ) (i : Nat) (ins : List String) :
    ∃ q, exportNode ⟨.conv impl c wt b f, a⟩ i ins = some (some q) ∧ q.1.attrs.lookup "group" = none := ⟨_, rfl, rfl⟩

/-! ## Padding of the windows -/

/-- **C70** In the exported Conv node the rows are padded on top by the layer's right padding, and the columns on the right by its top padding. -/
theorem C70_conv_pads_swapped (impl : ConvImpl) (c : ConvP) (wt : Nat → Nat → Nat → Nat → ℝ) (b : Nat → ℝ) (f : ℝ → ℝ) (a : Act ℝ) (i : Nat) (ins : List String)
    (hdil : c.dil = 1) : ∃ q, exportNode ⟨.conv impl c wt b f, a⟩ i ins = some (some q) ∧
      Onnx.Spec.windows q.1 c.inH c.inW c.kh c.kw = some (⟨c.inH, c.kh, c.stride, 1, c.padRight, c.padBottom⟩, ⟨c.inW, c.kw, c.stride, 1, c.padLeft, c.padTop⟩) := by
  refine ⟨_, rfl, windows_of rfl ?_ rfl rfl _ _ _ _⟩
  simp only [hdil]
  rfl

/-- **C70** Likewise for the poolings. -/
theorem C70_pool_pads_swapped (c : PoolP) (f : ℝ → ℝ) (a : Act ℝ) (i : Nat) (ins : List String) :
    ∃ q, exportNode ⟨.maxPool c f, a⟩ i ins = some (some q) ∧
      Onnx.Spec.windows q.1 c.H c.W c.pool c.pool = some (⟨c.H, c.pool, c.stride, 1, c.padRight, c.padBottom⟩, ⟨c.W, c.pool, c.stride, 1, c.padLeft, c.padTop⟩) :=
  ⟨_, rfl, windows_of rfl rfl rfl rfl _ _ _ _⟩

theorem one_fits : (⟨1, 1, 1, 1, 0, 0⟩ : Onnx.Spec.Window).Fits := by unfold Onnx.Spec.Window.Fits; decide
theorem two_fits : (⟨1, 1, 1, 1, 0, 1⟩ : Onnx.Spec.Window).Fits := by unfold Onnx.Spec.Window.Fits; decide

/-- a 1×1 convolution of one pixel with one row of padding on top -/
def topConv : ConvP := ⟨1, 1, 1, 1, 2, 1, 1, 1, 1, 1, 1, 0, 0, 0⟩

/-- **C70** Example: the layer's output has two rows; the exported node's, two columns. -/
theorem C70_conv_pads_dims (v : ℝ) (opset : Nat) : topConv.Accepted ∧ topConv.padTop = 1 ∧ topConv.outH = 2 ∧ topConv.outW = 1 ∧
    ∃ q, exportNode ⟨.conv .loops6 topConv (fun _ _ _ _ => 1) (fun _ => 0) id, .linear⟩ 1 ["x"] = some (some q) ∧
      Onnx.Spec.node opset q.1 [some ⟨[1, 1, 1, 1], [v]⟩, some ⟨[1, 1, 1, 1], [1]⟩, some ⟨[1], [0]⟩] = some ⟨[1, 1, 1, 2], [v, 0]⟩ := by
  refine ⟨by unfold ConvP.Accepted topConv; decide, rfl, rfl, rfl, _, rfl, ?_⟩
  have hw : ∀ n : Onnx.Node, n.ints? "strides" = some [1, 1] → n.ints? "dilations" = some [1, 1] → n.str? "auto_pad" = none → n.ints? "pads" = some [0, 0, 0, 1] →
      n.int? "group" = none → n.ints? "kernel_shape" = some [1, 1] →
      Onnx.Spec.conv n ⟨[1, 1, 1, 1], [v]⟩ ⟨[1, 1, 1, 1], [1]⟩ (some ⟨[1], [0]⟩) = some ⟨[1, 1, 1, 2], [v, 0]⟩ := by
    intro n h1 h2 h3 h4 h5 h6
    have hi : Onnx.indices [1, 1, 1, 2] = [[0, 0, 0, 0], [0, 0, 0, 1]] := rfl
    simp [Onnx.Spec.conv, Onnx.Spec.windows, h1, h2, h3, h4, h5, h6, Onnx.Spec.two, one_fits, two_fits, Onnx.Spec.Window.out, Onnx.Spec.Window.span, mk, hi,
      Onnx.Spec.Window.pos, Nd.get, ravel, prod]
  exact hw _ rfl rfl rfl rfl rfl rfl

/-! ## Layers that do not compute what their export does -/

/-- **C70** The activation function of a pooling layer is exported, but the interpreter does not apply it: on the single pixel `-1`, the exported model gives 0 and the layer -1. -/
theorem C70_pool_activation {M : CMath ℝ} (opset : Nat) : ∃ p q, exportLayer ⟨.maxPool ⟨1, 1, 1, 1, 1, 1, 1, 0, 0, 0, 0⟩ id, .relu⟩ 1 ["x"] = some [p, q] ∧
    Onnx.Spec.node opset p.1 [some ⟨[1, 1, 1, 1], [-1]⟩] = some ⟨[1, 1, 1, 1], [-1]⟩ ∧
    Onnx.Spec.node opset q.1 [some ⟨[1, 1, 1, 1], [-1]⟩] = some ⟨[1, 1, 1, 1], [0]⟩ ∧
    ((⟨.maxPool ⟨1, 1, 1, 1, 1, 1, 1, 0, 0, 0, 0⟩ id, .relu⟩ : XLayer).full.forward M .first [⟨[1, 1, 1, 1], [-1]⟩]).map Nd.data = some [-1] := by
  refine ⟨_, _, rfl, ?_, ?_, ?_⟩
  · have hw : ∀ n : Onnx.Node, n.ints? "strides" = some [1, 1] → n.ints? "dilations" = none → n.str? "auto_pad" = none → n.ints? "pads" = some [0, 0, 0, 0] →
        n.int? "ceil_mode" = none → n.ints? "kernel_shape" = some [1, 1] → Onnx.Spec.maxPool n ⟨[1, 1, 1, 1], [-1]⟩ = some ⟨[1, 1, 1, 1], [-1]⟩ := by
      intro n h1 h2 h3 h4 h5 h6
      have hi : Onnx.indices [1, 1, 1, 1] = [[0, 0, 0, 0]] := rfl
      simp [Onnx.Spec.maxPool, Onnx.Spec.windows, h1, h2, h3, h4, h5, h6, Onnx.Spec.two, one_fits, Onnx.Spec.Window.out, Onnx.Spec.Window.span, Onnx.Spec.mkM, hi,
        Onnx.Spec.under, Onnx.Spec.Window.pos, Nd.get, ravel, prod]
    exact hw _ rfl rfl rfl rfl rfl rfl
  · have : ∀ n : Onnx.Node, n.op = .Relu → Onnx.Spec.node opset n [some ⟨[1, 1, 1, 1], [-1]⟩] = some ⟨[1, 1, 1, 1], [0]⟩ := by
      intro n hn
      simp [Onnx.Spec.node, hn, Onnx.Spec.arg1, Onnx.Spec.unary]
    exact this _ rfl
  · simp [XLayer.full, setAct, Op.forward, Nd.reshape3, Shape.size, fill, tensor3, maxPoolForward, poolSlice, Np.amax, arrOf, at3]
    rfl

/-- **C70** An Add layer ignores its constant, but its export adds it. -/
theorem C70_add_constant (M : CMath ℝ) (opset : Nat) (v k : ℝ) :
    ∃ q, exportNode ⟨.broadcast .add ⟨1, 1, 1⟩ [⟨1, 1, 1⟩] (some ⟨1, 1, 1, fun _ _ _ => k⟩) id, .linear⟩ 1 ["x"] = some (some q) ∧
      (∃ a, q.2.mapM Init.array = some [a] ∧ Onnx.Spec.node opset q.1 [some ⟨[1, 1, 1, 1], [v]⟩, some a] = some ⟨[1, 1, 1, 1], [v + k]⟩) ∧
      ((⟨.broadcast .add ⟨1, 1, 1⟩ [⟨1, 1, 1⟩] (some ⟨1, 1, 1, fun _ _ _ => k⟩) id, .linear⟩ : XLayer).full.forward M .first [⟨[1, 1, 1, 1], [v]⟩]).map Nd.data =
        some [v] := by
  refine ⟨_, rfl, ⟨⟨[], [k]⟩, ?_, ?_⟩, ?_⟩
  · simp [broadcastConst, floats, Init.array, Onnx.Payload.reals, Arr.flat, tensor3, prod]
  · have hi : Onnx.indices [1, 1, 1, 1] = [[0, 0, 0, 0]] := rfl
    have hb : Onnx.bshape [1, 1, 1, 1] [] = some [1, 1, 1, 1] := rfl
    have hq : Onnx.padTo 4 [1, 1, 1, 1] = [1, 1, 1, 1] := rfl
    simp [Onnx.Spec.node, bopOp, Onnx.Spec.arg2, Onnx.bcast, hb, mk, hi, Nd.bget, ravel, prod, hq, Onnx.mask]
    rfl
  · simp [XLayer.full, setAct, Op.forward, Nd.reshape3, Shape.size, arrOf, at3, broadcastForward, ofArr, Arr.flat, tensor3, Act.compute, Arr.map]

/-- **C70** The axes of length one of a constant are removed: a constant of one column per channel is broadcast along the columns instead of the channels. -/
theorem C70_constant_squeezed (M : CMath ℝ) (opset : Nat) (k0 k1 : ℝ) :
    ∃ q, exportNode ⟨.broadcast .mul ⟨2, 1, 2⟩ [⟨2, 1, 2⟩] (some ⟨2, 1, 1, fun f _ _ => if f = 0 then k0 else k1⟩) id, .linear⟩ 1 ["x"] = some (some q) ∧
      (∃ a, q.2.mapM Init.array = some [a] ∧ Onnx.Spec.node opset q.1 [some ⟨[1, 2, 1, 2], [1, 1, 1, 1]⟩, some a] = some ⟨[1, 2, 1, 2], [k0, k1, k0, k1]⟩) ∧
      ((⟨.broadcast .mul ⟨2, 1, 2⟩ [⟨2, 1, 2⟩] (some ⟨2, 1, 1, fun f _ _ => if f = 0 then k0 else k1⟩) id, .linear⟩ : XLayer).full.forward M .first
        [⟨[1, 2, 1, 2], [1, 1, 1, 1]⟩]).map Nd.data = some [k0, k0, k1, k1] := by
  refine ⟨_, rfl, ⟨⟨[2], [k0, k1]⟩, ?_, ?_⟩, ?_⟩
  · simp [broadcastConst, floats, Init.array, Onnx.Payload.reals, Arr.flat, tensor3, prod, List.range_succ]
  · have hi : Onnx.indices [1, 2, 1, 2] = [[0, 0, 0, 0], [0, 0, 0, 1], [0, 1, 0, 0], [0, 1, 0, 1]] := rfl
    have hb : Onnx.bshape [1, 2, 1, 2] [2] = some [1, 2, 1, 2] := rfl
    have hq : Onnx.padTo 4 [1, 2, 1, 2] = [1, 2, 1, 2] := rfl
    simp [Onnx.Spec.node, bopOp, Onnx.Spec.arg2, Onnx.bcast, hb, mk, hi, Nd.bget, ravel, prod, hq, Onnx.mask]
    exact ⟨rfl, rfl, rfl, rfl⟩
  · simp [XLayer.full, setAct, Op.forward, Nd.reshape3, Shape.size, arrOf, at3, broadcastForward, Np.binop, Np.bdim, Np.bget, Np.bidx, ofArr, Arr.flat, tensor3, Act.compute, Arr.map, List.range_succ]

/-- **C70** The indices of a Gather layer are written, unchanged, but as floating-point numbers, which ONNX does not accept. -/
theorem C70_gather_indices_float (ax : Np.Axis) (s : Shape) (d idx : List Nat) (f : ℝ → ℝ) (a : Act ℝ) (i : Nat) (ins : List String) :
    ∃ q, exportNode ⟨.gather ax s d idx f, a⟩ i ins = some (some q) ∧ q.2.map Init.payload = [.floats (idx.map fun (k : Nat) => (k : ℝ))] ∧ q.2.map Init.dims = [d] := ⟨_, rfl, rfl, rfl⟩

/-- **C70** So are the repetitions of a Tile layer. -/
theorem C70_tile_repeats_float (s : Shape) (rc rh rw : Nat) (f : ℝ → ℝ) (a : Act ℝ) (i : Nat) (ins : List String) :
    ∃ q, exportNode ⟨.tile s rc rh rw f, a⟩ i ins = some (some q) ∧ q.2.map Init.payload = [.floats [1, rc, rh, rw]] := ⟨_, rfl, rfl⟩

/-- **C70** An exported Pad node cannot be imported again, in any model: its last input is the empty name. -/
theorem C70_pad_not_imported (m : Onnx.Model) (L : XLayer) (h : (∃ s p k f, L.op = .constantPad s p k f) ∨ ∃ md s p f, L.op = .pad md s p f) (i : Nat) (x : String) :
    ∃ q, exportNode L i [x] = some (some q) ∧ Onnx.createPad m q.1 = none := by
  have go : ∀ (n : Onnx.Node) a b, n.inputs = [x, a, b, ""] → Onnx.createPad m n = none := by
    intro n a b hn
    rw [Option.eq_none_iff_forall_ne_some]
    intro made h
    unfold Onnx.createPad at h
    iterate 10 obtain ⟨_, _, h⟩ := Option.bind_eq_some_iff.mp h
    obtain ⟨_, h4, _⟩ := Option.bind_eq_some_iff.mp h
    rw [hn, if_neg (by simp)] at h4
    simp [Onnx.Node.input?, hn, Onnx.Model.init?] at h4
  obtain ⟨op, act⟩ := L
  rcases h with ⟨s, p, k, f, rfl⟩ | ⟨md, s, p, f, rfl⟩
  · exact ⟨_, rfl, go _ _ _ rfl⟩
  · exact ⟨_, rfl, go _ _ _ rfl⟩

/-- **C70** Tensors of two axes are declared with four: the outputs of Gemm, of Flatten and of an ActivationLayer. -/
theorem C70_output_rank (i : Nat) : (∀ tA tB m n kd alpha beta w c f a, (exportOutput ⟨.gemm tA tB m n kd alpha beta w c f, a⟩ i).2 = [1, 1, m, n]) ∧
    (∀ s a, (exportOutput ⟨.flatten s, a⟩ i).2 = [1, 1, 1, 1]) ∧ ∀ n f a, (exportOutput ⟨.activation n f, a⟩ i).2 = [1, 1, 1, 1] := ⟨fun _ _ _ _ _ _ _ _ _ _ _ => rfl, fun _ _ => rfl, fun _ _ _ => rfl⟩

end Verif.Export

import Verif.Onnx.Import
import Verif.Onnx.Wiring
import Verif.Onnx.OpsProps

/-!
# Concrete models that meet the hypotheses of C56 to C60
-/

namespace Verif.Onnx
open Net Layers Graph
open scoped Classical

/-- `y = relu(x + k) * (x + k)`, with a Dropout -/
def exModel (p q : ℝ) : Model where
  inputs := [("x", [1, 1, 1, 2])]
  outputs := [("y", [1, 1, 1, 2])]
  valueInfo := [("a", [1, 1, 1, 2]), ("r", [1, 1, 1, 2]), ("d", [1, 1, 1, 2])]
  inits := [⟨"k", [1, 1, 1, 2], .floats [p, q]⟩]
  nodes := [⟨.Add, ["x", "k"], ["a"], []⟩, ⟨.Relu, ["a"], ["r"], []⟩, ⟨.Dropout, ["r"], ["d"], []⟩, ⟨.Mul, ["d", "a"], ["y"], []⟩]
  opset := 13

variable (p q u v : ℝ)

theorem ex_raw (s : String) (h : s = "x" ∨ s = "y" ∨ s = "a" ∨ s = "r" ∨ s = "d") : (exModel p q).rawShape s = [1, 1, 1, 2] := by
  rcases h with rfl | rfl | rfl | rfl | rfl <;> simp [exModel, Model.rawShape, lastOf]

theorem ex_dynamic {s : String} : (exModel p q).Dynamic s ↔ s = "x" ∨ s = "y" ∨ s = "a" ∨ s = "r" ∨ s = "d" := by
  simp only [Model.Dynamic, exModel, Node.output?]
  simp
  grind

theorem ex_valid : Valid (exModel p q) "x" "y" where
  inputs := ⟨_, rfl⟩
  names := by simp [exModel, Node.output?]
  nonempty := by simp [exModel, Node.output?]
  arrays := by simp [exModel, Init.array, Payload.reals, prod]
  used := by
    intro s hs hne
    rw [ex_dynamic] at hs
    simp only [exModel, Node.operands]
    rcases hs with rfl | rfl | rfl | rfl | rfl <;> simp at hne ⊢

/-- the values of the tensors -/
noncomputable def exEnv : Spec.Env := fun s =>
  if s = "y" then some ⟨[1, 1, 1, 2], [max 0 (u + p) * (u + p), max 0 (v + q) * (v + q)]⟩
  else if s = "d" then some ⟨[1, 1, 1, 2], [max 0 (u + p), max 0 (v + q)]⟩
  else if s = "r" then some ⟨[1, 1, 1, 2], [max 0 (u + p), max 0 (v + q)]⟩
  else if s = "a" then some ⟨[1, 1, 1, 2], [u + p, v + q]⟩
  else Spec.env0 (exModel p q) "x" ⟨[1, 1, 1, 2], [u, v]⟩ s

theorem bcast_pair (op : ℝ → ℝ → ℝ) (a b c d : ℝ) :
    bcast op ⟨[1, 1, 1, 2], [a, b]⟩ ⟨[1, 1, 1, 2], [c, d]⟩ = some ⟨[1, 1, 1, 2], [op a c, op b d]⟩ := by
  simp [bcast, bshape, padTo, bdims, bdim, mk, indices, List.range_succ, Nd.bget, ravel, mask, prod]

theorem ex_eval : Spec.eval (exModel p q) "x" ⟨[1, 1, 1, 2], [u, v]⟩ = some (exEnv p q u v) := by
  simp [Spec.eval, exModel, Spec.step, Spec.args, Spec.node, Spec.arg1, Spec.arg2, Node.output?, Spec.env0, Init.array, Payload.reals, prod,
    bcast_pair, Spec.unary]
  funext s
  simp [exEnv, exModel, Spec.env0]

theorem ex_fits : Fits (exModel p q) (exEnv p q u v) where
  decl := by
    intro s t hs ht
    rw [ex_dynamic] at hs
    rw [ex_raw p q s hs]
    rcases hs with rfl | rfl | rfl | rfl | rfl <;> simp [exEnv, Spec.env0] at ht <;> rw [← ht]
  init := by simp [exModel, Model.rawShape, lastOf]
  const := by simp [exModel]
  nodes := by
    intro n hn as y ha hy
    simp only [exModel, List.mem_cons, List.not_mem_nil, or_false] at hn
    rcases hn with rfl | rfl | rfl | rfl
    · simp [Spec.args, exEnv, Spec.env0, exModel, Init.array, Payload.reals, prod] at ha
      subst ha
      simp [Spec.node, Spec.arg2, bcast_pair] at hy
      subst hy
      simp [Supported, SameShape]
    · trivial
    · trivial
    · simp [Spec.args, exEnv] at ha
      subst ha
      simp [Spec.node, Spec.arg2, bcast_pair] at hy
      subst hy
      refine .inl ⟨?_, ?_⟩
      · intro s hs
        rw [ex_dynamic]
        simp at hs
        rcases hs with rfl | rfl <;> simp
      · intro a h
        simp at h
        rw [← h]

theorem ex_import : ∃ net, importNet (exModel p q) = some net := by
  have hsh : ∀ s, s = "x" ∨ s = "y" ∨ s = "a" ∨ s = "r" ∨ s = "d" → (exModel p q).shape s = [1, 1, 1, 2] := by
    intro s hs; rw [Model.shape, ex_raw p q s hs]; simp [extend4]
  have hraw := ex_raw p q
  have hi : ∀ s, s = "x" ∨ s = "y" ∨ s = "a" ∨ s = "r" ∨ s = "d" → (exModel p q).init? s = none := by
    rintro s (rfl | rfl | rfl | rfl | rfl) <;> simp [Model.init?, exModel]
  have hk : (exModel p q).init? "k" = some ⟨"k", [1, 1, 1, 2], .floats [p, q]⟩ := by simp [Model.init?, exModel]
  have c1 : ∃ made, create (exModel p q) ⟨.Add, ["x", "k"], ["a"], []⟩ = some made ∧ made.2 = ["x", "k"] := by
    simp [create, createAdd, Node.output?, hsh, batch1, Model.collect, hi, hk, hraw, pad4, padTo, Init.array, Payload.reals, prod]
  have c2 : ∃ made, create (exModel p q) ⟨.Relu, ["a"], ["r"], []⟩ = some made ∧ made.2 = ["a"] := by
    simp [create, createActivation, Node.output?, Node.input?, activation]
  have c3 : ∃ made, create (exModel p q) ⟨.Mul, ["d", "a"], ["y"], []⟩ = some made ∧ made.2 = ["d", "a"] := by
    simp [create, createBin, Node.output?, Node.input?, hsh, batch1, foldInit, hi, mk, indices, List.range_succ]
  obtain ⟨m1, c1, d1⟩ := c1
  obtain ⟨m2, c2, d2⟩ := c2
  obtain ⟨m3, c3, d3⟩ := c3
  have hn : (exModel p q).nodes = [⟨.Add, ["x", "k"], ["a"], []⟩, ⟨.Relu, ["a"], ["r"], []⟩, ⟨.Dropout, ["r"], ["d"], []⟩, ⟨.Mul, ["d", "a"], ["y"], []⟩] := rfl
  have hin : (exModel p q).inputs = [("x", [1, 1, 1, 2])] := rfl
  have hii : ∀ s, initDict (exModel p q) s = if "k" = s then some ⟨"k", [1, 1, 1, 2], .floats [p, q]⟩ else none := by
    intro s; simp [initDict, exModel]
  unfold importNet
  rw [hn]
  simp [step, OpType.isBypass, start, c1, c2, c3, d1, d2, d3, Node.output?, Node.input?, setOut, hin, linkAll, linkName, hii, Init.array, Payload.reals, prod]

/-- **C60**, **C56** The model is imported, and its reference interpreter returns the value of the ONNX model. -/
theorem C60_example {M : CMath ℝ} (hexp : M.exp = Real.exp) (hsqrt : M.sqrt = Real.sqrt) :
    ∃ net plan, loadOnnx (exModel p q) = some (net, plan) ∧
      net.reference M plan ⟨[1, 1, 1, 2], [u, v]⟩ = some [max 0 (u + p) * (u + p), max 0 (v + q) * (v + q)] := by
  obtain ⟨net, hnet⟩ := ex_import p q
  have hok : Nd.Ok (⟨[1, 1, 1, 2], [u, v]⟩ : Nd ℝ) := by simp [Nd.Ok, prod]
  obtain ⟨_, _, _, hord⟩ := C56_ordered hexp hsqrt (ex_valid p q) hok (ex_eval p q u v) (ex_fits p q u v) hnet
  obtain ⟨plan, hplan⟩ := hord (by
    intro n hn _
    simp only [exModel, List.mem_cons, List.not_mem_nil, or_false] at hn
    rcases hn with rfl | rfl | rfl | rfl
    · exact ⟨"x", by simp [Node.operands], by simp [ex_dynamic]⟩
    · exact ⟨"a", by simp [Node.operands], by simp [ex_dynamic]⟩
    · exact ⟨"r", by simp [Node.operands], by simp [ex_dynamic]⟩
    · exact ⟨"d", by simp [Node.operands], by simp [ex_dynamic]⟩)
  refine ⟨net, plan, hplan, ?_⟩
  exact C60_import_correct_partial hexp hsqrt (ex_valid p q) hok (ex_eval p q u v) (ex_fits p q u v) hplan
    (y := ⟨[1, 1, 1, 2], [max 0 (u + p) * (u + p), max 0 (v + q) * (v + q)]⟩) (by simp [exEnv])

/-! ## Single nodes -/

/-- `y = x - k` with an initializer `k` -/
def subModel (c : ℝ) : Model where
  inputs := [("x", [1, 1, 1, 1])]
  outputs := [("y", [1, 1, 1, 1])]
  valueInfo := []
  inits := [⟨"k", [1, 1, 1, 1], .floats [c]⟩]
  nodes := [⟨.Sub, ["x", "k"], ["y"], []⟩]
  opset := 13

/-- **C58** For every number `c` except 0 and every `u`, `u - c` is imported as a layer that returns `u + c`, and not `u - c`. -/
theorem C58_sub_example {M : CMath ℝ} (c : ℝ) (hc : c ≠ 0) : ∃ op, create (subModel c) ⟨.Sub, ["x", "k"], ["y"], []⟩ = some (op, ["x"]) ∧
    ∃ z, op.forward M .first [⟨[1, 1, 1, 1], [u]⟩] = some z ∧ z.data = [u + c] ∧ z.data ≠ [u - c] := by
  have hi : (subModel c).init? "k" = some ⟨"k", [1, 1, 1, 1], .floats [c]⟩ := by simp [subModel, Model.init?]
  have hx : (subModel c).init? "x" = none := by simp [subModel, Model.init?]
  have hraw : ∀ s, s = "x" ∨ s = "y" → (subModel c).rawShape s = [1, 1, 1, 1] := by
    rintro s (rfl | rfl) <;> simp [subModel, Model.rawShape, lastOf]
  have hb : ∀ op : ℝ → ℝ → ℝ, ∀ a b, bcast op ⟨[1, 1, 1, 1], [a]⟩ ⟨[1, 1, 1, 1], [b]⟩ = some ⟨[1, 1, 1, 1], [op a b]⟩ := by
    intro op a b
    simp [bcast, bshape, padTo, bdims, bdim, mk, indices, Nd.bget, ravel, mask, prod]
  have hm : (mk [1, 1, 1, 1] fun _ => (0 : ℝ)) = ⟨[1, 1, 1, 1], [0]⟩ := by simp [mk, indices]
  obtain ⟨op, hop⟩ : ∃ op, create (subModel c) ⟨.Sub, ["x", "k"], ["y"], []⟩ = some (op, ["x"]) := by
    simp [create, createBin, Node.output?, Node.input?, Model.shape, hraw, extend4, batch1, foldInit, hi, hx, hm, hb, Init.array, Payload.reals, prod, hc,
      arr4, pad4, padTo]
  refine ⟨op, hop, ?_⟩
  let E : Spec.Env := fun s => if s = "x" then some ⟨[1, 1, 1, 1], [u]⟩ else if s = "k" then some ⟨[1, 1, 1, 1], [c]⟩ else none
  have hk : Known (subModel c) (fun s => s = "x") E := by
    refine ⟨?_, ?_, ?_⟩
    · intro s i h
      have : s = "k" := by
        by_contra hne
        simp [subModel, Model.init?, List.find?, Ne.symm hne] at h
      subst this
      rw [hi] at h; cases h
      exact ⟨⟨[1, 1, 1, 1], [c]⟩, by simp [Init.array, Payload.reals, prod], by simp [E]⟩
    · rintro s t rfl h
      simp [E] at h
      rw [hraw "x" (.inl rfl), ← h]
    · intro s t h
      simp only [E] at h
      split at h
      · cases h; simp [Nd.Ok, prod]
      · split at h
        · cases h; simp [Nd.Ok, prod]
        · simp at h
  have hd : Declared (subModel c) := by
    intro s i h
    have : s = "k" := by
      by_contra hne
      simp [subModel, Model.init?, List.find?, Ne.symm hne] at h
    subst this
    simp [subModel, Model.rawShape, lastOf]
  have := C58_sub_adds (M := M) hk hd rfl hop rfl (.inl ⟨rfl, rfl⟩) ⟨hx, rfl⟩ (by simp [hi]) (a := ⟨[1, 1, 1, 1], [u]⟩) (k := ⟨[1, 1, 1, 1], [c]⟩)
    (by simp [E]) (by simp [E]) (sk := ⟨1, 1, 1⟩) rfl (by simpa using hc) (hb _ _ _)
  obtain ⟨z, h1, h2⟩ := this.2 [⟨[1, 1, 1, 1], [u]⟩] (by
    refine .cons ⟨⟨[1, 1, 1, 1], [u]⟩, by simp [E], rfl⟩ .nil)
  refine ⟨z, h1, h2, ?_⟩
  rw [h2]
  simp
  intro h
  apply hc
  linarith

/-- a Softmax node without axis, opset 11 -/
def smModel : Model where
  inputs := [("x", [2, 2])]
  outputs := [("y", [2, 2])]
  valueInfo := []
  inits := []
  nodes := [⟨.Softmax, ["x"], ["y"], []⟩]
  opset := 11

/-- **C57** The hypotheses of `C57_softmax_default_ones` hold for every matrix of two rows and two columns. -/
theorem C57_softmax_example {M : CMath ℝ} (hM : M.exp = Real.exp) (a b c d : ℝ) :
    ∃ op, create smModel ⟨.Softmax, ["x"], ["y"], []⟩ = some (op, ["x"]) ∧
      ∃ z, op.forward M .first [⟨[2, 2], [a, b, c, d]⟩] = some z ∧ z.data = [1, 1, 1, 1] := by
  have hraw : ∀ s, s = "x" ∨ s = "y" → smModel.rawShape s = [2, 2] := by
    rintro s (rfl | rfl) <;> simp [smModel, Model.rawShape, lastOf]
  obtain ⟨op, hop⟩ : ∃ op, create smModel ⟨.Softmax, ["x"], ["y"], []⟩ = some (op, ["x"]) := by
    have ho : smModel.opset < 13 := by decide
    simp [create, createSoftmax, Node.output?, Node.input?, Model.shape, hraw, extend4, batch1, Node.int?, smAxis, ho]
  let E : Spec.Env := fun s => if s = "x" then some ⟨[2, 2], [a, b, c, d]⟩ else none
  have hk : Known smModel (fun s => s = "x") E := by
    refine ⟨?_, ?_, ?_⟩
    · intro s i h; simp [smModel, Model.init?] at h
    · rintro s t rfl h
      simp [E] at h
      rw [hraw "x" (.inl rfl), ← h]
    · intro s t h
      simp only [E] at h
      split at h
      · cases h; simp [Nd.Ok, prod]
      · simp at h
  have := C57_softmax_default_ones (M := M) hM hk rfl hop (x := ⟨[2, 2], [a, b, c, d]⟩) (by simp [Spec.args, E])
    (by intro o ho; simp [Node.output?] at ho; subst ho; exact hraw "y" (.inr rfl)) (by decide) rfl rfl (by decide) (by decide)
  obtain ⟨z, h1, h2⟩ := this.2 [⟨[2, 2], [a, b, c, d]⟩] (.cons ⟨_, by simp [E], rfl⟩ .nil)
  exact ⟨op, hop, z, h1, by simpa using h2⟩

/-- **C57** The hypotheses of `C57_softmax_before13_partial` and `C57_softmax_before13_wrong` hold for a matrix of two rows and two
columns, with the last and with the first axis. -/
theorem C57_softmax_before13_example {M : CMath ℝ} (hM : M.exp = Real.exp) (a b c d : ℝ) :
    ∃ (E : Spec.Env) (op op' : Op ℝ) (y y' : Nd ℝ), E "x" = some ⟨[2, 2], [a, b, c, d]⟩ ∧
      create smModel ⟨.Softmax, ["x"], ["y"], [("axis", .int 1)]⟩ = some (op, ["x"]) ∧
      Spec.node 11 ⟨.Softmax, ["x"], ["y"], [("axis", .int 1)]⟩ [some ⟨[2, 2], [a, b, c, d]⟩] = some y ∧ Correct M E op ["x"] y ∧
      create smModel ⟨.Softmax, ["x"], ["y"], [("axis", .int 0)]⟩ = some (op', ["x"]) ∧
      Spec.node 11 ⟨.Softmax, ["x"], ["y"], [("axis", .int 0)]⟩ [some ⟨[2, 2], [a, b, c, d]⟩] = some y' ∧ ¬ Correct M E op' ["x"] y' := by
  have hraw : ∀ s, s = "x" ∨ s = "y" → smModel.rawShape s = [2, 2] := by
    rintro s (rfl | rfl) <;> simp [smModel, Model.rawShape, lastOf]
  have made : ∀ z : Int, z = 0 ∨ z = 1 → ∃ op, create smModel ⟨.Softmax, ["x"], ["y"], [("axis", .int z)]⟩ = some (op, ["x"]) := by
    rintro z (rfl | rfl) <;>
      simp [create, createSoftmax, Node.output?, Node.input?, Model.shape, hraw, extend4, batch1, Node.int?, smAxis, resolve]
  obtain ⟨op, hop⟩ := made 1 (.inr rfl)
  obtain ⟨op', hop'⟩ := made 0 (.inl rfl)
  obtain ⟨x, hx⟩ : ∃ x : Nd ℝ, x = ⟨[2, 2], [a, b, c, d]⟩ := ⟨_, rfl⟩
  have hy : ∀ z : Int, z = 0 ∨ z = 1 → ∃ y, Spec.node 11 ⟨.Softmax, ["x"], ["y"], [("axis", .int z)]⟩ [some x] = some y ∧ y.dims = [2, 2] ∧ y.Ok := by
    subst hx
    rintro z (rfl | rfl) <;> exact ⟨_, rfl, rfl, mk_ok _ _⟩
  obtain ⟨y, hy1, hyd, hyok⟩ := hy 1 (.inr rfl)
  obtain ⟨y', hy2, _⟩ := hy 0 (.inl rfl)
  obtain ⟨E, hE⟩ : ∃ E : Spec.Env, E = fun s => if s = "x" then some x else if s = "y" then some y else none := ⟨_, rfl⟩
  have hk : Known smModel (fun s => s = "x" ∨ s = "y") E := by
    refine ⟨?_, ?_, ?_⟩
    · intro s i h; simp [smModel, Model.init?] at h
    · rintro s t hs h
      rw [hraw s hs]
      rcases hs with rfl | rfl
      · simp [hE] at h; rw [← h, hx]
      · simp [hE] at h; rw [← h, hyd]
    · intro s t h
      simp only [hE] at h
      split at h
      · cases h; subst hx; simp [Nd.Ok, prod]
      · split at h
        · cases h; exact hyok
        · simp at h
  have hdyn : ∀ z s, (⟨.Softmax, ["x"], ["y"], [("axis", .int z)]⟩ : Node).input? 0 = some s → s = "x" ∨ s = "y" := by
    intro z s h; simp [Node.input?] at h; exact .inl h.symm
  have hout : ∀ z o, (⟨.Softmax, ["x"], ["y"], [("axis", .int z)]⟩ : Node).output? = some o → o = "y" := by
    intro z o h; simp [Node.output?] at h; exact h.symm
  have hargs : ∀ z, Spec.args E ⟨.Softmax, ["x"], ["y"], [("axis", .int z)]⟩ = some [some x] := by intro z; simp [Spec.args, hE]
  have hxd : x.dims = [2, 2] := by rw [hx]
  rw [← hx]
  refine ⟨E, op, op', y, y', by simp [hE], hop, hy1, ?_, hop', hy2, ?_⟩
  · refine C57_softmax_before13_partial hM hk rfl hop (hargs 1) (hdyn 1) ?_ (by decide) (z := 1) rfl (k := 1) (by rw [hxd]; rfl) (by rw [hxd]; rfl) hy1 ?_
    · intro o ho
      rw [hout 1 o ho]
      exact ⟨.inr rfl, by simp [hE]⟩
    · rintro ⟨e, he, he'⟩
      rw [hxd] at he he'
      simp [prod] at he he'
      omega
  · exact C57_softmax_before13_wrong hM hk rfl hop' (hargs 0) (hdyn 0) (fun o ho => by rw [hout 0 o ho, hraw "y" (.inr rfl), hxd]) (by decide) rfl hxd
      (by decide) (by decide) hy2

/-- a convolution with a kernel of one row and two columns -/
def convNode : Node := ⟨.Conv, ["x", "w", "b"], ["y"], [("kernel_shape", .ints [1, 2]), ("strides", .ints [1, 1])]⟩

def convModel (w b : ℝ) : Model where
  inputs := [("x", [1, 1, 1, 3])]
  outputs := [("y", [1, 1, 1, 2])]
  valueInfo := []
  inits := [⟨"w", [1, 1, 1, 2], .floats [w, 2]⟩, ⟨"b", [1], .floats [b]⟩]
  nodes := [convNode]
  opset := 13

/-- **C59** The hypotheses of `C59_conv_partial` hold for this node whatever the data and the weights. -/
theorem C59_conv_example {M : CMath ℝ} (w b x y z : ℝ) : ∃ op, create (convModel w b) convNode = some (op, ["x"]) ∧
    ∃ r, op.forward M .first [⟨[1, 1, 1, 3], [x, y, z]⟩] = some r ∧ r.data = [x * w + y * 2 + b, y * w + z * 2 + b] := by
  have hw : (convModel w b).init? "w" = some ⟨"w", [1, 1, 1, 2], .floats [w, 2]⟩ := by simp [convModel, Model.init?]
  have hb : (convModel w b).init? "b" = some ⟨"b", [1], .floats [b]⟩ := by simp [convModel, Model.init?]
  have hrx : (convModel w b).rawShape "x" = [1, 1, 1, 3] := by simp [convModel, Model.rawShape, lastOf]
  have hry : (convModel w b).rawShape "y" = [1, 1, 1, 2] := by simp [convModel, Model.rawShape, lastOf]
  obtain ⟨op, hop⟩ : ∃ op, create (convModel w b) convNode = some (op, ["x"]) := by
    simp [create, convNode, createConv, Node.output?, Node.input?, Model.shape, hrx, hry, extend4, shape3, Node.stride, Node.ints?, Node.str?, List.lookup,
      nat?, hw, hb, Init.array, Payload.reals, prod, Node.padding, Gen.computePadding, ConvP.Accepted]
  refine ⟨op, hop, ?_⟩
  let E : Spec.Env := fun s => if s = "x" then some ⟨[1, 1, 1, 3], [x, y, z]⟩ else if s = "w" then some ⟨[1, 1, 1, 2], [w, 2]⟩ else
    if s = "b" then some ⟨[1], [b]⟩ else none
  have hk : Known (convModel w b) (fun s => s = "x") E := by
    refine ⟨?_, ?_, ?_⟩
    · intro s i h
      by_cases h1 : s = "w"
      · subst h1; rw [hw] at h; cases h
        exact ⟨⟨[1, 1, 1, 2], [w, 2]⟩, by simp [Init.array, Payload.reals, prod], by simp [E]⟩
      · by_cases h2 : s = "b"
        · subst h2; rw [hb] at h; cases h
          exact ⟨⟨[1], [b]⟩, by simp [Init.array, Payload.reals, prod], by simp [E]⟩
        · simp [convModel, Model.init?, List.find?, Ne.symm h1, Ne.symm h2] at h
    · rintro s t rfl h
      simp [E] at h
      rw [hrx, ← h]
    · intro s t h
      simp only [E] at h
      split at h
      · cases h; simp [Nd.Ok, prod]
      · split at h
        · cases h; simp [Nd.Ok, prod]
        · split at h
          · cases h; simp [Nd.Ok, prod]
          · simp at h
  have hy : Spec.node 13 convNode [some ⟨[1, 1, 1, 3], [x, y, z]⟩, some ⟨[1, 1, 1, 2], [w, 2]⟩, some ⟨[1], [b]⟩] =
      some ⟨[1, 1, 1, 2], [x * w + y * 2 + b, y * w + z * 2 + b]⟩ := by
    simp [Spec.node, convNode, Spec.arg3, Spec.conv, Spec.windows, Node.ints?, Node.str?, Node.int?, List.lookup, Spec.two, Spec.Window.Fits, Spec.Window.span,
      Spec.Window.out, mk, indices, List.range_succ, Finset.sum_range_succ, Spec.Window.pos, Nd.get, ravel, prod]
  have := C59_conv_partial (M := M) hk rfl hop (x := ⟨[1, 1, 1, 3], [x, y, z]⟩) (w := ⟨[1, 1, 1, 2], [w, 2]⟩) (b := some ⟨[1], [b]⟩)
    (as := [some ⟨[1, 1, 1, 3], [x, y, z]⟩, some ⟨[1, 1, 1, 2], [w, 2]⟩, some ⟨[1], [b]⟩]) (by simp [Spec.args, convNode, E]) (.inr rfl)
    (by intro s hs; simp [Node.input?, convNode] at hs; exact hs.symm) hy rfl ⟨1, rfl⟩ rfl rfl
  exact this.2 [⟨[1, 1, 1, 3], [x, y, z]⟩] (.cons ⟨_, by simp [E], rfl⟩ .nil)

/-- the operands of a Dropout and of another layer (hypotheses of `C56_bypass_shared_raises`) -/
def sharedModel : Model where
  inputs := [("x", [1, 1, 1, 1])]
  outputs := [("y", [1, 1, 1, 1])]
  valueInfo := [("r", [1, 1, 1, 1]), ("d", [1, 1, 1, 1])]
  inits := []
  nodes := [⟨.Relu, ["x"], ["r"], []⟩, ⟨.Dropout, ["r"], ["d"], []⟩, ⟨.Add, ["d", "r"], ["y"], []⟩]
  opset := 13

theorem C56_shared_example : importNet sharedModel = none :=
  C56_bypass_shared_raises (pre := [⟨.Relu, ["x"], ["r"], []⟩]) (post := [⟨.Add, ["d", "r"], ["y"], []⟩]) (b := ⟨.Dropout, ["r"], ["d"], []⟩)
    (n := ⟨.Add, ["d", "r"], ["y"], []⟩) (s := "r") (o := "d") rfl rfl rfl rfl (by decide) (by simp [Node.output?]) (by simp [sharedModel])
    (by simp [sharedModel, Node.output?]) (by simp [sharedModel]) rfl rfl (by simp) (by simp [Node.operands])

/-- the output of a Constant node as an operand of Add -/
def constantModel : Model where
  inputs := [("x", [1, 1, 1, 1])]
  outputs := [("y", [1, 1, 1, 1])]
  valueInfo := [("k", [1])]
  inits := []
  nodes := [⟨.Constant, [], ["k"], [("value", .tensor [1] (.floats [1]))]⟩, ⟨.Add, ["x", "k"], ["y"], []⟩]
  opset := 13

theorem C56_constant_example : importNet constantModel = none :=
  C56_constant_operand_raises (c := ⟨.Constant, [], ["k"], [("value", .tensor [1] (.floats [1]))]⟩) (n := ⟨.Add, ["x", "k"], ["y"], []⟩) (s := "k")
    rfl rfl (by simp [constantModel, Node.output?]) (by simp [constantModel]) (by simp [constantModel]) (by simp [constantModel]) rfl (by simp)
    (.inl rfl) (by simp)

/-- a ReduceSum whose operand has the name `ab` -/
def reduceModel : Model where
  inputs := [("ab", [1, 1, 1, 2])]
  outputs := [("y", [1, 1, 1, 1])]
  valueInfo := []
  inits := []
  nodes := [⟨.ReduceSum, ["ab"], ["y"], []⟩]
  opset := 13

theorem C56_reduce_example : importNet reduceModel = none := by
  cases h : importNet reduceModel with
  | none => rfl
  | some net =>
    have := C56_tile_reduce_names h (n := ⟨.ReduceSum, ["ab"], ["y"], []⟩) (by simp [reduceModel]) rfl (x := "ab") rfl 'a' (by decide)
    simp [Model.tensors, reduceModel, Node.output?] at this

end Verif.Onnx

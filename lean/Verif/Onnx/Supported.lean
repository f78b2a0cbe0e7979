import Verif.Onnx.LocalPad

/-!
# The nodes that the importer translates faithfully

`Supported` lists, for each operator, what a node must satisfy for the layer made for it to return the value of the node;
`create_correct` puts the theorems on the operators together.
-/

namespace Verif.Onnx
open Net Layers
open scoped Classical

/-- the tensor is the input of the model or computed by a node (a Constant node does not compute) -/
def Model.Dynamic (m : Model) (s : String) : Prop := (∃ e ∈ m.inputs, e.1 = s) ∨ ∃ n ∈ m.nodes, n.op ≠ .Constant ∧ n.output? = some s

/-- the first operand is computed -/
def FirstDynamic (m : Model) (n : Node) : Prop := ∀ s, n.input? 0 = some s → m.Dynamic s

/-- the result of an element-wise operator has the shape of its first operand, up to leading axes of length 1 -/
def SameShape (as : List (Option (Nd ℝ))) (y : Nd ℝ) : Prop := ∀ a, as.head? = some (some a) → shapeOf y.dims = shapeOf a.dims

/-- a batch of one image -/
def Batch1 (as : List (Option (Nd ℝ))) : Prop := ∀ x, as.head? = some (some x) → x.dims.head? = some 1

/-- a product by an initializer `k`, which has no element 1 or only such elements -/
def ByConstant (m : Model) (n : Node) (as : List (Option (Nd ℝ))) (y : Nd ℝ) : Prop :=
  ∃ xa xk a k, (n.inputs = [xa, xk] ∧ as = [some a, some k] ∨ n.inputs = [xk, xa] ∧ as = [some k, some a]) ∧
    m.Dynamic xa ∧ ¬ m.Dynamic xk ∧ (∃ s, shapeOf k.dims = some s) ∧
    ((∀ v ∈ k.data, v ≠ 1) ∨ (k.data ≠ [] ∧ (∀ v ∈ k.data, v = 1) ∧ shapeOf y.dims = shapeOf a.dims))

/-- The restrictions on the node `n`, its arguments `as` and its value `y`.  Operators that are not listed are not
supported (see C56 and C58 for what the importer makes of some of them). -/
def Supported (m : Model) (n : Node) (as : List (Option (Nd ℝ))) (y : Nd ℝ) : Prop :=
  match n.op with
  | .Relu | .Tanh | .Sigmoid | .Exp | .Log | .LeakyRelu | .Clip | .MatMul => True
  | .Add => SameShape as y
  | .Sub | .Div => (∀ s ∈ n.inputs, m.Dynamic s) ∧ SameShape as y
  | .Mul => ((∀ s ∈ n.inputs, m.Dynamic s) ∧ SameShape as y) ∨ ByConstant m n as y
  -- equal strides, no dilation, one group
  | .Conv => FirstDynamic m n ∧ Batch1 as ∧ (∃ s : Nat, (n.ints? "strides").getD [1, 1] = [(s : Int), (s : Int)]) ∧
      (n.ints? "dilations").getD [1, 1] = [1, 1] ∧ (n.int? "group").getD 1 = 1
  -- square kernel, equal strides, no dilation, no padding
  | .MaxPool | .AveragePool => FirstDynamic m n ∧ ∀ x, as.head? = some (some x) → PlainPool n x
  | .GlobalAveragePool => FirstDynamic m n ∧ Batch1 as
  | .Gemm | .Transpose | .Gather | .GatherElements => FirstDynamic m n
  | .BatchNormalization => FirstDynamic m n ∧ ∀ x, as.head? = some (some x) → ∃ C H W, x.dims = [1, C, H, W]
  -- one axis may have all the elements only if it is the axis of the Softmax
  -- before opset 13, only if there is an axis and the axes after it have one element
  | .Softmax => FirstDynamic m n ∧ (13 ≤ m.opset ∨ n.int? "axis" ≠ none ∧ ∀ x, as.head? = some (some x) →
      ∀ k, Spec.axis? x.dims.length ((n.int? "axis").getD (-1)) = some k → prod (x.dims.drop (k + 1)) = 1) ∧ ∀ x, as.head? = some (some x) → (∃ d ∈ x.dims, d = prod x.dims) →
      ∀ k, Spec.axis? x.dims.length ((n.int? "axis").getD (-1)) = some k → x.dims.getD k 0 = prod x.dims
  | .Concat => (∀ s ∈ n.inputs, m.Dynamic s) ∧ 2 ≤ n.inputs.length ∧ ∀ t, some t ∈ as → ∃ s, shapeOf t.dims = some s
  | .Pad => FirstDynamic m n ∧ ∀ p, as[1]? = some (some p) → p.data.getD 0 0 = 0 ∧ p.data.getD 4 0 = 0
  | .Dropout | .Flatten | .Reshape | .Unsqueeze => True
  -- a constant without dimensions
  | .Constant => y.dims = []
  | _ => False

theorem head_one {as : List (Option (Nd ℝ))} {x : Nd ℝ} {l : List (Option (Nd ℝ))} (h : as = some x :: l) : as.head? = some (some x) := by simp [h]

/-- The layer made for a supported node returns the value of the node. -/
theorem create_correct {M : CMath ℝ} (hexp : M.exp = Real.exp) (hsqrt : M.sqrt = Real.sqrt) {m : Model} {E : Spec.Env} {im : Model}
    (hop : im.opset = m.opset) (hk : Known im m.Dynamic E) (hdec : Declared im) (hdis : ∀ s, m.Dynamic s → im.init? s = none)
    {n : Node} {made : Made} (h : create im n = some made) (hn : Named im m.Dynamic n)
    {as : List (Option (Nd ℝ))} (ha : Spec.args E n = some as) {y : Nd ℝ} (hy : Spec.node m.opset n as = some y)
    (hout : ∀ o, n.output? = some o → m.Dynamic o ∧ E o = some y) (hs : Supported m n as y) : Correct M E made.1 made.2 y := by
  unfold create at h
  unfold Supported at hs
  have hact : ∀ made, createActivation im n = some made → Correct M E made.1 made.2 y := fun made h => correct_activation hk h ha hy
  cases hop' : n.op <;> simp only [hop'] at h hs
  all_goals try contradiction
  all_goals first
    | exact hact _ h
    | skip
  all_goals simp only [Spec.node, hop'] at hy
  case Softmax =>
    obtain ⟨x, rfl, hy⟩ := arg1_some hy
    exact correct_softmax hexp hk h ha hs.1 hout (by rw [hop]; exact hs.2.1.imp_right And.left) (softmax_either (hs.2.1.imp_right fun e => ⟨e.1, e.2 x rfl⟩) hy)
      (hs.2.2 x rfl)
  case BatchNormalization =>
    split at hy
    · exact correct_batchNorm hsqrt hk h ha hs.1 hout hy (hs.2 _ rfl)
    · simp at hy
  case Conv =>
    obtain ⟨x, w, b, has, hy⟩ := arg3_some hy
    have hd : as.head? = some (some x) := by rcases has with ⟨rfl, _⟩ | rfl <;> rfl
    exact correct_conv hk h ha has hs.1 hy (hs.2.1 x hd) hs.2.2.1 hs.2.2.2.1 hs.2.2.2.2
  case Pad =>
    rw [pad_args h ha] at hy
    obtain ⟨x, w, b, has, hy⟩ := arg3_some hy
    have hd : as[1]? = some (some w) := by rcases has with ⟨rfl, _⟩ | rfl <;> rfl
    exact correct_pad hk h ha has hs.1 (hs.2 w hd) hy
  case Concat =>
    obtain ⟨xs, hxs, hy'⟩ := Option.bind_eq_some_iff.mp hy
    have := mapM_id_some hxs
    subst this
    have hl := args_length ha
    exact correct_concat hk h ha hs.1 (fun t ht => hs.2.2 t (List.mem_map.mpr ⟨t, ht, rfl⟩)) (by simp at hl; omega) hy'
  case Gather =>
    obtain ⟨a, b, rfl, hy⟩ := arg2_some hy
    exact correct_gather hk h ha hs hy
  case GatherElements =>
    obtain ⟨a, b, rfl, hy⟩ := arg2_some hy
    exact correct_gatherElements hk h ha hs hy
  case Gemm =>
    obtain ⟨x, w, b, has, hy⟩ := arg3_some hy
    exact correct_gemm hk h ha has hs hy
  case MatMul =>
    obtain ⟨a, b, rfl, hy⟩ := arg2_some hy
    exact correct_matmul hk h ha hn hy
  case Transpose =>
    obtain ⟨x, rfl, hy⟩ := arg1_some hy
    exact correct_transpose hk h ha hs hy
  case MaxPool =>
    obtain ⟨x, rfl, hy⟩ := arg1_some hy
    exact correct_maxPool hk h ha hs.1 hy (hs.2 x rfl)
  case AveragePool =>
    obtain ⟨x, rfl, hy⟩ := arg1_some hy
    exact correct_averagePool hk h ha hs.1 hy (hs.2 x rfl)
  case GlobalAveragePool =>
    obtain ⟨x, rfl, hy⟩ := arg1_some hy
    exact correct_globalAveragePool hk h ha hs.1 hout hy (hs.2 x rfl)
  case Add =>
    obtain ⟨a, b, rfl, hy⟩ := arg2_some hy
    exact correct_add hk h ha hn hy (hs a rfl)
  case Div =>
    obtain ⟨a, b, rfl, hy⟩ := arg2_some hy
    exact correct_bin_dyn hk (.inr (.inr ⟨rfl, rfl⟩)) h ha (fun s hm => ⟨hdis s (hs.1 s hm), hs.1 s hm⟩) hy (hs.2 a rfl)
  case Sub =>
    obtain ⟨a, b, rfl, hy⟩ := arg2_some hy
    exact correct_bin_dyn hk (.inl ⟨rfl, rfl⟩) h ha (fun s hm => ⟨hdis s (hs.1 s hm), hs.1 s hm⟩) hy (hs.2 a rfl)
  case Mul =>
    obtain ⟨a, b, rfl, hy'⟩ := arg2_some hy
    rcases hs with hs | ⟨xa, xk, a', k', hin, hda, hdk, hsk, hv⟩
    · exact correct_bin_dyn hk (.inr (.inl ⟨rfl, rfl⟩)) h ha (fun s hm => ⟨hdis s (hs.1 s hm), hs.1 s hm⟩) hy' (hs.2 a rfl)
    · obtain ⟨x₁, x₂, hin', h1, h2, e1, e2⟩ := args_two ha
      have hki : (im.init? xk).isSome := by
        have hm : xk ∈ n.inputs := by rcases hin with ⟨hin, _⟩ | ⟨hin, _⟩ <;> simp [hin]
        have hne : xk ≠ "" := by
          rcases hin with ⟨hin, _⟩ | ⟨hin, _⟩ <;> rw [hin] at hin' <;> simp at hin' <;> obtain ⟨rfl, rfl⟩ := hin' <;> assumption
        exact (hn xk hm hne).resolve_right hdk
      rcases hin with ⟨hin, has⟩ | ⟨hin, has⟩
      · rw [hin] at hin'
        simp only [List.cons.injEq, and_true, Option.some.injEq] at hin' has
        obtain ⟨rfl, rfl⟩ := hin'
        obtain ⟨rfl, rfl⟩ := has
        exact correct_mul_init hk hdec h hin (.inl ⟨rfl, rfl⟩) ⟨hdis _ hda, hda⟩ hki h1 h2 hsk hy' hv
      · rw [hin] at hin'
        simp only [List.cons.injEq, and_true, Option.some.injEq] at hin' has
        obtain ⟨rfl, rfl⟩ := hin'
        obtain ⟨rfl, rfl⟩ := has
        rw [bcast_mul_comm] at hy'
        exact correct_mul_init hk hdec h hin (.inr ⟨rfl, rfl⟩) ⟨hdis _ hda, hda⟩ hki h2 h1 hsk hy' hv

end Verif.Onnx

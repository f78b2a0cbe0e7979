import Verif.Export.Main

/-!
# The declared outputs and the types of the attributes
-/

namespace Verif.Export
open Net Layers Graph
open Onnx (prod Init OpType Attr)

/-- **C70** The dimensions declared for an output are those of the tensor the exported model computes, if that tensor has four axes, the layer is not an ActivationLayer (which
knows no dimensions) and an element-wise layer has the dimensions of its tensor.  (`C70_output_rank`: not in the other cases.) -/
theorem C70_output_declared {op : Op ℝ} {act : Act ℝ} {ds : List (List Nat)} {d : List Nat} (h : Exports op act ds d) (h4 : d.length = 4)
    (hact : ∀ n f, op ≠ .activation n f) (hb : ∀ b o ss k f, op = .broadcast b o ss k f → d = [1, o.C, o.H, o.W]) (i : Nat) : (exportOutput ⟨op, act⟩ i).2 = d := by
  cases h with
  | flatten s d => simp at h4
  | activation n f => exact absurd rfl (hact n f)
  | gemm => simp at h4
  | conv => rfl
  | maxPool => rfl
  | avgPool => rfl
  | batchNorm => rfl
  | softmax s f hone =>
    simp only [exportOutput, hone]
    rfl
  | softmaxRow => simp at h4
  | transpose => rfl
  | constantPad => rfl
  | pad => rfl
  | two b op hb' o s1 s2 f a => exact (hb _ _ _ _ _ rfl).symm
  | one b op hb' o s1 f a => exact (hb _ _ _ _ _ rfl).symm
  | cst b op hb' hne o s1 k f a => exact (hb _ _ _ _ _ rfl).symm
  | concat => rfl

/-- the types of attributes (`onnx.AttributeProto.AttributeType`) -/
inductive Kind
  | int | ints | float | str | tensor
  deriving DecidableEq

def kindOf : Attr → Kind
  | .int _ => .int
  | .ints _ => .ints
  | .float _ => .float
  | .str _ => .str
  | .tensor .. => .tensor

/-- the type ONNX requires for an attribute of an operator (operator set 18) -/
def schema : OpType → String → Option Kind
  | .LeakyRelu, "alpha" => some .float
  | .BatchNormalization, "epsilon" => some .float
  | .Gemm, "alpha" => some .float
  | .Gemm, "beta" => some .float
  | .Gemm, "transA" => some .int
  | .Gemm, "transB" => some .int
  | .Conv, "kernel_shape" => some .ints
  | .Conv, "pads" => some .ints
  | .Conv, "strides" => some .ints
  | .Conv, "dilations" => some .ints
  | .Conv, "group" => some .int
  | .MaxPool, "kernel_shape" => some .ints
  | .MaxPool, "pads" => some .ints
  | .MaxPool, "strides" => some .ints
  | .AveragePool, "kernel_shape" => some .ints
  | .AveragePool, "pads" => some .ints
  | .AveragePool, "strides" => some .ints
  | .Flatten, "axis" => some .int
  | .Softmax, "axis" => some .int
  | .Concat, "axis" => some .int
  | .Gather, "axis" => some .int
  | .GatherElements, "axis" => some .int
  | .Transpose, "perm" => some .ints
  | .Pad, "mode" => some .str
  | .ReduceSum, "keepdims" => some .int
  | .ReduceSum, "noop_with_empty_axes" => some .int
  | .ReduceProd, "keepdims" => some .int
  | .ReduceProd, "noop_with_empty_axes" => some .int
  | .ReduceMean, "keepdims" => some .int
  | .ReduceMean, "noop_with_empty_axes" => some .int
  | .ReduceMax, "keepdims" => some .int
  | .ReduceMax, "noop_with_empty_axes" => some .int
  | .ReduceMin, "keepdims" => some .int
  | .ReduceMin, "noop_with_empty_axes" => some .int
  | _, _ => none

/-- every attribute of the node has the required type -/
def Typed (n : Onnx.Node) : Prop := ∀ e ∈ n.attrs, schema n.op e.1 = some (kindOf e.2)

/-- **C70** The attributes of every exported node have the types ONNX requires, unless a factor of a Gemm layer is 1 (`C70_factor_one`). -/
theorem C70_attributes_typed {L : XLayer} {i : Nat} {ins : List String} {pcs : List Piece} (h : exportLayer L i ins = some pcs)
    (hg : ∀ tA tB m n kd alpha beta w c f, L.op = .gemm tA tB m n kd alpha beta w c f → alpha ≠ 1 ∧ beta ≠ 1) : ∀ p ∈ pcs, Typed p.1 := by
  unfold exportLayer at h
  obtain ⟨q, hq, h⟩ := Option.bind_eq_some_iff.mp h
  have h' := Option.some.inj h
  intro p hp0
  rw [← h'] at hp0
  clear h h'
  rcases List.mem_append.mp hp0 with hp | hp <;> clear hp0
  · obtain ⟨op, act⟩ := L
    cases q with
    | none => simp at hp
    | some q =>
      simp only [Option.toList_some, List.mem_singleton] at hp
      subst hp
      unfold exportNode at hq
      cases op with
      | gemm tA tB m n kd alpha beta w c f =>
        obtain ⟨h1, h2⟩ := hg _ _ _ _ _ _ _ _ _ _ rfl
        cases hq
        simp [Typed, factorAttr, h1, h2, kindOf, schema]
      | activation n f =>
        cases act <;> simp at hq <;> cases hq <;> simp [Typed]
      | reduce fn c k f => cases hq; cases fn <;> simp [Typed, kindOf, schema]
      | _ => first | (cases hq; done) | (cases hq; simp [Typed, kindOf, schema])
  · split at hp
    · unfold exportAct at hp
      cases hact : L.act <;> rw [hact] at hp <;> simp at hp <;> subst hp <;> simp [Typed, kindOf, schema]
    · simp at hp

/-- **C70** A factor equal to 1 is written as an integer: the attribute does not have the type ONNX requires. -/
theorem C70_factor_one (tA tB : Bool) (m n kd : Nat) (beta : ℝ) (w : Nat → Nat → ℝ) (c : Nat → ℝ) (f : ℝ → ℝ) (a : Act ℝ) (i : Nat) (ins : List String) :
    ∃ p, exportNode ⟨.gemm tA tB m n kd 1 beta w c f, a⟩ i ins = some (some p) ∧ ¬ Typed p.1 := by
  refine ⟨_, rfl, fun h => ?_⟩
  have := h ("alpha", factorAttr 1) (by simp)
  simp [factorAttr, kindOf, schema] at this

end Verif.Export

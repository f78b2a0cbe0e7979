import Verif.Onnx.Examples
import Verif.Onnx.Generated
namespace Verif.Onnx
open Net Layers Graph CText
open scoped Classical

variable (p q : ℝ)

/-- the layers and links of the example -/
theorem ex_layers {net : Network ℝ} (h : importNet (exModel p q) = some net) :
    net = LinkState.net ⟨[.input true ⟨1, 1, 2⟩, .broadcast .add ⟨1, 1, 2⟩ [⟨1, 1, 2⟩, ⟨1, 1, 2⟩] none id, .activation 2 (Act.compute .relu),
      .broadcast .mul ⟨1, 1, 2⟩ [⟨1, 1, 2⟩, ⟨1, 1, 2⟩] none id, .constant ⟨[1, 1, 1, 2], [p, q]⟩], fun _ => none, [(0, 1), (4, 1), (1, 2), (2, 3), (1, 3)]⟩ := by
  have hsh : ∀ s, s = "x" ∨ s = "y" ∨ s = "a" ∨ s = "r" ∨ s = "d" → (exModel p q).shape s = [1, 1, 1, 2] := by
    intro s hs; rw [Model.shape, ex_raw p q s hs]; simp [extend4]
  have hraw := ex_raw p q
  have hi : ∀ s, s = "x" ∨ s = "y" ∨ s = "a" ∨ s = "r" ∨ s = "d" → (exModel p q).init? s = none := by
    rintro s (rfl | rfl | rfl | rfl | rfl) <;> simp [Model.init?, exModel]
  have hk : (exModel p q).init? "k" = some ⟨"k", [1, 1, 1, 2], .floats [p, q]⟩ := by simp [Model.init?, exModel]
  have c1 : create (exModel p q) ⟨.Add, ["x", "k"], ["a"], []⟩ = some (.broadcast .add ⟨1, 1, 2⟩ [⟨1, 1, 2⟩, ⟨1, 1, 2⟩] none id, ["x", "k"]) := by
    simp [create, createAdd, Node.output?, hsh, batch1, Model.collect, hi, hk, hraw, pad4, padTo, Init.array, Payload.reals, prod]
  have c2 : create (exModel p q) ⟨.Relu, ["a"], ["r"], []⟩ = some (.activation 2 (Act.compute .relu), ["a"]) := by
    simp [create, createActivation, Node.output?, Node.input?, activation, hsh, findSize]
  have c3 : create (exModel p q) ⟨.Mul, ["d", "a"], ["y"], []⟩ = some (.broadcast .mul ⟨1, 1, 2⟩ [⟨1, 1, 2⟩, ⟨1, 1, 2⟩] none id, ["d", "a"]) := by
    simp [create, createBin, Node.output?, Node.input?, hsh, batch1, foldInit, hi, mk, indices, List.range_succ]
  have hn : (exModel p q).nodes = [⟨.Add, ["x", "k"], ["a"], []⟩, ⟨.Relu, ["a"], ["r"], []⟩, ⟨.Dropout, ["r"], ["d"], []⟩, ⟨.Mul, ["d", "a"], ["y"], []⟩] := rfl
  have hin : (exModel p q).inputs = [("x", [1, 1, 1, 2])] := rfl
  have hii : ∀ s, initDict (exModel p q) s = if "k" = s then some ⟨"k", [1, 1, 1, 2], .floats [p, q]⟩ else none := by
    intro s; simp [initDict, exModel]
  unfold importNet at h
  rw [hn] at h
  simp [step, OpType.isBypass, start, c1, c2, c3, Node.output?, Node.input?, setOut, hin, linkAll, linkName, hii, Init.array, Payload.reals, prod, inputOp, findSize] at h
  rw [← h]
  rfl

/-- **C61** The network of the example meets the conditions on the generated code. -/
theorem C61_generable_example {net : Network ℝ} (h : importNet (exModel p q) = some net) : Generable net := by
  rw [ex_layers p q h]
  have hg : (LinkState.net ⟨[.input true ⟨1, 1, 2⟩, .broadcast .add ⟨1, 1, 2⟩ [⟨1, 1, 2⟩, ⟨1, 1, 2⟩] none id, .activation 2 (Act.compute .relu),
      .broadcast .mul ⟨1, 1, 2⟩ [⟨1, 1, 2⟩, ⟨1, 1, 2⟩] none id, .constant ⟨[1, 1, 1, 2], [p, q]⟩], fun _ => none, [(0, 1), (4, 1), (1, 2), (2, 3), (1, 3)]⟩).graph =
    [⟨0, [], [1], false⟩, ⟨1, [0, 4], [2, 3], false⟩, ⟨2, [1], [3], false⟩, ⟨3, [2, 1], [], false⟩, ⟨4, [], [1], true⟩] := by
    simp [LinkState.net, LinkState.graph, List.range_succ, isConstant]
  constructor
  · intro l hl
    rw [hg] at hl
    simp only [List.mem_cons, List.not_mem_nil, or_false] at hl
    rcases hl with rfl | rfl | rfl | rfl | rfl <;> simp
  · intro l hl
    rw [hg] at hl
    simp only [List.mem_cons, List.not_mem_nil, or_false] at hl
    rcases hl with rfl | rfl | rfl | rfl | rfl <;> simp [LinkState.net, Op.OK]
  · intro l hl
    rw [hg] at hl
    simp only [List.mem_cons, List.not_mem_nil, or_false] at hl
    rcases hl with rfl | rfl | rfl | rfl | rfl <;> simp [LinkState.net, Op.inSizes, Op.size, Op.chans, Shape.size]
  · intro l hl hn
    rw [hg] at hl
    simp only [List.mem_cons, List.not_mem_nil, or_false] at hl
    rcases hl with rfl | rfl | rfl | rfl | rfl <;> simp [LinkState.net, Op.NeedsOwn] at hn

end Verif.Onnx

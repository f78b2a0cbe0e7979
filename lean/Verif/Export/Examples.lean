import Verif.Export.Typed
import Verif.Net.Examples

/-!
# A network that meets the hypotheses of C70
-/

namespace Verif.Export
open Net Layers Graph
open Onnx (prod)
open scoped Classical

/-! Input of one channel, four rows and four columns; `add = relu(conv(x)) + x`; max pooling; Flatten; Gemm with a sigmoid; Softmax. -/

/-- the graph -/
def exGraph : Dnn :=
  [⟨0, [], [1, 2], false⟩, ⟨1, [0], [2], false⟩, ⟨2, [1, 0], [3], false⟩, ⟨3, [2], [4], false⟩, ⟨4, [3], [5], false⟩, ⟨5, [4], [6], false⟩, ⟨6, [5], [], false⟩]

/-- a 3×3 convolution with padding 1 -/
def exConv : ConvP := ⟨1, 1, 4, 4, 4, 4, 3, 3, 1, 1, 1, 1, 1, 1⟩

/-- a 2×2 pooling -/
def exPool : PoolP := ⟨1, 4, 4, 2, 2, 2, 2, 0, 0, 0, 0⟩

/-- the weights are arbitrary -/
def exNet (wt : Nat → Nat → Nat → Nat → ℝ) (b : Nat → ℝ) (w : Nat → Nat → ℝ) (c : Nat → ℝ) : XNet where
  graph := exGraph
  fmt := .first
  layer := fun
    | 0 => ⟨.input true ⟨1, 4, 4⟩, .linear⟩
    | 1 => ⟨.conv .loops6 exConv wt b id, .relu⟩
    | 2 => ⟨.broadcast .add ⟨1, 4, 4⟩ [⟨1, 4, 4⟩, ⟨1, 4, 4⟩] none id, .linear⟩
    | 3 => ⟨.maxPool exPool id, .linear⟩
    | 4 => ⟨.flatten ⟨1, 2, 2⟩, .linear⟩
    | 5 => ⟨.gemm false true 1 3 4 2 1 w c id, .sigmoid⟩
    | _ => ⟨.softmax ⟨3, 1, 1⟩ none id, .linear⟩

/-- the dimensions of the tensors -/
def exDims : Nat → List Nat
  | 0 | 1 | 2 => [1, 1, 4, 4]
  | 3 => [1, 1, 2, 2]
  | 4 => [1, 4]
  | _ => [1, 3]

variable (wt : Nat → Nat → Nat → Nat → ℝ) (b : Nat → ℝ) (w : Nat → Nat → ℝ) (c : Nat → ℝ)

theorem exNet_supported {order : List Nat} (ho : order = [0, 1, 2, 3, 4, 5, 6]) : Supported (exNet wt b w c) order 0 exDims := by
  subst ho
  refine ⟨rfl, by decide, rfl, ⟨true, ⟨1, 4, 4⟩, rfl, rfl⟩, ?_⟩
  intro n hn h0
  simp only [List.mem_cons, List.not_mem_nil, or_false] at hn
  rcases hn with rfl | rfl | rfl | rfl | rfl | rfl | rfl
  · exact absurd rfl h0
  · exact ⟨List.cons_ne_nil _ _, .conv _ exConv _ _ _ .relu ⟨trivial, fun h => by cases h⟩ (by unfold ConvP.Accepted exConv; decide) rfl (by decide) rfl⟩
  · exact ⟨List.cons_ne_nil _ _, .two .add (· + ·) rfl _ _ _ _ .linear ⟨trivial, fun h => by cases h⟩ _ _ rfl rfl rfl⟩
  · exact ⟨List.cons_ne_nil _ _, .maxPool exPool _ (by unfold PoolP.Accepted exPool; decide) (by decide) (by decide)⟩
  · exact ⟨List.cons_ne_nil _ _, .flatten _ _⟩
  · exact ⟨List.cons_ne_nil _ _, .gemm false true 1 3 4 2 1 w c _ .sigmoid ⟨trivial, fun h => by cases h⟩⟩
  · exact ⟨List.cons_ne_nil _ _, .softmaxRow ⟨3, 1, 1⟩ none _ (by decide)⟩

/-- **C70** An example: the exported model computes what the interpreter computes, for all weights and all inputs. -/
theorem C70_example {M : CMath ℝ} (hexp : M.exp = Real.exp) (hsqrt : M.sqrt = Real.sqrt) : ∃ plan m, triTopo (exNet wt b w c).graph = some plan ∧
    plan.order = [0, 1, 2, 3, 4, 5, 6] ∧ exporter "onnx" (exNet wt b w c) 18 plan.order = some m ∧ m.inputs = [("Input_layer_0", [1, 1, 4, 4])] ∧
    "Softmax_6" ∈ m.outputs.map Prod.fst ∧
    ∀ x : Nd ℝ, x.dims = [1, 1, 4, 4] → x.Ok → ∃ E y, Onnx.Spec.eval m "Input_layer_0" x = some E ∧ (exNet wt b w c).network.reference M plan x = some y ∧
      E "Softmax_6" = some ⟨[1, 3], y⟩ := by
  have hp : ∃ plan, triTopo (exNet wt b w c).graph = some plan ∧ plan.order = [0, 1, 2, 3, 4, 5, 6] := by
    have h : (triTopo exGraph).map Plan.order = some [0, 1, 2, 3, 4, 5, 6] := by decide +kernel
    obtain ⟨plan, h1, h2⟩ := Option.map_eq_some_iff.mp h
    exact ⟨plan, h1, h2⟩
  obtain ⟨plan, h1, h2⟩ := hp
  obtain ⟨m, last, h3, h4, h5, h6, h7⟩ := C70_export_correct_partial (net := exNet wt b w c) (opset := 18) hexp hsqrt (by decide) (show UniqueIdx exGraph by decide) (show Consistent exGraph by decide) h1
    (exNet_supported wt b w c h2)
  rw [h2] at h5
  simp at h5
  subst h5
  have e0 : ((exNet wt b w c).layer 0).tensor 0 = "Input_layer_0" := rfl
  have e6 : ((exNet wt b w c).layer 6).tensor 6 = "Softmax_6" := rfl
  rw [e0] at h4 h7
  rw [e6] at h6 h7
  exact ⟨plan, m, h1, h2, h3, h4, h6, h7⟩

/-- the hypotheses of `C70_output_declared` hold for the pooling layer -/
example : (exportOutput ((exNet wt b w c).layer 3) 3).2 = [1, 1, 2, 2] :=
  C70_output_declared ((exNet_supported wt b w c rfl).other 3 (by decide) (by decide)).2 rfl (by intro n f h; cases h) (by intro _ _ _ _ _ h; cases h) 3

/-- the attributes of the convolution of the example have the required types -/
example (pcs : List Piece) (h : exportLayer ((exNet wt b w c).layer 1) 1 ["x"] = some pcs) : ∀ p ∈ pcs, Typed p.1 :=
  C70_attributes_typed h (by intro _ _ _ _ _ _ _ _ _ _ h; cases h)

/-- a reflecting Pad followed by a Relu is covered, and its node pads 3 × 3 images to 5 × 6 -/
example (f : ℝ → ℝ) : Exports (.pad .reflect ⟨2, 3, 3⟩ ⟨0, 0, 1, 1, 2, 1⟩ f) .relu [[1, 2, 3, 3]] [1, 2, 5, 6] := .pad _ ⟨2, 3, 3⟩ _ _ _ ⟨trivial, by simp⟩ (by decide)

end Verif.Export

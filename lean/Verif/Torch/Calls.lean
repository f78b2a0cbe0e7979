import Verif.Torch.Moves

/-!
# The calls of the specification and of the importer, target by target
-/

namespace Verif.Torch
open Net Graph CText
open scoped Classical

variable {M : CMath ℝ} {p : Program} {x : Nd ℝ} {done : List Node} {n : Node} {E : Spec.Env} {st : State} {vals : List (List ℝ)}

theorem call_linear (a w b : Nd ℝ) : Spec.call "linear.default" [.t a, .t w, .t b] [] = Spec.linear a w (some b) := by
  simp [Spec.call, Spec.arg, Spec.Val.tensor?, Spec.Val.opt?]
theorem call_relu (a : Nd ℝ) {t : String} (h : t = "relu.default" ∨ t = "relu_.default") : Spec.call t [.t a] [] = some (Onnx.Spec.unary (fun v => max v 0) a) := by
  rcases h with rfl | rfl <;> simp [Spec.call, Spec.arg, Spec.Val.tensor?]
theorem call_bn (a w b rm rv : Nd ℝ) (mom eps : ℝ) (c : Bool) : Spec.call "batch_norm.default" [.t a, .t w, .t b, .t rm, .t rv, .bool false, .num mom, .num eps, .bool c] [] =
    Spec.batchNorm a w b rm rv eps := by
  simp [Spec.call, Spec.arg, Spec.Val.tensor?, Spec.Val.bool?, Spec.Val.number?]
theorem call_add (a b : Nd ℝ) : Spec.call "add.Tensor" [.t a, .t b] [] = Onnx.bcast (fun u v => u + 1 * v) a b := by
  simp [Spec.call, Spec.arg, Spec.Val.tensor?]
theorem call_cat (xs : List (Nd ℝ)) (axis : Int) : Spec.call "cat.default" [.ts xs, .int axis] [] = Spec.cat axis xs := by
  simp [Spec.call, Spec.arg, Spec.Val.int?]
theorem call_dropout (a : Nd ℝ) (r : ℝ) : Spec.call "dropout.default" [.t a, .num r, .bool false] [] = some a := by
  simp [Spec.call, Spec.arg, Spec.Val.tensor?, Spec.Val.bool?]
theorem call_maxPool (a : Nd ℝ) (k s : Nat) : Spec.call "max_pool2d.default" [.t a, .ints [k, k], .ints [s, s]] [] =
    Spec.maxPool a (k, k) (s, s) (0, 0) (1, 1) := by
  simp [Spec.call, Spec.arg, Spec.Val.tensor?, Spec.Val.bool?, Spec.Val.pair?]
theorem call_avgPool (a : Nd ℝ) : Spec.call "adaptive_avg_pool2d.default" [.t a, .ints [1, 1]] [] = Spec.adaptiveAvgPool a 1 1 := by
  simp [Spec.call, Spec.arg, Spec.Val.tensor?, Spec.Val.pair?]

end Verif.Torch

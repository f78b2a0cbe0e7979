import Verif.CText.Source
import Verif.Net.Examples
import Mathlib.Analysis.SpecialFunctions.Sqrt

/-!
# C54, C55: the hypotheses can be met; the activation functions of the texts over the real numbers
-/

namespace Verif.CText
open Prog Layers Net

/-! ## A network with a convolution, a skip connection, Flatten and Dense -/

/-- the text that the generator writes for each layer of `resNet` -/
def resTexts (plan : Graph.Plan) : Texts ℚ where
  text := fun
    | 0 => Tpl.input_Layer
    | 1 => Tpl.conv_std_gemm
    | 2 => Tpl.broadcast
    | 3 => Tpl.flatten
    | _ => Tpl.dense
  hash := fun
    | 0 => inputHash .last .first true 2 3 3 18 0 (plan.path 0)
    | 1 => stdGemmHash resConv 18 1 .relu (srcRef plan 0) (plan.path 1)
    | 2 => bcHash .add 2 3 3 18 2 .linear ⟨srcRef plan 1, 2, 3, 3⟩ [⟨srcRef plan 0, 2, 3, 3⟩] none (plan.path 2)
    | 3 => flattenHash .last 2 3 3 18 3 (plan.path 3)
    | _ => denseHash 2 18 4 .linear (srcRef plan 3) (plan.path 4)

theorem resTexts_of (L : Lib ℚ) (plan : Graph.Plan) (h : plan.order = [0, 1, 2, 3, 4]) : (resTexts plan).Of L resNet plan := by
  have hrelu : (fun v : ℚ => max v 0) = CAct.relu.fn (std L) := by
    funext v
    simp only [CAct.fn]
    split
    · exact max_eq_left (le_of_lt ‹_›)
    · exact max_eq_right (not_lt.1 ‹_›)
  intro n hn
  rw [h] at hn
  simp only [List.mem_cons, List.not_mem_nil, or_false] at hn
  rcases hn with rfl | rfl | rfl | rfl | rfl
  · exact Emits.input true ⟨2, 3, 3⟩
  · show Emits L .last 1 (plan.path 1) (.conv .stdGemm resConv (fun f p h w => f + 2 * p - h * w) (fun f => f) (fun v => max v 0)) [srcRef plan 0] _ _
    rw [hrelu]
    exact Emits.stdGemm resConv _ _ .relu (srcRef plan 0)
  · exact Emits.broadcast .add ⟨2, 3, 3⟩ ⟨2, 3, 3⟩ [⟨2, 3, 3⟩] none .linear (srcRef plan 1) [srcRef plan 0]
  · exact Emits.flatten ⟨2, 3, 3⟩ (srcRef plan 2)
  · exact Emits.dense 18 2 _ _ .linear (srcRef plan 3)

/-- All the hypotheses of C54 and C55 hold for this network, on every input of eighteen numbers, with any library. -/
example (L : Lib ℚ) (x : List ℚ) (hx : x.length = 18) :
    ∃ plan m y ts nOut nIn ds s m', Graph.triTopo resNet.graph = some plan ∧ resNet.Memory plan x m ∧ resNet.reference L.cmath plan ⟨[18], x⟩ = some y ∧
      sourceText (resTexts plan) resNet plan = some ts ∧ IsInference ts nOut nIn ds s ∧ Declared ds s ∧ Runs L ds s m m' ∧ Holds m' .pred y := by
  have hp : ∃ plan, Graph.triTopo resNet.graph = some plan ∧ plan.order = [0, 1, 2, 3, 4] := ⟨_, rfl, by decide⟩
  obtain ⟨plan, h1, h2⟩ := hp
  obtain ⟨m, hm⟩ := C52_memory_exists resNet resNet_wf.unique resNet_wf.consistent plan h1 x
  obtain ⟨y, ts, nOut, nIn, ds, s, m', h3, h4, h5, h6, h7, h8, _⟩ := C55_text_end_to_end_partial (resTexts plan) L resNet resNet_wf plan h1 (resTexts_of L plan h2)
    (by
      intro n hn
      rw [h2] at hn
      simp only [List.mem_cons, List.not_mem_nil, or_false] at hn
      rcases hn with rfl | rfl | rfl | rfl | rfl <;> try trivial
      refine ⟨fun s hs => ?_, fun c hc => by cases hc⟩
      simp only [List.mem_cons, List.not_mem_nil, or_false, or_self] at hs
      subst hs
      exact ⟨by decide, by decide, by decide⟩)
    ⟨[18], x⟩ m
    (by
      intro l hl r s e
      simp only [resNet, resGraph, List.mem_cons, List.not_mem_nil, or_false] at hl
      rcases hl with rfl | rfl | rfl | rfl | rfl <;> simp [resNet] at e
      rw [← e.2]; simp [Shape.size, hx])
    hm
    (by
      intro f x' _ _ n ins hr
      obtain ⟨pre, post, st, he, _⟩ := hr
      have hn : n ∈ [0, 1, 2, 3, 4] := by rw [← h2, he]; simp
      simp only [List.mem_cons, List.not_mem_nil, or_false] at hn
      rcases hn with rfl | rfl | rfl | rfl | rfl <;> trivial)
    (by
      intro _ n hn
      rw [h2] at hn
      simp at hn
      subst hn; exact .inl rfl)
  exact ⟨plan, m, y, ts, nOut, nIn, ds, s, m', h1, hm, h3, h4, h5, h6, h7, h8⟩

/-- the declarations of this network: the convolution and the dense layer need variables -/
example (plan : Graph.Plan) (h : plan.order = [0, 1, 2, 3, 4]) : (localDcls resNet plan).map Dcl.name =
    [nm .f, nm .i, nm .j, nm .k, nm .p, nm .h, nm .w, nm .dotproduct] := by
  unfold localDcls
  rw [h]
  rfl

/-! ## The activation functions over the real numbers -/

/-- the library with the real functions -/
noncomputable def realLib (inf : ℝ) : Lib ℝ := ⟨Real.exp, Real.log, Real.sqrt, inf⟩

/-- the attributes of the Python class -/
noncomputable def CAct.py : CAct ℝ → Act ℝ
  | .sigmoid => .sigmoid
  | .silu => .silu
  | .relu => .relu
  | .leakyRelu a => .leakyRelu a.val
  | .tanh => .tanh
  | .linear => .linear
  | .exponential => .exponential
  | .logarithm => .logarithm
  | .clip a b => .clip a.val b.val

/-- Over the real numbers, with the C library computing the real functions, the text of an activation function that the
constructor accepts computes what `compute` does, at every point. -/
theorem C54_activation_compute (inf : ℝ) (act : CAct ℝ) (h : act.py.accepted) : act.fn (std (realLib inf)) = act.py.compute := by
  funext z
  cases act with
  | relu =>
    simp only [CAct.fn, CAct.py, Act.compute]
    split
    · exact (max_eq_right (le_of_lt ‹_›)).symm
    · exact (max_eq_left (not_lt.1 ‹_›)).symm
  | leakyRelu a =>
    simp only [CAct.fn, CAct.py, Act.compute]
    rcases lt_trichotomy z 0 with hz | hz | hz
    · rw [if_neg (not_lt.2 hz.le), if_pos hz]
    · subst hz; simp
    · rw [if_pos hz, if_neg (not_lt.2 hz.le)]
  | clip a b =>
    simp only [CAct.fn, CAct.py, Act.compute]
    have hab : b.val ≤ a.val := h
    split
    · rename_i h1
      rw [max_eq_left (hab.trans h1.le), min_eq_right h1.le]
    · rename_i h1
      split
      · rename_i h2
        rw [max_eq_right h2.le, min_eq_left hab]
      · rename_i h2
        rw [max_eq_left (not_lt.1 h2), min_eq_left (not_lt.1 h1)]
  | sigmoid =>
    simp only [CAct.fn, CAct.py, Act.compute, std, realLib]
  | silu => rfl
  | tanh => simp only [CAct.fn, CAct.py, Act.compute, std, realLib]
  | linear => rfl
  | exponential => rfl
  | logarithm => rfl

end Verif.CText

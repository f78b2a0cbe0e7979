import Verif.Torch.Program
import Verif.Keras.Examples

/-!
# A PyTorch program that meets the hypotheses
-/

namespace Verif.Torch
open Net Layers Graph CText
open Onnx (prod indices mk ravel realDbl exact_real)
open scoped Classical

/-! `relu(batch_norm(conv2d(x))) + x`, flattened, then a linear layer, on images of one row and two columns. -/

variable (p g h u v : ℝ)

/-- the kernel is `p`, the scale of the normalisation `g`, its bias `h` -/
noncomputable def resProgram : Program where
  nodes := [
    ⟨"w", [1, 1, 1, 1], .getAttr ⟨[1, 1, 1, 1], [p]⟩⟩,
    ⟨"g", [1], .getAttr ⟨[1], [g]⟩⟩,
    ⟨"h", [1], .getAttr ⟨[1], [h]⟩⟩,
    ⟨"m", [1], .getAttr ⟨[1], [0]⟩⟩,
    ⟨"s", [1], .getAttr ⟨[1], [1]⟩⟩,
    ⟨"l", [1, 2], .getAttr ⟨[1, 2], [1, 1]⟩⟩,
    ⟨"b", [1], .getAttr ⟨[1], [0]⟩⟩,
    ⟨"x", [1, 1, 1, 2], .placeholder false⟩,
    ⟨"conv2d", [1, 1, 1, 2], .call "conv2d.default" [.node "x", .node "w", .absent] []⟩,
    ⟨"batch_norm", [1, 1, 1, 2], .call "batch_norm.default" [.node "conv2d", .node "g", .node "h", .node "m", .node "s", .bool false, .num 0, .num 0, .bool true] []⟩,
    ⟨"relu", [1, 1, 1, 2], .call "relu.default" [.node "batch_norm"] []⟩,
    ⟨"add", [1, 1, 1, 2], .call "add.Tensor" [.node "relu", .node "x"] []⟩,
    ⟨"flatten", [1, 2], .call "flatten.using_ints" [.node "add", .int 1] []⟩,
    ⟨"linear", [1, 1], .call "linear.default" [.node "flatten", .node "l", .node "b"] []⟩,
    ⟨"output", [], .output "linear"⟩]

/-- its input -/
def resX : Nd ℝ := ⟨[1, 1, 1, 2], [u, v]⟩

/-- the value of a branch -/
noncomputable def resAt (t : ℝ) : ℝ := max (t * p * g + h) 0 + t

/-- its output -/
noncomputable def resY : Nd ℝ := ⟨[1, 1], [resAt p g h u + resAt p g h v]⟩

/-- the values of the nodes -/
noncomputable def resEnv : Spec.Env := List.foldl (fun (E : Spec.Env) e => E.set e.1 e.2) (fun _ => none)
  [("w", ⟨[1, 1, 1, 1], [p]⟩), ("g", ⟨[1], [g]⟩), ("h", ⟨[1], [h]⟩), ("m", ⟨[1], [0]⟩), ("s", ⟨[1], [1]⟩), ("l", ⟨[1, 2], [1, 1]⟩), ("b", ⟨[1], [0]⟩),
    ("x", resX u v), ("conv2d", ⟨[1, 1, 1, 2], [u * p, v * p]⟩), ("batch_norm", ⟨[1, 1, 1, 2], [u * p * g + h, v * p * g + h]⟩),
    ("relu", ⟨[1, 1, 1, 2], [max (u * p * g + h) 0, max (v * p * g + h) 0]⟩), ("add", ⟨[1, 1, 1, 2], [resAt p g h u, resAt p g h v]⟩),
    ("flatten", ⟨[1, 2], [resAt p g h u, resAt p g h v]⟩), ("linear", resY p g h u v)]

theorem res_conv : Spec.conv2d (resX u v) ⟨[1, 1, 1, 1], [p]⟩ none (1, 1) (0, 0) (1, 1) = some ⟨[1, 1, 1, 2], [u * p, v * p]⟩ := by
  have hi : Onnx.indices [1, 1, 1, 2] = [[0, 0, 0, 0], [0, 0, 0, 1]] := rfl
  simp [Spec.conv2d, resX, Onnx.Spec.Window.Fits, Onnx.Spec.Window.out, mk, hi, Spec.convAt, Onnx.Spec.Window.pos, Nd.get, ravel, prod, Spec.biasAt, Onnx.Spec.Window.span]

theorem res_norm : Spec.batchNorm ⟨[1, 1, 1, 2], [u * p, v * p]⟩ ⟨[1], [g]⟩ ⟨[1], [h]⟩ ⟨[1], [0]⟩ ⟨[1], [1]⟩ 0 =
    some ⟨[1, 1, 1, 2], [u * p * g + h, v * p * g + h]⟩ := by
  have hi : Onnx.indices [1, 1, 1, 2] = [[0, 0, 0, 0], [0, 0, 0, 1]] := rfl
  simp [Spec.batchNorm, mk, hi, Nd.get, ravel, prod]

theorem res_add : Onnx.bcast (fun a b => a + 1 * b) ⟨[1, 1, 1, 2], [max (u * p * g + h) 0, max (v * p * g + h) 0]⟩ (resX u v) =
    some ⟨[1, 1, 1, 2], [resAt p g h u, resAt p g h v]⟩ := by
  have hi : Onnx.indices [1, 1, 1, 2] = [[0, 0, 0, 0], [0, 0, 0, 1]] := rfl
  have hb : Onnx.bshape [1, 1, 1, 2] [1, 1, 1, 2] = some [1, 1, 1, 2] := rfl
  have hq : Onnx.padTo 4 [1, 1, 1, 2] = [1, 1, 1, 2] := rfl
  have h0 : Onnx.mask [1, 1, 1, 2] [0, 0, 0, 0] = [0, 0, 0, 0] := rfl
  have h1 : Onnx.mask [1, 1, 1, 2] [0, 0, 0, 1] = [0, 0, 0, 1] := rfl
  simp [Onnx.bcast, hb, resX, mk, hi, Nd.bget, Onnx.cut, Nd.get, ravel, prod, resAt, hq, h0, h1]

theorem res_flatten (a b : ℝ) : Spec.flatten 1 (-1) ⟨[1, 1, 1, 2], [a, b]⟩ = some ⟨[1, 2], [a, b]⟩ := by
  simp [Spec.flatten, Onnx.Spec.axis?, prod]

theorem res_linear (a b : ℝ) : Spec.linear ⟨[1, 2], [a, b]⟩ ⟨[1, 2], [1, 1]⟩ (some ⟨[1], [0]⟩) = some ⟨[1, 1], [a + b]⟩ := by
  have hi : Onnx.indices [1, 1] = [[0, 0]] := rfl
  simp [Spec.linear, mk, hi, Nd.get, ravel, prod, Finset.sum_range_succ, Spec.biasAt]

theorem step_call {x : Nd ℝ} {E : Spec.Env} {n : Node} {t : String} {args : List Arg} {vs : List Spec.Val} {y : Nd ℝ} (hk : n.kind = .call t args [])
    (hv : args.mapM (Spec.value E) = some vs) (hy : Spec.call t vs [] = some y) : Spec.step x E n = some (E.set n.name y) := by
  unfold Spec.step
  rw [hk]
  simp [hv, hy]
  rfl

theorem res_eval : Spec.eval (resProgram p g h) (resX u v) = some (resEnv p g h u v) := by
  have hg : ∀ (x : Nd ℝ) (E : Spec.Env) (s : String) (d : List Nat) (v : Nd ℝ), Spec.step x E ⟨s, d, .getAttr v⟩ = some (E.set s v) := fun _ _ _ _ _ => rfl
  have hp : ∀ (x : Nd ℝ) (E : Spec.Env) (s : String) (d : List Nat), Spec.step x E ⟨s, d, .placeholder false⟩ = some (E.set s x) := fun _ _ _ _ => rfl
  have ho : ∀ (x : Nd ℝ) (E : Spec.Env) (s o : String) (d : List Nat), Spec.step x E ⟨s, d, .output o⟩ = some E := fun _ _ _ _ _ => rfl
  simp only [Spec.eval, resProgram, List.foldlM_cons, List.foldlM_nil, hg, hp, ho, Option.bind_eq_bind, Option.bind_some]
  rw [step_call rfl (vs := [.t (resX u v), .t ⟨[1, 1, 1, 1], [p]⟩, .absent]) (y := ⟨[1, 1, 1, 2], [u * p, v * p]⟩)
    (by simp [Spec.value, Spec.Env.set]) (by simp [Spec.call, Spec.arg, Spec.Val.tensor?, Spec.Val.opt?, Spec.Val.pair?, Spec.Val.int?, res_conv]), Option.bind_some]
  rw [step_call rfl (vs := [.t ⟨[1, 1, 1, 2], [u * p, v * p]⟩, .t ⟨[1], [g]⟩, .t ⟨[1], [h]⟩, .t ⟨[1], [0]⟩, .t ⟨[1], [1]⟩, .bool false, .num 0, .num 0, .bool true])
    (by simp [Spec.value, Spec.Env.set]) (by rw [call_bn]; exact res_norm p g h u v), Option.bind_some]
  rw [step_call rfl (vs := [.t ⟨[1, 1, 1, 2], [u * p * g + h, v * p * g + h]⟩]) (y := ⟨[1, 1, 1, 2], [max (u * p * g + h) 0, max (v * p * g + h) 0]⟩)
    (by simp [Spec.value, Spec.Env.set]) (by rw [call_relu _ (.inl rfl)]; rfl), Option.bind_some]
  rw [step_call rfl (vs := [.t ⟨[1, 1, 1, 2], [max (u * p * g + h) 0, max (v * p * g + h) 0]⟩, .t (resX u v)])
    (by simp [Spec.value, Spec.Env.set]) (by rw [call_add]; exact res_add p g h u v), Option.bind_some]
  rw [step_call rfl (vs := [.t ⟨[1, 1, 1, 2], [resAt p g h u, resAt p g h v]⟩, .int 1]) (y := ⟨[1, 2], [resAt p g h u, resAt p g h v]⟩)
    (by simp [Spec.value, Spec.Env.set]) (by simp [Spec.call, Spec.arg, Spec.Val.tensor?, Spec.Val.int?, res_flatten]), Option.bind_some]
  rw [step_call rfl (vs := [.t ⟨[1, 2], [resAt p g h u, resAt p g h v]⟩, .t ⟨[1, 2], [1, 1]⟩, .t ⟨[1], [0]⟩]) (y := resY p g h u v)
    (by simp [Spec.value, Spec.Env.set]) (by rw [call_linear]; exact res_linear _ _), Option.bind_some]
  rfl

/-- the readers of a name -/
theorem res_readers (q : Node → Prop) (s : String) (hs : s = "conv2d" ∧ q = (fun m => m.name = "batch_norm") ∨ s = "batch_norm" ∧ q = fun m => m.name = "relu") :
    ∀ m ∈ (resProgram p g h).nodes, s ∈ m.callReads → q m := by
  intro m hm hr
  simp only [resProgram, List.mem_cons, List.not_mem_nil, or_false] at hm
  rcases hs with ⟨rfl, rfl⟩ | ⟨rfl, rfl⟩ <;> rcases hm with rfl | rfl | rfl | rfl | rfl | rfl | rfl | rfl | rfl | rfl | rfl | rfl | rfl | rfl | rfl <;>
    first | rfl | (exfalso; simp [Node.callReads, Arg.names] at hr)

theorem res_at (i : Nat) {n : Node} (hi : (resProgram p g h).nodes[i]? = some n) : n ∈ (resProgram p g h).nodes := List.mem_of_getElem? hi

theorem res_tensor {s : String} {d : List Nat} (hs : s = "x" ∧ d = [1, 1, 1, 2] ∨ s = "relu" ∧ d = [1, 1, 1, 2] ∨ s = "add" ∧ d = [1, 1, 1, 2] ∨
    s = "flatten" ∧ d = [1, 2]) : (resProgram p g h).Tensor s d := by
  rcases hs with ⟨rfl, rfl⟩ | ⟨rfl, rfl⟩ | ⟨rfl, rfl⟩ | ⟨rfl, rfl⟩
  · exact ⟨_, res_at p g h 7 rfl, rfl, by simp [Node.isValue], rfl⟩
  · exact ⟨_, res_at p g h 10 rfl, rfl, by simp [Node.isValue], rfl⟩
  · exact ⟨_, res_at p g h 11 rfl, rfl, by simp [Node.isValue], rfl⟩
  · exact ⟨_, res_at p g h 12 rfl, rfl, by simp [Node.isValue], rfl⟩

theorem res_valid : Valid (resProgram p g h) "linear" := by
  refine ⟨by simp [resProgram], ⟨(resProgram p g h).nodes.take 7, ⟨"x", [1, 1, 1, 2], .placeholder false⟩, (resProgram p g h).nodes.drop 8, rfl, ?_, rfl, rfl, ?_⟩,
    ?_, ?_, rfl, ⟨⟨"linear", [1, 1], .call "linear.default" [.node "flatten", .node "l", .node "b"] []⟩, by simp [resProgram], by simp [Node.isValue], rfl⟩, ?_, ?_⟩
  · intro m hm
    simp only [resProgram, List.take_succ_cons, List.take_zero, List.mem_cons, List.not_mem_nil, or_false] at hm
    rcases hm with rfl | rfl | rfl | rfl | rfl | rfl | rfl <;> exact ⟨_, rfl⟩
  · intro m hm l
    simp only [resProgram, List.drop_succ_cons, List.drop_zero, List.mem_cons, List.not_mem_nil, or_false] at hm
    rcases hm with rfl | rfl | rfl | rfl | rfl | rfl | rfl <;> simp
  · intro n hn t args kw hk
    simp only [resProgram, List.mem_cons, List.not_mem_nil, or_false] at hn
    rcases hn with rfl | rfl | rfl | rfl | rfl | rfl | rfl | rfl | rfl | rfl | rfl | rfl | rfl | rfl | rfl <;> (try (exfalso; simp at hk; done))
    · exact .conv2d "x" "w" none [1, 1, 1, 2] ⟨[1, 1, 1, 1], [p]⟩ 1 1 1 1 [] rfl (res_tensor p g h (.inl ⟨rfl, rfl⟩)) rfl
        ⟨_, .head _, rfl, rfl⟩ rfl (by simp) (.inr ⟨rfl, rfl⟩) (.inr rfl) (.inr rfl) (.inr rfl) (by simp)
    · exact .batchNorm "conv2d" "g" "h" "m" "s" ⟨[1], [g]⟩ ⟨[1], [h]⟩ ⟨[1], [0]⟩ ⟨[1], [1]⟩ 0 0 true rfl
        ⟨_, .tail _ (.head _), rfl, rfl⟩ ⟨_, .tail _ (.tail _ (.head _)), rfl, rfl⟩ ⟨_, .tail _ (.tail _ (.tail _ (.head _))), rfl, rfl⟩
        ⟨_, .tail _ (.tail _ (.tail _ (.tail _ (.head _)))), rfl, rfl⟩
        ⟨⟨_, res_at p g h 8 rfl, rfl, _, _, _, rfl, by decide⟩, res_readers p g h _ _ (.inl ⟨rfl, rfl⟩)⟩
    · exact .relu "batch_norm" "relu.default" (.inl rfl) rfl
        ⟨⟨_, res_at p g h 9 rfl, rfl, _, _, _, rfl, .inr (.inr (.inl (by decide)))⟩, res_readers p g h _ _ (.inr ⟨rfl, rfl⟩)⟩
    · exact .add "relu" "x" [1, 1, 1, 2] [1, 1, 1, 2] rfl (res_tensor p g h (.inr (.inl ⟨rfl, rfl⟩))) (res_tensor p g h (.inl ⟨rfl, rfl⟩)) rfl rfl rfl rfl rfl
    · exact .flatten "add" [1, 1, 1, 2] [1] rfl (res_tensor p g h (.inr (.inr (.inl ⟨rfl, rfl⟩)))) (by simp)
    · exact .linear "flatten" "l" "b" ⟨[1, 2], [1, 1]⟩ ⟨[1], [0]⟩ 2 rfl (res_tensor p g h (.inr (.inr (.inr ⟨rfl, rfl⟩)))) ⟨_, res_at p g h 5 rfl, rfl, rfl⟩
        ⟨_, res_at p g h 6 rfl, rfl, rfl⟩
  · intro n hn hv
    simp only [resProgram, List.mem_cons, List.not_mem_nil, or_false] at hn
    rcases hn with rfl | rfl | rfl | rfl | rfl | rfl | rfl | rfl | rfl | rfl | rfl | rfl | rfl | rfl | rfl <;> simp [Node.isValue] at hv ⊢
  · intro n hn hr
    simp only [resProgram, List.mem_cons, List.not_mem_nil, or_false] at hn
    rcases hn with rfl | rfl | rfl | rfl | rfl | rfl | rfl | rfl | rfl | rfl | rfl | rfl | rfl | rfl | rfl <;> simp [Node.callReads, Arg.names] at hr
  · intro n hn hv hne
    simp only [resProgram, List.mem_cons, List.not_mem_nil, or_false] at hn
    rcases hn with rfl | rfl | rfl | rfl | rfl | rfl | rfl | rfl | rfl | rfl | rfl | rfl | rfl | rfl | rfl <;> (try (exfalso; exact hv))
    · exact ⟨_, res_at p g h 8 rfl, by simp [Node.callReads, Arg.names]⟩
    · exact ⟨_, res_at p g h 9 rfl, by simp [Node.callReads, Arg.names]⟩
    · exact ⟨_, res_at p g h 10 rfl, by simp [Node.callReads, Arg.names]⟩
    · exact ⟨_, res_at p g h 11 rfl, by simp [Node.callReads, Arg.names]⟩
    · exact ⟨_, res_at p g h 12 rfl, by simp [Node.callReads, Arg.names]⟩
    · exact ⟨_, res_at p g h 13 rfl, by simp [Node.callReads, Arg.names]⟩
    · exact absurd rfl hne

theorem res_fits : Fits (resProgram p g h) (resEnv p g h u v) := by
  intro n hn hv t ht
  simp only [resProgram, List.mem_cons, List.not_mem_nil, or_false] at hn
  rcases hn with rfl | rfl | rfl | rfl | rfl | rfl | rfl | rfl | rfl | rfl | rfl | rfl | rfl | rfl | rfl <;> (try (exfalso; exact hv)) <;>
    (simp [resEnv, Spec.Env.set] at ht; subst ht; rfl)

theorem res_plain : (resProgram p g h).Plain := by
  intro n hn t args kw hk hb
  simp only [resProgram, List.mem_cons, List.not_mem_nil, or_false] at hn
  rcases hn with rfl | rfl | rfl | rfl | rfl | rfl | rfl | rfl | rfl | rfl | rfl | rfl | rfl | rfl | rfl <;> (try (exfalso; simp at hk; done)) <;>
    (simp only [Kind.call.injEq] at hk; obtain ⟨rfl, rfl, rfl⟩ := hk) <;> (try (exfalso; revert hb; decide))
  refine ⟨by simp [Arg.names], ?_⟩
  intro s hs m hm hms ⟨t, args, kw, hk, hb⟩
  simp only [resProgram, List.mem_cons, List.not_mem_nil, or_false] at hm
  rcases hm with rfl | rfl | rfl | rfl | rfl | rfl | rfl | rfl | rfl | rfl | rfl | rfl | rfl | rfl | rfl <;> subst hms <;>
    (try (simp [Arg.names] at hs; done)) <;> (try (simp at hk; done)) <;>
    (simp only [Kind.call.injEq] at hk; obtain ⟨rfl, rfl, rfl⟩ := hk; revert hb; decide)

theorem res_output : Spec.output (resProgram p g h) (resX u v) = some (resY p g h u v) := by
  unfold Spec.output
  rw [res_eval, (res_valid p g h).returned]
  rfl

/-- **C68** the program is imported and the interpreter of the network returns `f(u) + f(v)`, where `f(t) = max(t * p * g + h, 0) + t` -/
theorem C68_example (M : CMath ℝ) :
    ∃ net plan, loadTorch (resProgram p g h) = some (net, plan) ∧
      net.reference M plan (resX u v) = some [max (u * p * g + h) 0 + u + (max (v * p * g + h) 0 + v)] :=
  C68_import_correct_partial (res_valid p g h) (by simp [Nd.Ok, resX, prod]) (res_eval p g h u v) (res_fits p g h u v) (res_output p g h u v)

theorem env_among (l : List (String × Nd ℝ)) (Q : Nd ℝ → Prop) : ∀ (E : Spec.Env), (∀ s t, E s = some t → Q t) → (∀ e ∈ l, Q e.2) → ∀ s t,
    (l.foldl (fun (E : Spec.Env) e => E.set e.1 e.2) E) s = some t → Q t := by
  induction l with
  | nil => intro E h0 _ s t h; exact h0 s t h
  | cons a l ih =>
    intro E h0 h1 s t h
    refine ih (E.set a.1 a.2) (fun s t h => ?_) (fun e he => h1 e (List.mem_cons_of_mem _ he)) s t h
    unfold Spec.Env.set at h
    split at h
    · cases h; exact h1 a List.mem_cons_self
    · exact h0 s t h

/-- **C69** for parameters and inputs that are not negative, the generated program leaves it in `prediction` -/
theorem C69_example (inf : ℝ) (hinf : 0 < inf) (hp : 0 ≤ p) (hg : 0 ≤ g) (hh : 0 ≤ h) (hu : 0 ≤ u) (hv : 0 ≤ v) :
    ∃ net plan, loadTorch (resProgram p g h) = some (net, plan) ∧
      Keras.Delivers (realLib inf) net plan [u, v] [max (u * p * g + h) 0 + u + (max (v * p * g + h) 0 + v)] :=
  C69_torch_program_partial (realLib inf) rfl rfl rfl (res_valid p g h) (res_plain p g h) (by simp [Nd.Ok, resX, prod]) (res_eval p g h u v) (res_fits p g h u v)
    (by
      intro s t ht a ha
      have key : ∀ w : ℝ, 0 ≤ w → -(realLib inf).inf < w := fun w hw => by show -inf < w; linarith
      refine key a (env_among _ (fun t => ∀ a ∈ t.data, 0 ≤ a) _ (by simp) ?_ s t ht a ha)
      clear ht ha
      intro e he a ha
      simp only [List.mem_cons, List.not_mem_nil, or_false] at he
      rcases he with rfl | rfl | rfl | rfl | rfl | rfl | rfl | rfl | rfl | rfl | rfl | rfl | rfl | rfl <;>
        simp [resX, resY, resAt] at ha <;> first | (subst ha; positivity) | (rcases ha with rfl | rfl <;> positivity))
    (res_output p g h u v)

end Verif.Torch

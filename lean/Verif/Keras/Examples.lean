import Verif.Keras.Program
import Verif.Onnx.ProgramExamples

/-!
# Keras models that meet the hypotheses
-/

namespace Verif.Keras
open Net Layers Graph CText
open Onnx (prod indices mk ravel realDbl exact_real)
open scoped Classical

/-! ## A Sequential model: Flatten, then Dense with softmax, on images of one row, two columns and one channel -/

/-- the kernel is `[[p, 0], [0, q]]`, the bias `[0, 0]` -/
noncomputable def seqModel (p q : ℝ) : Model where
  sequential := true
  inputShape := [1, 2, 1]
  output := "d"
  layers := [⟨"f", .flatten, ["x"], [[1, 2, 1]], [2]⟩,
    ⟨"d", .dense [⟨[2, 2], [p, 0, 0, q]⟩, ⟨[2], [0, 0]⟩] .softmax, ["f"], [[2]], [2]⟩]

variable (p q u v : ℝ)

/-- its input -/
def seqX : Nd ℝ := ⟨[1, 2, 1], [u, v]⟩

/-- its output -/
noncomputable def seqY : Nd ℝ := ⟨[2], [Real.exp (u * p) / (Real.exp (u * p) + Real.exp (v * q)), Real.exp (v * q) / (Real.exp (u * p) + Real.exp (v * q))]⟩

theorem seq_eval : Spec.eval (seqModel p q) (seqX u v) = some [⟨[2], [u, v]⟩, seqY p q u v] := by
  have hi : Onnx.indices [2] = [[0], [1]] := rfl
  simp [Spec.eval, seqModel, Spec.step, Kind.isInput, Spec.args, Spec.layer, Spec.one, seqX, seqY, Spec.dense, Spec.kernelBias, Spec.act, Spec.softmax, prod, mk, hi,
    Nd.get, ravel, Finset.sum_range_succ, Spec.biasAt]

theorem seq_valid : Valid (seqModel p q) := by
  refine ⟨by simp [seqModel], ⟨_, rfl, rfl⟩, ?_, ?_, ?_⟩ <;> simp [seqModel]

theorem seq_fits : Fits (seqModel p q) (seqX u v) [⟨[2], [u, v]⟩, seqY p q u v] := by
  refine ⟨rfl, .inr ⟨1, 2, 1, rfl⟩, ?_, ?_⟩
  · simp [seqX, seqY]
  · intro i l xs hl _ ha
    rcases i with _ | _ | i
    · simp [seqModel] at hl
      subst hl
      simp [Spec.args, seqModel, seqX] at ha
      subst ha
      simp [Supported, seqX]
    · simp [seqModel] at hl
      subst hl
      simp [Spec.args, seqModel] at ha
      subst ha
      simp [Supported, seqY]
    · simp [seqModel] at hl

/-- the layers made for it -/
noncomputable def seqState : State where
  layers := [(0, .input true ⟨1, 1, 2⟩), (1, .flatten ⟨1, 1, 2⟩),
    (2, .dense 2 2 (fun i j => (⟨[2, 2], [p, 0, 0, q]⟩ : Nd ℝ).get [i, j]) (fun j => (⟨[2], [0, 0]⟩ : Nd ℝ).get [j]) id), (3, .softmax ⟨1, 1, 2⟩ none id)]
  links := [(0, 1), (1, 2), (2, 3)]
  nb := 1

theorem seq_import : importNet (seqModel p q) = some (seqState p q).net := by
  simp [importNet, Model.built, Model.init, seqModel, Kind.isInput, inputOp, Model.rest, Model.start, Model.step, Kind.skipped, create, createFlatten, shape4, prod, Shape.size,
    Model.producers, Kind.softmaxed, Kind.activation?, createDense, actFn, softmaxOp, seqState]

/-- **C66** the model is imported and its interpreter returns the softmax of `[u * p, v * q]` -/
theorem C66_example {M : CMath ℝ} (hexp : M.exp = Real.exp) (hsqrt : M.sqrt = Real.sqrt) :
    ∃ plan, loadKeras (seqModel p q) = some ((seqState p q).net, plan) ∧ (seqState p q).net.reference M plan (seqX u v) = some (seqY p q u v).data :=
  C66_import_correct_partial hexp hsqrt (seq_valid p q) ⟨_, List.mem_cons_self, rfl⟩ (by simp [Nd.Ok, seqX, prod]) (seq_eval p q u v) (seq_fits p q u v) (seq_import p q)
    (y := seqY p q u v) (by
      unfold Spec.output
      rw [seq_eval]
      simp [seqModel, List.findIdx?_cons])

theorem order_lt {m : Model} {st : State} (hg : st.Good) {plan : Plan} (h : loadKeras m = some (st.net, plan)) (n : Nat) : n ∈ plan.order ↔ n < st.layers.length := by
  unfold loadKeras at h
  obtain ⟨net, h1, h⟩ := Option.bind_eq_some_iff.mp h
  obtain ⟨plan', h2, h⟩ := Option.bind_eq_some_iff.mp h
  simp only [Option.some.injEq, Prod.mk.injEq] at h
  obtain ⟨rfl, rfl⟩ := h
  rw [(plan_perm (graph_unique hg) (graph_consistent hg) h2).mem_iff, show st.graph.idxs = List.range st.layers.length from graph_idxs hg, List.mem_range]

/-- **C67** and, for weights that are integers less than `2 ^ 52`, the generated program leaves it in `prediction` -/
theorem C67_example (p q : ℤ) (hp : p.natAbs < 2 ^ 52) (hq : q.natAbs < 2 ^ 52) (inf : ℝ) (h0 : 0 ≤ inf) (h1 : -inf < u) (h2 : -inf < v) :
    ∃ plan t, loadKeras (seqModel p q) = some ((seqState p q).net, plan) ∧ t.Of (realLib inf) (seqState p q).net plan ∧
      ∃ tp defs th fields ti nOut ds s,
        paramText realDbl 4096 (seqState p q).net.op plan.order = some tp ∧ IsDefs 4096 tp defs ∧
        headerText (seqState p q).net plan = some th ∧ IsHeader th fields (defs.map ArrDef.decl) ∧
        sourceText t (seqState p q).net plan = some ti ∧ IsInference ti nOut 2 ds s ∧
        (∃ mem, Starts fields defs nOut [u, v] mem) ∧
        ∀ mem, Starts fields defs nOut [u, v] mem → ∃ m', Runs (realLib inf) ds s mem m' ∧ Holds m' .pred (seqY p q u v).data := by
  obtain ⟨plan, hl, hd⟩ := C67_sequential_partial (realLib inf) rfl rfl rfl rfl (seq_valid p q) ⟨_, List.mem_cons_self, rfl⟩ (by simp [Nd.Ok, seqX, prod]) (seq_eval p q u v) (seq_fits p q u v)
    (by
      intro t ht a ha
      have e := Real.exp_pos (u * p)
      have e' := Real.exp_pos (v * q)
      show -inf < a
      simp only [List.mem_cons, List.not_mem_nil, or_false] at ht
      rcases ht with rfl | rfl | rfl
      · simp [seqX] at ha; rcases ha with rfl | rfl <;> assumption
      · simp at ha; rcases ha with rfl | rfl <;> assumption
      · have : ∀ w : ℝ, 0 < w → -inf < w := fun w hw => by linarith
        simp [seqY] at ha; rcases ha with rfl | rfl <;> exact this _ (by positivity))
    (by intro l hl; simp [seqModel] at hl; subst hl; simp)
    (y := seqY p q u v) (by
      unfold Spec.output
      rw [seq_eval]
      simp [seqModel, List.findIdx?_cons]) (seq_import p q)
  have hop : ∀ n, 4 ≤ n → (seqState p q).net.op n = .constant ⟨[], []⟩ := fun n hn => op_outside ⟨rfl, by simp [seqState]⟩ hn
  have hlt : ∀ n ∈ plan.order, n < 4 := by
    intro n hn
    exact (order_lt ⟨rfl, by simp [seqState]⟩ hl n).mp hn
  obtain ⟨⟨t, ht⟩, hall⟩ := hd realDbl 4096
    (by
      intro n hn pr hpr w hw
      have := hlt n hn
      rcases n with _ | _ | _ | _ | k <;> simp [seqState, State.net, parArrays, Nd.get, ravel] at hpr <;> try omega
      rcases hpr with rfl | rfl
      · simp [matrix, List.range_succ, prod] at hw
        rcases hw with rfl | rfl | rfl
        · exact exact_real p hp
        · exact_mod_cast exact_real 0 (by simp)
        · exact exact_real q hq
      · simp [tensor, List.range_succ, prod] at hw
        subst hw
        exact_mod_cast exact_real 0 (by simp))
    (by
      intro n hn pr hpr
      have := hlt n hn
      rcases n with _ | _ | _ | _ | k <;> simp [seqState, State.net, parArrays] at hpr <;> try omega
      rcases hpr with rfl | rfl <;> simp [matrix, tensor, List.range_succ])
  obtain ⟨tp, defs, th, fields, ti, nOut, nIn, ds, s, g1, g2, g3, g4, _, _, g5, g6, _, _, g7, _, g8, g9⟩ := hall t ht
  have : nIn = 2 := g7
  subst this
  exact ⟨plan, t, hl, ht, tp, defs, th, fields, ti, nOut, ds, s, g1, g2, g3, g4, g5, g6, g8, g9⟩

/-! ## A functional model: `relu(conv(x)) + x`, flattened, on images of one pixel and two channels -/

/-- the kernel is the matrix `[[p, 0], [0, q]]`, the bias `[0, 0]` -/
noncomputable def resModel : Model where
  sequential := false
  inputShape := [1, 1, 2]
  output := "f"
  layers := [⟨"x", .inputLayer, [], [], [1, 1, 2]⟩,
    ⟨"c", .conv2D [⟨[1, 1, 2, 2], [p, 0, 0, q]⟩, ⟨[2], [0, 0]⟩] 2 (1, 1) (1, 1) (1, 1) .valid 1 .relu, ["x"], [[1, 1, 2]], [1, 1, 2]⟩,
    ⟨"a", .add, ["c", "x"], [[1, 1, 2], [1, 1, 2]], [1, 1, 2]⟩,
    ⟨"f", .flatten, ["a"], [[1, 1, 2]], [2]⟩]

/-- its input -/
def resX : Nd ℝ := ⟨[1, 1, 2], [u, v]⟩

/-- its output -/
noncomputable def resY : List ℝ := [max (u * p) 0 + u, max (v * q) 0 + v]

/-- the values of its layers -/
noncomputable def resVals : List (Nd ℝ) := [⟨[1, 1, 2], [u, v]⟩, ⟨[1, 1, 2], [max (u * p) 0, max (v * q) 0]⟩, ⟨[1, 1, 2], resY p q u v⟩, ⟨[2], resY p q u v⟩]

theorem res_eval : Spec.eval (resModel p q) (resX u v) = some (resVals p q u v) := by
  have hi : Onnx.indices [1, 1, 2] = [[0, 0, 0], [0, 0, 1]] := rfl
  have hpos : (Onnx.Spec.Window.pos ⟨1, 1, 1, 1, 0, 0⟩ 0 0) = some 0 := by decide
  have hfit : (Onnx.Spec.Window.Fits ⟨1, 1, 1, 1, 0, 0⟩) := by simp [Onnx.Spec.Window.Fits, Onnx.Spec.Window.span]
  have hout : (Onnx.Spec.Window.out ⟨1, 1, 1, 1, 0, 0⟩) = 1 := by decide
  simp [Spec.eval, resModel, Spec.step, Kind.isInput, Spec.args, Spec.layer, Spec.one, resX, resVals, resY, Spec.conv2D, Spec.kernelBias, Spec.act, Spec.window, hfit, hout, hpos,
    List.findIdx?_cons, mk, hi, prod, Nd.get, ravel, Finset.sum_range_succ, Spec.biasAt, Spec.merge, Onnx.bcast, Onnx.bshape, Onnx.padTo, Onnx.bdims, Onnx.bdim, Nd.bget, Onnx.mask, Onnx.Spec.unary]

theorem res_valid : Valid (resModel p q) := by
  refine ⟨by simp [resModel], ⟨_, rfl, rfl⟩, ?_, ?_, ?_⟩
  · intro _; simp [Model.start, resModel, Kind.isInput]
  · intro _ l hl
    simp [resModel] at hl
    rcases hl with rfl | rfl | rfl <;> simp [Kind.softmaxed, Kind.activation?]
  · intro _ l hl
    simp [resModel] at hl
    rcases hl with rfl | rfl | rfl <;> simp [resModel]

theorem res_fits : Fits (resModel p q) (resX u v) (resVals p q u v) := by
  refine ⟨by simp [Model.inputDims, resModel, Kind.isInput, resX], .inr ⟨1, 1, 2, rfl⟩, ?_, ?_⟩
  · simp [resX, resVals]
  · intro i l xs hl hin ha
    rcases i with _ | _ | _ | _ | i
    · simp [resModel] at hl
      subst hl
      simp [Kind.isInput] at hin
    · simp [resModel] at hl
      subst hl
      simp [Spec.args, resModel, resVals, List.findIdx?_cons] at ha
      subst ha
      simp [Supported, resVals]
    · simp [resModel] at hl
      subst hl
      simp [Spec.args, resModel, resVals, List.findIdx?_cons] at ha
      subst ha
      simp [Supported, resVals, SameShape, Onnx.bshape, Onnx.padTo, Onnx.bdims, Onnx.bdim]
    · simp [resModel] at hl
      subst hl
      simp [Spec.args, resModel, resVals, List.findIdx?_cons] at ha
      subst ha
      simp [Supported, resVals]
    · simp [resModel] at hl

theorem res_import : ∃ net, importNet (resModel p q) = some net := by
  have hpad : Gen.computePadding (.str "valid") 1 1 1 1 1 1 = some ⟨0, 0, 0, 0⟩ := by decide
  simp [importNet, Model.built, Model.init, resModel, Kind.isInput, inputOp, Model.rest, Model.start, Model.step, Kind.skipped, create, createFlatten, shape4, prod, Shape.size,
    Model.producers, Kind.softmaxed, Kind.activation?, createConv, actFn, createBroadcast, Padding.str, hpad, Onnx.nat?, Layers.ConvP.Accepted, List.findIdx?_cons]

/-- **C66**, **C67** The model is imported, the interpreter returns `relu(conv(x)) + x`, and so does the generated program. -/
theorem C67_functional_example (inf : ℝ) (h1 : ∀ t ∈ resX u v :: resVals p q u v, ∀ a ∈ t.data, -inf < a) :
    ∃ net plan, loadKeras (resModel p q) = some (net, plan) ∧ net.reference (realLib inf).cmath plan (resX u v) = some (resY p q u v) ∧
      Delivers (realLib inf) net plan [u, v] (resY p q u v) := by
  obtain ⟨net, hnet⟩ := res_import p q
  have hy : Spec.output (resModel p q) (resX u v) = some ⟨[2], resY p q u v⟩ := by
    unfold Spec.output
    rw [res_eval]
    simp [resModel, List.findIdx?_cons, resVals]
  have hin : ∃ l ∈ (resModel p q).layers, l.kind.isInput = false := ⟨_, List.mem_cons_of_mem _ List.mem_cons_self, rfl⟩
  have hok : (resX u v).Ok := by simp [Nd.Ok, resX, prod]
  obtain ⟨plan, hl, hd⟩ := C67_functional_partial (realLib inf) rfl rfl rfl rfl (res_valid p q) hin hok (res_eval p q u v) (res_fits p q u v) h1
    (by intro l hl; simp [resModel] at hl; subst hl; simp)
    (by intro l hl; simp [resModel] at hl; rcases hl with rfl | rfl | rfl | rfl <;> simp)
    (by
      intro l hl hk s hs l' hl'
      simp [resModel] at hl
      rcases hl with rfl | rfl | rfl | rfl <;> simp at hk
      simp at hs
      subst hs
      simp [resModel] at hl'
      rcases hl' with rfl | rfl | rfl <;> simp)
    hy hnet
  obtain ⟨plan', hl', hr⟩ := C66_import_correct_partial (M := (realLib inf).cmath) rfl rfl (res_valid p q) hin hok (res_eval p q u v) (res_fits p q u v) hnet hy
  rw [hl] at hl'
  cases hl'
  exact ⟨net, plan, hl, hr, hd⟩

end Verif.Keras

import Verif.CText.NormalSource
import Verif.Props.Nnet

/-!
# From a `.nnet` file to the text of `inference.c`

The NNET importer builds an input layer and dense layers with fixed paths (`parser_NNET.py` 56-99); the text that the generator
writes for them, between the texts of the normaliser, computes the function that the file describes.
-/

namespace Verif.CText
open Prog Layers Net Gen
set_option linter.unusedVariables false
set_option linter.unusedSectionVars false
variable {K : Type} [Field K] [LinearOrder K] [FloorRing K]

/-! ## The network -/

/-- the layers that `generate_layers` makes (`importers/NNET_importer/parser_NNET.py` 47-70): a one-dimensional input layer, and
dense layers with `ReLu` or `Linear` -/
def nnetOp (net : Nnet K) (n : Nat) : Op K :=
  match net.layer n with
  | none => .input false ⟨0, 0, 0⟩
  | some l =>
    match l.dense with
    | none => .input false ⟨l.size, 1, 1⟩
    | some d => .dense (net.sizeOf (l.prev.getD 0 0)) l.size d.w d.b (actC d.relu)

/-- the network given to `CodeGenerator` (`importers/NNET_importer/parser_NNET.py` 161-179, `data_format` channels first) -/
def nnetNetwork (net : Nnet K) : Network K where
  graph := net.layers.map fun l => ⟨l.idx, l.prev, l.next, false⟩
  op := nnetOp net
  fmt := .first

/-- `activation_function` of a dense layer (`parser_NNET.py` 70 and 76) -/
def nnetAct (relu : Bool) : CAct K := if relu then .relu else .linear

/-- the texts of the layers: `template_Input_Layer.c.tpl` and `template_Dense.c.tpl` with what their classes give them -/
def nnetTexts (net : Nnet K) : Texts K where
  text := fun n =>
    match net.layer n with
    | none => Tpl.input_Layer
    | some l => match l.dense with
      | none => Tpl.input_Layer
      | some _ => Tpl.dense
  hash := fun n =>
    match net.layer n with
    | none => inputHash .first .first false 0 0 0 0 n 0
    | some l => match l.dense with
      | none => inputHash .first .first false 0 0 0 l.size n l.path
      | some d => denseHash l.size (net.sizeOf (l.prev.getD 0 0)) n (nnetAct d.relu) (srcRef net.plan (l.prev.getD 0 0)) l.path

/-- the text of `inference.c` for a loaded `.nnet` file (`generator/neural_network.py` 800-960), `normalize=True` -/
def nnetText (net : Nnet K) : Option (List (CTok K)) :=
  sourceTextN (nnetTexts net) net.normalizer (nnetNetwork net) net.plan

/-! ## The network of a description -/

theorem nnetAct_fn (L : Lib K) (relu : Bool) : (nnetAct relu : CAct K).fn (std L) = actC relu := by
  funext v
  cases relu <;> rfl

theorem nnet_prevOf (d : NnetDesc K) (n : Nat) : (nnetNetwork d.net).graph.prevOf n = d.net.prevOf n := by
  unfold Graph.Dnn.prevOf Graph.Dnn.get? nnetNetwork Nnet.prevOf Nnet.layer
  simp only [List.find?_map, Option.map_map]
  rfl

theorem nnet_op (d : NnetDesc K) (n : Nat) (hn : n ≤ d.layers.length) :
    nnetOp d.net n = if n = 0 then .input false ⟨d.sizes.getD 0 0, 1, 1⟩ else
      .dense (d.sizes.getD (n - 1) 0) (d.sizes.getD n 0) (transposed (d.layers.getD (n - 1) ([], [])).1)
        (fun k => (d.layers.getD (n - 1) ([], [])).2.getD k 0) (actC (decide (n < d.layers.length))) := by
  unfold nnetOp
  rw [net_layer, if_pos hn]
  by_cases h : n = 0
  · subst h; simp [finalLayer]
  · simp only [finalLayer, h, if_false, List.getD_cons_zero]
    rw [net_sizeOf d _ (by omega)]

theorem nnet_size (d : NnetDesc K) (n : Nat) (hn : n ≤ d.layers.length) : (nnetOp d.net n).size = d.net.sizeOf n := by
  rw [nnet_op d n hn, net_sizeOf d n hn]
  split
  · subst n; simp [Op.size, Shape.size]
  · rfl

theorem nnet_texts_of (L : Lib K) (d : NnetDesc K) : (nnetTexts d.net).Of L (nnetNetwork d.net) d.net.plan := by
  intro n hn
  rw [net_order, List.mem_range] at hn
  have hn' : n ≤ d.layers.length := by omega
  show Emits L .first n (d.net.plan.path n) (nnetOp d.net n) _ _ _
  rw [nnet_prevOf, net_prevOf, net_path, nnet_op d n hn']
  unfold nnetTexts
  simp only [net_layer, if_pos hn']
  by_cases h : n = 0
  · subst h
    have h1 := Emits.input (L := L) (fmt := .first) (idx := 0) (road := 0) false ⟨d.sizes.getD 0 0, 1, 1⟩
    have e : inputHash .first .first false (d.sizes.getD 0 0) 1 1 (⟨d.sizes.getD 0 0, 1, 1⟩ : Shape).size 0 0 =
        (inputHash .first .first false 0 0 0 (d.sizes.getD 0 0) 0 0 : Hash K) := by
      simp only [Shape.size, Nat.mul_one]; rfl
    rw [e] at h1
    exact h1
  · have h0 : 0 < n := by omega
    simp only [finalLayer, h, if_false, h0, hn', and_self, if_true, List.map_cons, List.map_nil, List.getD_cons_zero]
    rw [net_sizeOf d _ (by omega), ← nnetAct_fn L]
    exact Emits.dense _ _ _ _ _ _

theorem nnet_layerCode (M : CMath K) (d : NnetDesc K) (n : Nat) (hn : n ≤ d.layers.length) :
    (nnetNetwork d.net).layerCode M n ((d.net.prevOf n).map (Graph.outStr d.net.plan)) (.out (d.net.plan.path n)) =
      d.net.code n ((d.net.prevOf n).map (Graph.outStr d.net.plan)) (.out (d.net.plan.path n)) := by
  unfold Network.layerCode Nnet.code
  show ((nnetOp d.net n).code M .first n _ _).getD _ = _
  rw [nnet_op d n hn, net_layer, if_pos hn, net_prevOf, net_path]
  by_cases h : n = 0
  · subst h
    simp [finalLayer, Op.code, inputCode, Shape.size]
  · have h0 : 0 < n := by omega
    simp only [finalLayer, h, if_false, h0, hn, and_self, if_true, List.map_cons, List.map_nil, List.getD_cons_zero]
    rw [net_sizeOf d _ (by omega)]
    rfl

theorem nnet_runLayers (M : CMath K) (d : NnetDesc K) (ns : List Nat) (hns : ∀ n ∈ ns, n ≤ d.layers.length) :
    Graph.runLayers d.net.plan (nnetNetwork d.net).graph.prevOf (fun n => ((nnetNetwork d.net).op n).size) ((nnetNetwork d.net).layerCode M) ns =
      Graph.runLayers d.net.plan d.net.prevOf d.net.sizeOf d.net.code ns := by
  induction ns with
  | nil => rfl
  | cons n ns ih =>
    unfold Graph.runLayers
    rw [nnet_prevOf, nnet_layerCode M d n (hns n (by simp)), ih fun k hk => hns k (by simp [hk])]
    rfl

theorem nnet_last (d : NnetDesc K) : d.net.plan.order.getLast? = some d.layers.length := by
  rw [net_order, List.range_succ]
  simp

/-- the program of the generator for this network is the program of C45 -/
theorem nnet_inference (M : CMath K) (d : NnetDesc K) :
    (nnetNetwork d.net).inference M d.net.plan = Graph.inference d.net.plan d.net.prevOf d.net.sizeOf d.net.code := by
  have hr := nnet_runLayers M d d.net.plan.order (by
    intro n hn; rw [net_order, List.mem_range] at hn; omega)
  unfold Network.inference Graph.inference Graph.outputCopy
  rw [nnet_last, hr]
  have hc : ((nnetNetwork d.net).op d.layers.length).chans = none := by
    show (nnetOp d.net d.layers.length).chans = none
    rw [nnet_op d _ (le_refl _)]
    split <;> rfl
  have hs : ((nnetNetwork d.net).op d.layers.length).size = d.net.sizeOf d.layers.length := nnet_size d _ (le_refl _)
  simp only [hc, hs, outputCode, Option.isSome_none, Bool.false_eq_true, false_and, if_false]
  rfl

theorem nnet_code_some (M : CMath K) (d : NnetDesc K) (n : Nat) (hn : n ∈ d.net.plan.order) :
    (((nnetNetwork d.net).op n).code M (nnetNetwork d.net).fmt n (d.net.plan.path n)
      (((nnetNetwork d.net).graph.prevOf n).map (Graph.outStr d.net.plan))).isSome = true := by
  rw [net_order, List.mem_range] at hn
  show ((nnetOp d.net n).code M .first n _ _).isSome = true
  rw [nnet_prevOf, net_prevOf, nnet_op d n (by omega)]
  by_cases h : n = 0
  · subst h; rfl
  · have h0 : 0 < n ∧ n ≤ d.layers.length := by omega
    rw [if_neg h, if_pos h0]; rfl

/-! ## End to end -/

/-- the text of the network of a description, and what it computes -/
theorem nnet_source [IsStrictOrderedRing K] (L : Lib K) (d : NnetDesc K) (C : NormConsts K) {B : CstBufs} (hB : B.Apart) :
    ∃ ts s, nnetText d.net = some ts ∧ IsInference ts (d.sizes.getLastD 0) d.inputSize (localDcls (nnetNetwork d.net) d.net.plan) s ∧
      Declared (localDcls (nnetNetwork d.net) d.net.plan) s ∧ Within s.arrays (NamedN (nnetNetwork d.net) d.net.plan) ∧
      ∀ m m', HoldsCst B d.net.normalizer.inputSize C m → d.net.normalisedInference C m = some ((), m') →
        RunsN L B C.outputRange C.outputMean (localDcls (nnetNetwork d.net) d.net.plan) s m m' := by
  have hlast := nnet_last d
  have hfirst : d.net.plan.order.head? = some 0 := by
    rw [net_order, List.range_succ_eq_map]; rfl
  obtain ⟨ts, s, h1, h2, h3, hw, h4⟩ := C73_source_renders (nnetTexts d.net) L d.net.normalizer C (nnetNetwork d.net) d.net.plan
    (nnet_texts_of L d) (by rw [net_order]; exact List.nodup_range) 0 d.layers.length hfirst hlast
    (by
      intro n hn
      rw [net_order, List.mem_range] at hn
      show (nnetOp d.net n).Positive
      rw [nnet_op d n (by omega)]
      split <;> trivial)
    (nnet_code_some L.cmath d) hB
  have s0 : ((nnetNetwork d.net).op 0).size = d.inputSize := by
    show (nnetOp d.net 0).size = _
    rw [nnet_size d 0 (by omega), net_sizeOf d 0 (by omega)]
    rfl
  have sl : ((nnetNetwork d.net).op d.layers.length).size = d.sizes.getLastD 0 := by
    show (nnetOp d.net d.layers.length).size = _
    rw [nnet_size d _ (le_refl _), net_sizeOf d _ (le_refl _)]
    have hlen : d.sizes.length = d.layers.length + 1 := by simp [NnetDesc.sizes]
    rw [List.getLastD_eq_getLast?, List.getLast?_eq_getElem?, hlen]
    rfl
  rw [s0, sl] at h2
  refine ⟨ts, s, h1, h2, h3, hw, ?_⟩
  intro m m' hcst e4
  unfold Nnet.normalisedInference at e4
  simp only [Prog.andThen] at e4
  obtain ⟨⟨_, m₁⟩, r₁, e4⟩ : ∃ r, preCode d.net.normalizer.inputSize C m = some r ∧ _ := by
    cases hr : preCode d.net.normalizer.inputSize C m with
    | none => rw [hr] at e4; cases e4
    | some r => rw [hr] at e4; exact ⟨r, rfl, e4⟩
  dsimp only at e4
  obtain ⟨⟨_, m₂⟩, r₂, e4⟩ : ∃ r, Graph.inference d.net.plan d.net.prevOf d.net.sizeOf d.net.code m₁ = some r ∧ _ := by
    cases hr : Graph.inference d.net.plan d.net.prevOf d.net.sizeOf d.net.code m₁ with
    | none => rw [hr] at e4; cases e4
    | some r => rw [hr] at e4; exact ⟨r, rfl, e4⟩
  refine h4 m m₁ m₂ m' hcst r₁ ?_ ?_
  · rw [nnet_inference]; exact r₂
  · exact e4

/-- **C73, NNET files.**  For every `.nnet` file that a description can be written to, with a well-formed normaliser: the importer loads it,
the Python reference with normalisation returns the de-normalised value, at the normalised input, of the function the description
stands for; the generator writes a text that is a definition of the C function `inference`; and this function, called on a memory with
the arrays of the header, the file's parameters, the constants of the normalisation and any input vector, terminates and leaves
exactly that value in `prediction`. -/
theorem C73_nnet_text [IsStrictOrderedRing K] (L : Lib K) {pf : Line → Option K} (T : Codec K pf) (d : NnetDesc K) (hd : d.Ok) (net : Nnet K)
    (hnet : loadNnet pf (d.file T) = some net) (hN : net.normalizer.WellFormed) (C : NormConsts K) (hC : net.normalizer.consts = some C)
    (other sizes : Buf → Nat)
    (hsizes : declared (net.layers.map fun l => { idx := l.idx, size := l.size }) 1 [] other = some sizes)
    (m : Mem K) (hm : m.size = sizes) (hpar : NnetParams net m) (x : List K) (hx : x.length = d.inputSize) (hin : Holds m .input x)
    (hpred : d.sizes.getLastD 0 ≤ m.size .pred) {B : CstBufs} (hB : B.Apart) (hcst : HoldsCst B net.normalizer.inputSize C m) :
    ∃ x' y' ts ds s m', net.normalizer.preProcessing net.normalizer.inputSize x = some x' ∧
      Graph.interp net.prevOf net.nextOf net.forward net.plan.order x' = some (nnetEval d.layers x') ∧
      net.normalizer.postProcessing (nnetEval d.layers x') = some y' ∧
      nnetText net = some ts ∧ IsInference ts (d.sizes.getLastD 0) d.inputSize ds s ∧ Declared ds s ∧
      ds = localDcls (nnetNetwork net) net.plan ∧ Within s.arrays (NamedN (nnetNetwork net) net.plan) ∧
      RunsN L B C.outputRange C.outputMean ds s m m' ∧ Holds m' .pred y' := by
  obtain ⟨C', m', x', y, y', hC', e1, e2, rfl, e3, e4, e5⟩ := C46_network T d hd net hnet hN other sizes hsizes m hm hpar x hx hin hpred
  rw [hC, Option.some.injEq] at hC'
  subst hC'
  rw [load_spec T d hd, Option.some.injEq] at hnet
  subst hnet
  obtain ⟨ts, s, h1, h2, h3, hw, h4⟩ := nnet_source L d C hB
  exact ⟨x', y', ts, _, s, m', e1, e2, e3, h1, h2, h3, rfl, hw, h4 m m' hcst e4, e5⟩

end Verif.CText

import Verif.CText.NormalFiles
import Verif.CText.ProjectExamples
import Verif.Net.Examples
import Mathlib.Data.Rat.Encodable

/-!
# C73: the hypotheses can be met
-/

namespace Verif.CText
open Prog Layers Net Gen
variable {K : Type} [Field K] [LinearOrder K]

/-- arrays for the constants of the normalisation -/
def cstBufs : CstBufs := ⟨.par .constant 0, .par .constant 1, .par .constant 2, .par .constant 3⟩

theorem cstBufs_apart : cstBufs.Apart := ⟨by decide, by decide, by decide, by decide⟩

/-- For every description with a well-formed normaliser and every input of its size there is a memory as C73 needs it. -/
theorem C73_memory_exists (d : NnetDesc K) (hd : d.Ok) (C : NormConsts K) (x : List K) (hx : x.length = d.inputSize) :
    ∃ (other sizes : Buf → Nat) (m : Mem K),
      declared (d.net.layers.map fun l => { idx := l.idx, size := l.size }) 1 [] other = some sizes ∧ m.size = sizes ∧ NnetParams d.net m ∧
        Holds m .input x ∧ d.sizes.getLastD 0 ≤ m.size .pred ∧ HoldsCst cstBufs d.net.normalizer.inputSize C m := by
  obtain ⟨other, sizes, m, h1, h2, h3, h4, h5⟩ := nnet_memory_exists d x
  rw [nnetEval_length d hd x hx] at h5
  obtain ⟨other', ho⟩ : ∃ o : Buf → Nat, o = fun b => match b with
    | .par .constant _ => d.net.normalizer.inputSize
    | b => other b := ⟨_, rfl⟩
  have hs : sizes = fun
    | .out k => if k < 1 then pathSize (d.net.layers.map fun l => { idx := l.idx, size := l.size }) else 0
    | .cst k => 0
    | .temp => tempSize (d.net.layers.map fun l => { idx := l.idx, size := l.size })
    | b => other b := by
    unfold declared cstSizes at h1
    simp only [Option.some.injEq] at h1
    rw [← h1]
    funext b
    cases b <;> rfl
  obtain ⟨m', hm'⟩ : ∃ m' : Mem K, m' = ⟨fun
    | .out k => if k < 1 then pathSize (d.net.layers.map fun l => { idx := l.idx, size := l.size }) else 0
    | .cst k => 0
    | .temp => tempSize (d.net.layers.map fun l => { idx := l.idx, size := l.size })
    | b => other' b, fun b a => match b with
    | .par .constant 0 => C.inputMin a
    | .par .constant 1 => C.inputMax a
    | .par .constant 2 => C.inputMean a
    | .par .constant 3 => C.inputRange a
    | b => m.val b a⟩ := ⟨_, rfl⟩
  have keep : ∀ b l, (∀ n, b ≠ .par .constant n) → Holds m b l → Holds m' b l := by
    intro b l hb h
    have hv : m'.val b = m.val b := by
      rw [hm']
      cases b <;> try rfl
      case par p n => cases p <;> first | rfl | exact absurd rfl (hb n)
    have hz : m'.size b = m.size b := by
      rw [hm', h2, hs, ho]
      cases b <;> try rfl
      case par p n => cases p <;> first | rfl | exact absurd rfl (hb n)
    exact ⟨by rw [hz]; exact h.1, fun a ha => by rw [hv]; exact h.2 a ha⟩
  refine ⟨other', m'.size, m', ?_, rfl, ?_, keep _ _ (by intro n; simp) h4, ?_, ?_⟩
  · rw [hm']
    unfold declared cstSizes
    simp only [Option.some.injEq]
    funext b
    cases b <;> rfl
  · intro l hl p hp
    exact ⟨keep _ _ (by intro n; simp) (h3 l hl p hp).1, keep _ _ (by intro n; simp) (h3 l hl p hp).2⟩
  · have : m'.size .pred = m.size .pred := by rw [hm', h2, hs, ho]
    rw [this]; exact h5
  · rw [hm', ho]
    constructor <;> intro i hi <;> exact ⟨hi, rfl⟩

/-- All the hypotheses of C73 hold for `exDesc` and its file, on every input of two numbers, with any library. -/
theorem C73_nnet_example (L : Lib ℚ) {pf : Line → Option ℚ} (T : Codec ℚ pf) (x : List ℚ) (hx : x.length = 2) :
    ∃ net x' y' ts ds s m m' C, loadNnet pf (exDesc.file T) = some net ∧ net.normalizer.preProcessing 2 x = some x' ∧
      net.normalizer.postProcessing (nnetEval exDesc.layers x') = some y' ∧ nnetText net = some ts ∧ IsInference ts 1 2 ds s ∧ Declared ds s ∧
      RunsN L cstBufs 3 4 ds s m m' ∧ HoldsCst cstBufs 2 C m ∧ Holds m .input x ∧ Holds m' .pred y' := by
  have hd : exDesc.Ok := by
    refine ⟨?_, ?_⟩
    · intro l hl
      simp only [exDesc, List.mem_singleton] at hl
      exact ⟨_, hl.trans rfl⟩
    · simp [exDesc, LayersFit]
  have hN : exDesc.net.normalizer.WellFormed := by
    refine ⟨by decide, rfl, rfl, rfl, rfl, ?_⟩
    intro i h1 h2
    rcases i with _ | _ | i
    · norm_num [exDesc, NnetDesc.net]
    · norm_num [exDesc, NnetDesc.net]
    · simp [exDesc, NnetDesc.net] at h1
  obtain ⟨C, hC⟩ : ∃ C, C = (⟨fun i => [0, 0].getD i 0, fun i => [10, 10].getD i 0, fun i => [1, 1].getD i 0, fun i => [2, 1].getD i 0, 4, 3⟩ : NormConsts ℚ) := ⟨_, rfl⟩
  have hC' : exDesc.net.normalizer.consts = some C := by rw [hC]; rfl
  obtain ⟨other, sizes, m, h1, h2, h3, h4, h5, h6⟩ := C73_memory_exists exDesc hd C x hx
  obtain ⟨x', y', ts, ds, s, m', e1, -, e3, e4, e5, e6, -, -, e7, e8⟩ := C73_nnet_text L T exDesc hd exDesc.net (load_spec T exDesc hd) hN C hC' other sizes h1 m h2
    h3 x hx h4 h5 cstBufs_apart h6
  refine ⟨_, x', y', ts, ds, s, m, m', C, load_spec T exDesc hd, e1, e3, e4, e5, e6, ?_, h6, h4, e8⟩
  rw [hC] at e7
  exact e7

/-- texts of rational numbers that are read back exist -/
def ratCodec : Codec ℚ (fun s => (parseNat s).bind Encodable.decode) where
  text v := natText (Encodable.encode v)
  reads v := by simp only [parseNat_text, Option.bind_some, Encodable.encodek]
  nonempty v := (natText_clean _).1
  clean v c hc := (natText_clean _).2 c hc

/-! ## The general theorem -/

/-- an input of two numbers and a dense layer -/
def normNet : Network ℚ where
  graph := [⟨0, [], [1], false⟩, ⟨1, [0], [], false⟩]
  op := fun
    | 0 => .input false ⟨2, 1, 1⟩
    | _ => .dense 2 1 (fun i j => i + j + 1) (fun j => j) (fun v => max v 0)
  fmt := .first

/-- the texts of its layers -/
def normTexts (plan : Graph.Plan) : Texts ℚ where
  text := fun
    | 0 => Tpl.input_Layer
    | _ => Tpl.dense
  hash := fun
    | 0 => inputHash .first .first false 2 1 1 2 0 (plan.path 0)
    | _ => denseHash 1 2 1 .relu (srcRef plan 0) (plan.path 1)

theorem normNet_wf : normNet.WF := by
  have hmem : ∀ l ∈ normNet.graph, l = ⟨0, [], [1], false⟩ ∨ l = ⟨1, [0], [], false⟩ := by
    intro l hl; simpa [normNet] using hl
  refine ⟨by decide, by decide, by decide, ?_, ?_, ?_, ?_, ?_⟩
  · intro l hl
    rcases hmem l hl with rfl | rfl <;> trivial
  · intro l hl
    rcases hmem l hl with rfl | rfl <;> rfl
  · intro l hl
    rcases hmem l hl with rfl | rfl <;> simp [normNet]
  · intro l hl hown
    rcases hmem l hl with rfl | rfl <;> exact hown.elim
  · intro l hl l' hl' r s r' s' h h'
    rcases hmem l hl with rfl | rfl <;> rcases hmem l' hl' with rfl | rfl <;> simp [normNet] at h h'
    simp_all

/-- Every memory can be extended with the constants of the normalisation. -/
theorem C73_constants_exist (net : Network K) (plan : Graph.Plan) (x : List K) (m : Mem K) (h : net.Memory plan x m) (k n : Nat)
    (hk : ∀ i ∈ plan.order, i < k) (C : NormConsts K) : ∃ m', net.Memory plan x m' ∧ HoldsCst (cstBufsAt k) n C m' := by
  obtain ⟨own, hown⟩ : ∃ own : Buf → Bool, own = fun b => match b with | .par .constant i => decide (k ≤ i) | _ => false := ⟨_, rfl⟩
  obtain ⟨m', hm'⟩ : ∃ m' : Mem K, m' = ⟨fun b => if own b then n else m.size b, fun b a => if own b then
    (if b = .par .constant k then C.inputMin a else if b = .par .constant (k + 1) then C.inputMax a else
      if b = .par .constant (k + 2) then C.inputMean a else C.inputRange a) else m.val b a⟩ := ⟨_, rfl⟩
  have keep : ∀ b l, own b = false → Holds m b l → Holds m' b l := by
    intro b l hb h
    rw [hm']
    exact ⟨by simpa [hb] using h.1, fun a ha => by simpa [hb] using h.2 a ha⟩
  have h0 : ∀ j, own (.par .constant (k + j)) = true := by intro j; rw [hown]; simp
  have h0' : own (.par .constant k) = true := h0 0
  refine ⟨m', ⟨?_, ?_, keep _ _ (by rw [hown]) h.input, ?_⟩, ?_⟩
  · obtain ⟨other, ho⟩ := h.declared
    refine ⟨fun b => if own b then n else other b, ?_⟩
    unfold Gen.declared at ho ⊢
    split at ho
    · cases ho
    · simp only [Option.some.injEq] at ho ⊢
      rw [hm']
      funext b
      have := congrFun ho b
      dsimp only
      cases b with
      | out j => rw [hown]; simpa using this
      | cst j => rw [hown]; simpa using this
      | temp => rw [hown]; simpa using this
      | input => dsimp only at this ⊢; rw [this]
      | pred => dsimp only at this ⊢; rw [this]
      | par p i => dsimp only at this ⊢; rw [this]
  · intro i hi p hp
    refine keep _ _ ?_ (h.params i hi p hp)
    obtain ⟨q, hq⟩ : ∃ q, p.1 = .par q i := by
      unfold Op.params at hp
      split at hp <;> simp only [List.mem_cons, List.not_mem_nil, or_false] at hp
      · exact ⟨_, by rw [hp]⟩
      · rcases hp with rfl | rfl <;> exact ⟨_, rfl⟩
      · rcases hp with rfl | rfl <;> exact ⟨_, rfl⟩
      · rcases hp with rfl | rfl <;> exact ⟨_, rfl⟩
      · exact ⟨_, by rw [hp]⟩
      · rcases hp with rfl | rfl | rfl | rfl <;> exact ⟨_, rfl⟩
    rw [hq, hown]
    have := hk i hi
    cases q <;> simp <;> omega
  · intro l hl
    have : m'.size .pred = m.size .pred := by rw [hm', hown]; rfl
    rw [this]; exact h.pred l hl
  · rw [hm']
    constructor <;> intro i hi
    · simpa [cstBufsAt, h0'] using hi
    · simpa [cstBufsAt, h0] using hi
    · simpa [cstBufsAt, h0] using hi
    · simpa [cstBufsAt, h0] using hi

theorem normTexts_of (L : Lib ℚ) (plan : Graph.Plan) (h : plan.order = [0, 1]) : (normTexts plan).Of L normNet plan := by
  have hrelu : (fun v : ℚ => max v 0) = CAct.relu.fn (std L) := by
    funext v
    simp only [CAct.fn]
    split
    · exact max_eq_left (le_of_lt ‹_›)
    · exact max_eq_right (not_lt.1 ‹_›)
  intro n hn
  rw [h] at hn
  simp only [List.mem_cons, List.not_mem_nil, or_false] at hn
  rcases hn with rfl | rfl
  · exact Emits.input false ⟨2, 1, 1⟩
  · show Emits L .first 1 (plan.path 1) (.dense 2 1 (fun i j => i + j + 1) (fun j => j) (fun v => max v 0)) [srcRef plan 0] _ _
    rw [hrelu]
    exact Emits.dense _ _ _ _ .relu (srcRef plan 0)

/-- All the hypotheses of C73 hold for this network and `exNormalizer`, on every input of two numbers, with any library. -/
theorem C73_example (L : Lib ℚ) (x : List ℚ) (hx : x.length = 2) :
    ∃ plan C m z ts nOut nIn ds s m', Graph.triTopo normNet.graph = some plan ∧ exNormalizer.consts = some C ∧ normNet.Memory plan x m ∧
      HoldsCst (cstBufsAt 2) 2 C m ∧ normalisedReference exNormalizer normNet L.cmath plan ⟨[2], x⟩ = some z ∧
      sourceTextN (normTexts plan) exNormalizer normNet plan = some ts ∧ IsInference ts nOut nIn ds s ∧ Declared ds s ∧
      RunsN L (cstBufsAt 2) C.outputRange C.outputMean ds s m m' ∧ Holds m' .pred z := by
  have hp : ∃ plan, Graph.triTopo normNet.graph = some plan ∧ plan.order = [0, 1] := ⟨_, rfl, by decide⟩
  obtain ⟨plan, h1, h2⟩ := hp
  obtain ⟨m₀, hm₀⟩ := C52_memory_exists normNet normNet_wf.unique normNet_wf.consistent plan h1 x
  obtain ⟨C, hC⟩ : ∃ C, exNormalizer.consts = some C := ⟨_, rfl⟩
  obtain ⟨m, hm, hc⟩ := C73_constants_exist normNet plan x m₀ hm₀ 2 2 (by rw [h2]; decide) C
  have hN : exNormalizer.WellFormed := by
    refine ⟨by decide, rfl, rfl, rfl, rfl, ?_⟩
    intro i h1 h2
    rcases i with _ | _ | i
    · norm_num [exNormalizer]
    · norm_num [exNormalizer]
    · simp [exNormalizer] at h1
  obtain ⟨z, ts, nOut, nIn, ds, s, m', e1, e2, e3, e4, e5, e6⟩ := C73_normalised_text_partial (normTexts plan) L exNormalizer hN C hC normNet
    normNet_wf rfl plan h1 (normTexts_of L plan h2)
    (by
      intro n hn
      rw [h2] at hn
      simp only [List.mem_cons, List.not_mem_nil, or_false] at hn
      rcases hn with rfl | rfl <;> trivial)
    (by
      intro l hl
      rw [h2] at hl
      simp at hl
      subst hl; rfl)
    ⟨[2], x⟩ m hx
    (by
      intro l hl r s e
      simp only [normNet, List.mem_cons, List.not_mem_nil, or_false] at hl
      rcases hl with rfl | rfl <;> simp [normNet] at e
      rw [← e.2]; rfl)
    hm (B := cstBufsAt 2) ⟨by decide, by decide, by decide, by decide⟩ hc
    (by
      intro x' _ n ins hr
      obtain ⟨pre, post, st, he, _⟩ := hr
      have hn : n ∈ [0, 1] := by rw [← h2, he]; simp
      simp only [List.mem_cons, List.not_mem_nil, or_false] at hn
      rcases hn with rfl | rfl <;> trivial)
  exact ⟨plan, C, m, z, ts, nOut, nIn, ds, s, m', h1, hC, hm, hc, e1, e2, e3, e4, e5, e6⟩

/-! ## The files -/

/-- the tokens of a number -/
def ratText (v : ℚ) : List (CTok ℚ) := if v < 0 then [.punct .minus, .flt (-v)] else [.flt v]

theorem ratText_const (v : ℚ) : Const (ratText v) v := by
  unfold ratText
  split
  · have := Const.neg (-v); rwa [neg_neg] at this
  · exact .pos v

theorem exDesc_params : parArrays 0 (nnetOp exDesc.net 0) = [] ∧
    parArrays 1 (nnetOp exDesc.net 1) = [(parId (chars! "weights_Dense") 1, [1, 2, -1, 0]), (parId (chars! "biases_Dense") 1, [0, -3])] ∧
    parArrays 2 (nnetOp exDesc.net 2) = [(parId (chars! "weights_Dense") 2, [1, 1]), (parId (chars! "biases_Dense") 2, [5])] := ⟨rfl, rfl, rfl⟩

/-- The hypotheses of `C73_nnet_program` hold for `exDesc` and its file, on every input of two numbers, with any library. -/
theorem C73_program_example (L : Lib ℚ) {pf : Line → Option ℚ} (T : Codec ℚ pf) (x : List ℚ) (hx : x.length = 2) :
    ∃ net x' y' tp defs tg norm vars th fields ti ds s m m', loadNnet pf (exDesc.file T) = some net ∧ net.normalizer.preProcessing 2 x = some x' ∧
      net.normalizer.postProcessing (nnetEval exDesc.layers x') = some y' ∧
      paramText intDbl 0 (nnetNetwork net).op net.plan.order = some tp ∧ IsDefs 0 tp defs ∧
      globalVarsTextN ratText net.normalizer = some tg ∧ IsGlobals tg norm vars ∧
      headerTextN net.normalizer (nnetNetwork net) net.plan = some th ∧
      IsHeaderN th fields (defs.map ArrDef.decl) (norm.map ArrDef.decl) (vars.map (·.1)) ∧
      nnetText net = some ti ∧ IsInference ti 1 2 ds s ∧ Declared ds s ∧
      Within s.arrays (Bound fields (defs.map ArrDef.decl ++ norm.map ArrDef.decl) ds) ∧
      StartsN (cstBufsAt 3) fields defs norm 1 x m ∧ RunsV L (cstBufsAt 3) vars ds s m m' ∧ Holds m' .pred y' := by
  have hd : exDesc.Ok := by
    refine ⟨?_, ?_⟩
    · intro l hl
      simp only [exDesc, List.mem_singleton] at hl
      exact ⟨_, hl.trans rfl⟩
    · simp [exDesc, LayersFit]
  have hN : exDesc.net.normalizer.WellFormed := by
    refine ⟨by decide, rfl, rfl, rfl, rfl, ?_⟩
    intro i h1 h2
    rcases i with _ | _ | i
    · norm_num [exDesc, NnetDesc.net]
    · norm_num [exDesc, NnetDesc.net]
    · simp [exDesc, NnetDesc.net] at h1
  obtain ⟨q0, q1, q2⟩ := exDesc_params
  have arr : ∀ n ∈ exDesc.net.plan.order, ∀ p ∈ parArrays n ((nnetNetwork exDesc.net).op n), p.2 ≠ [] ∧ ∀ v ∈ p.2, Exact intDbl v := by
    intro n hn p hp
    rw [net_order] at hn
    have hn3 : n = 0 ∨ n = 1 ∨ n = 2 := by
      have : n < 3 := List.mem_range.1 hn
      omega
    have hp' : p ∈ parArrays n (nnetOp exDesc.net n) := hp
    suffices hs : p.2 ≠ [] ∧ ∀ v ∈ p.2, ∃ z : ℤ, z.natAbs < 2 ^ 52 ∧ (z : ℚ) = v by
      refine ⟨hs.1, fun v hv => ?_⟩
      obtain ⟨z, h1, rfl⟩ := hs.2 v hv
      exact exact_int z h1
    rcases hn3 with rfl | rfl | rfl
    · rw [q0] at hp'; cases hp'
    · rw [q1] at hp'
      simp only [List.mem_cons, List.not_mem_nil, or_false] at hp'
      rcases hp' with rfl | rfl
      · refine ⟨by simp, fun v hv => ?_⟩
        simp only [List.mem_cons, List.not_mem_nil, or_false] at hv
        rcases hv with rfl | rfl | rfl | rfl
        · exact ⟨1, by norm_num, by norm_num⟩
        · exact ⟨2, by norm_num, by norm_num⟩
        · exact ⟨-1, by norm_num, by norm_num⟩
        · exact ⟨0, by norm_num, by norm_num⟩
      · refine ⟨by simp, fun v hv => ?_⟩
        simp only [List.mem_cons, List.not_mem_nil, or_false] at hv
        rcases hv with rfl | rfl
        · exact ⟨0, by norm_num, by norm_num⟩
        · exact ⟨-3, by norm_num, by norm_num⟩
    · rw [q2] at hp'
      simp only [List.mem_cons, List.not_mem_nil, or_false] at hp'
      rcases hp' with rfl | rfl
      · refine ⟨by simp, fun v hv => ?_⟩
        simp only [List.mem_cons, List.not_mem_nil, or_false] at hv
        rcases hv with rfl | rfl <;> exact ⟨1, by norm_num, by norm_num⟩
      · refine ⟨by simp, fun v hv => ?_⟩
        simp only [List.mem_cons, List.not_mem_nil, or_false] at hv
        subst hv
        exact ⟨5, by norm_num, by norm_num⟩
  obtain ⟨x', y', tp, defs, tg, norm, vars, th, fields, ti, ds, s, e1, -, e3, r1, r2, r3, r4, r5, r6, r7, r8, r9, r10, ⟨m, hm⟩, r11⟩ :=
    C73_nnet_program L T exDesc hd exDesc.net (load_spec T exDesc hd) hN intDbl 0 (fun n hn p hp => (arr n hn p hp).2) ratText (fun _ _ v _ => ratText_const v) x hx
      (B := cstBufsAt 3) ⟨by decide, by decide, by decide, by decide⟩
  obtain ⟨m', h1, h2⟩ := r11 m hm
  exact ⟨_, x', y', tp, defs, tg, norm, vars, th, fields, ti, ds, s, m, m', load_spec T exDesc hd, e1, e3, r1, r2, r3, r4, r5, r6, r7, r8, r9,
    r10 (fun n hn p hp => (arr n hn p hp).1), hm, h1, h2⟩

end Verif.CText

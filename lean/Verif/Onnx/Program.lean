import Verif.Onnx.Generated
import Verif.CText.SourceExamples

/-!
# C64: the program generated for an ONNX model

C61 and C63 without hypotheses on the texts: every layer that the importer makes for a supported node has a text, and the
dimensions that the texts divide by are not zero.
-/

namespace Verif.Onnx
open Net Layers Graph CText
open scoped Classical

/-- a number, with its sign -/
noncomputable def snum (v : ℝ) : SNum ℝ := ⟨decide (v < 0), |v|⟩

theorem snum_val (v : ℝ) : (snum v).val = v := by
  unfold SNum.val snum
  by_cases h : v < 0
  · simp [h, abs_of_neg h]
  · simp [h, abs_of_nonneg (not_lt.1 h)]

/-- Clip nodes have two bounds: the text of an infinite one is `inf`, which is not C -/
def Bounded (n : Node) : Prop := n.op = .Clip → n.input? 1 ≠ some "" ∧ n.input? 2 ≠ some ""

/-- the activation functions of imported nodes are texts -/
theorem activation_text {L : Lib ℝ} (hexp : L.exp = Real.exp) (hlog : L.log = Real.log) (hsqrt : L.sqrt = Real.sqrt) {m : Model} {n : Node} (hb : Bounded n)
    {f : ℝ → ℝ} (h : activation m n = some f) : ∃ a : CAct ℝ, a.fn (std L) = f := by
  have hL : L = realLib L.inf := by
    cases L; simp only at hexp hlog hsqrt; subst hexp hlog hsqrt; rfl
  rw [hL]
  unfold activation at h
  split at h
  · cases h; exact ⟨.relu, C54_activation_compute _ _ trivial⟩
  · cases h; exact ⟨.tanh, C54_activation_compute _ _ trivial⟩
  · cases h; exact ⟨.sigmoid, C54_activation_compute _ _ trivial⟩
  · cases h; exact ⟨.exponential, C54_activation_compute _ _ trivial⟩
  · cases h; exact ⟨.logarithm, C54_activation_compute _ _ trivial⟩
  · simp only [Option.ite_none_right_eq_some, Option.some.injEq] at h
    obtain ⟨ha, rfl⟩ := h
    refine ⟨.leakyRelu (snum ((n.float? "alpha").getD 0.01)), ?_⟩
    have hp : (CAct.leakyRelu (snum ((n.float? "alpha").getD 0.01))).py = .leakyRelu ((n.float? "alpha").getD 0.01) := by simp only [CAct.py, snum_val]
    rw [C54_activation_compute _ _ (by rw [hp]; exact ha), hp]
  · rename_i hop
    obtain ⟨x1, h1, h⟩ := Option.bind_eq_some_iff.mp h
    obtain ⟨lo, hlo, h⟩ := Option.bind_eq_some_iff.mp h
    obtain ⟨x2, h2, h⟩ := Option.bind_eq_some_iff.mp h
    obtain ⟨hi, hhi, h⟩ := Option.bind_eq_some_iff.mp h
    simp only [Option.ite_none_right_eq_some, Option.some.injEq] at h
    obtain ⟨hle, rfl⟩ := h
    have bound : ∀ {s : String} {b : Option ℝ}, s ≠ "" → clipBound m s = some b → ∃ v, b = some v := by
      intro s b hs h
      unfold clipBound at h
      rw [if_neg hs] at h
      obtain ⟨i, _, h⟩ := Option.bind_eq_some_iff.mp h
      obtain ⟨t, _, h⟩ := Option.bind_eq_some_iff.mp h
      split at h
      · cases h; exact ⟨_, rfl⟩
      · cases h
    obtain ⟨l, rfl⟩ := bound (fun e => (hb hop).1 (by rw [h1, e])) hlo
    obtain ⟨u, rfl⟩ := bound (fun e => (hb hop).2 (by rw [h2, e])) hhi
    have hlu : l ≤ u := hle l rfl u rfl
    refine ⟨.clip (snum u) (snum l), ?_⟩
    have hp : (CAct.clip (snum u) (snum l)).py = .clip u l := by simp only [CAct.py, snum_val]
    rw [C54_activation_compute _ _ (by rw [hp]; exact hlu), hp]
    rfl
  · cases h

theorem scale_exists (v : ℝ) : ∃ al : Option (SNum ℝ), scaleList al = factor v := by
  unfold factor
  by_cases h : v = 1
  · exact ⟨none, by simp [h, scaleList]⟩
  · exact ⟨some (snum v), by simp [h, scaleList, snum_val]⟩

variable {m : Model} {input out : String} {x : Nd ℝ} {E : Spec.Env} {op : Op ℝ} {names : List String} {y : Nd ℝ} {n : Node} {im : Model} {as : List (Option (Nd ℝ))}

/-- **Texts.**  Every layer made for a supported node has a text. -/
theorem Origin.emits {L : Lib ℝ} (hexp : L.exp = Real.exp) (hlog : L.log = Real.log) (hsqrt : L.sqrt = Real.sqrt) (ho : Origin m E op names y n im as) (hb : Bounded n)
    (hok : op.OK) {srcs : List Ref} (hl : srcs.length = op.inSizes.length) (idx road : Nat) :
    ∃ text hash, Emits L .first idx road op srcs text hash := by
  have one : ∀ {a : Nat}, op.inSizes = [a] → ∃ r, srcs = [r] := fun h => by
    rw [h] at hl; exact List.length_eq_one_iff.mp hl
  have hid : (CAct.linear : CAct ℝ).fn (std L) = id := rfl
  rcases ho.kind with ⟨hr, hp⟩ | ⟨o, f, _, hf, rfl⟩ | ⟨o, s, a, _, _, rfl⟩
  · cases op <;> simp only [Op.reshapes, Bool.false_eq_true] at hr
    case matmul C C' H Kd W act =>
      obtain ⟨l, r, rfl⟩ := List.length_eq_two.mp hl
      obtain rfl : act = id := hp
      exact ⟨_, _, Emits.matmul C C' H Kd W .linear l r⟩
    case gemm tA tB M N Kd alpha beta w c act =>
      obtain ⟨r, rfl⟩ := one rfl
      obtain rfl : act = id := hp
      obtain ⟨al, ha⟩ := scale_exists alpha
      obtain ⟨be, hb⟩ := scale_exists beta
      cases tA <;> cases tB
      · exact ⟨_, _, Emits.gemmNN M N Kd alpha beta w c al be .linear r ha hb⟩
      · exact ⟨_, _, Emits.gemmNT M N Kd alpha beta w c al be .linear r ha hb⟩
      · exact ⟨_, _, Emits.gemmTN M N Kd alpha beta w c al be .linear r ha hb⟩
      · exact ⟨_, _, Emits.gemmTT M N Kd alpha beta w c al be .linear r ha hb⟩
    case conv impl c w b act =>
      obtain ⟨r, rfl⟩ := one rfl
      obtain rfl : act = id := hp
      cases impl
      · exact ⟨_, _, Emits.conv6 c w b .linear r⟩
      · exact ⟨_, _, Emits.stdGemm c w b .linear r⟩
    case maxPool c act =>
      obtain ⟨r, rfl⟩ := one rfl
      obtain rfl : act = id := hp
      exact ⟨_, _, Emits.maxPool c .linear r⟩
    case avgPool c act =>
      obtain ⟨r, rfl⟩ := one rfl
      obtain rfl : act = id := hp
      exact ⟨_, _, Emits.avgPool c .linear r⟩
    case broadcast b o ss cst act =>
      obtain ⟨rfl, _⟩ : act = id ∧ _ := hp
      cases ss with
      | nil => cases b <;> exact absurd hok (by simp [Op.OK])
      | cons s ss =>
        cases srcs with
        | nil => simp [Op.inSizes] at hl
        | cons r rs => exact ⟨_, _, Emits.broadcast b o s ss cst .linear r rs⟩
    case concat a ins act =>
      obtain rfl : act = id := hp
      exact ⟨_, _, Emits.concat a ins .linear srcs⟩
    case gather a s d l act =>
      obtain ⟨r, rfl⟩ := one rfl
      obtain rfl : act = id := hp
      exact ⟨_, _, Emits.gather a s d l .linear r⟩
    case gatherElements a s o l act =>
      obtain ⟨r, rfl⟩ := one rfl
      obtain rfl : act = id := hp
      exact ⟨_, _, Emits.gatherElements a s o l .linear r⟩
    case transpose s p act =>
      obtain ⟨r, rfl⟩ := one rfl
      obtain rfl : act = id := hp
      exact ⟨_, _, Emits.transpose s p .linear r⟩
    case constantPad s p c act =>
      obtain ⟨r, rfl⟩ := one rfl
      obtain rfl : act = id := hp
      have := Emits.constantPad (L := L) (fmt := .first) (idx := idx) (road := road) s p (snum c) .linear r
      rw [snum_val] at this
      exact ⟨_, _, this⟩
    case pad mode s p act =>
      obtain ⟨r, rfl⟩ := one rfl
      obtain ⟨rfl, _⟩ : act = id ∧ _ := hp
      cases mode
      · exact ⟨_, _, Emits.edgePad s p .linear r⟩
      · exact ⟨_, _, Emits.reflectPad s p .linear r⟩
      · exact ⟨_, _, Emits.wrapPad s p .linear r⟩
    case batchNorm s eps scale mean var bias act =>
      obtain ⟨r, rfl⟩ := one rfl
      obtain rfl : act = id := hp
      have := Emits.batchNorm (L := L) (fmt := .first) (idx := idx) (road := road) s (snum eps) scale mean var bias .linear r
      rw [snum_val] at this
      exact ⟨_, _, this⟩
  · obtain ⟨r, rfl⟩ := one rfl
    obtain ⟨a, rfl⟩ := activation_text hexp hlog hsqrt hb hf
    exact ⟨_, _, Emits.activation _ a r⟩
  · obtain ⟨r, rfl⟩ := one rfl
    cases h1 : softmaxOneDim s.size s.C s.H s.W with
    | true => exact ⟨_, _, Emits.softmax1 s a .linear r h1⟩
    | false =>
      obtain ⟨b, rfl⟩ := hok.2.resolve_left (by simp [h1])
      exact ⟨_, _, Emits.softmax3 s b .linear r h1⟩

/-- the dimensions that the texts divide by are not zero -/
theorem Origin.positive (ho : Origin m E op names y n im as) (hok : op.OK) : op.Positive := by
  rcases ho.kind with ⟨hr, hp⟩ | ⟨o, f, _, hf, rfl⟩ | ⟨o, s, a, _, _, rfl⟩
  · cases op <;> simp only [Op.reshapes, Bool.false_eq_true] at hr
    case pad mode s p act => exact hp.2
    case broadcast b o ss cst act =>
      obtain ⟨_, p1, p2, p3⟩ := hp
      cases ss with
      | nil => cases b <;> exact absurd hok (by simp [Op.OK])
      | cons s ss =>
        have key : s = o ∧ (∀ t ∈ ss, (t.C = 1 ∨ t.C = o.C) ∧ (t.H = 1 ∨ t.H = o.H) ∧ (t.W = 1 ∨ t.W = o.W)) ∧ ∀ c ∈ cst, fits o.C o.H o.W c := by
          cases b <;> first | exact hok.2 | cases hr
        obtain ⟨rfl, h2, h3⟩ := key
        refine ⟨fun t ht => ?_, fun c hc => ?_⟩
        · rcases List.mem_cons.1 ht with rfl | ht
          · exact ⟨p1, p2, p3⟩
          · have := h2 t ht
            unfold Pos3; omega
        · have := h3 c hc
          unfold fits at this
          unfold Pos3; omega
    all_goals trivial
  · trivial
  · trivial

/-- **What the layers are.**  Each layer of the imported network is the input, a constant, or made for a supported node, and then
it receives the values of the operands that were recorded for it. -/
theorem import_parts {M : CMath ℝ} (hexp : M.exp = Real.exp) (hsqrt : M.sqrt = Real.sqrt) (hv : Valid m input out) (hx : x.Ok)
    (he : Spec.eval m input x = some E) (hf : Fits m E) {net : Network ℝ} {plan : Plan} (h : loadOnnx m = some (net, plan)) :
    (∀ k, k ∈ plan.order ↔ ∃ l ∈ net.graph, l.idx = k) ∧ ∀ k ∈ plan.order,
      (net.graph.prevOf k = [] ∧ ((∃ d, net.op k = inputOp d) ∨ ∃ v, net.op k = .constant v)) ∨
      ∃ names y n im as, Origin m E (net.op k) names y n im as ∧ Correct M E (net.op k) names y ∧
        ∀ ins, net.Receives M plan x k ins → List.Forall₂ (fun s i => ∃ t, E s = some t ∧ i.data = t.data) names ins := by
  unfold loadOnnx at h
  obtain ⟨net', h1, h⟩ := Option.bind_eq_some_iff.mp h
  obtain ⟨plan', htt, h⟩ := Option.bind_eq_some_iff.mp h
  cases h
  obtain ⟨st, ls, vals, cs, rfl, hI, hL⟩ := import_inv (M := M) hexp hsqrt hv hx he hf h1
  have hu := net_unique ls
  have hc := net_consistent hI hL
  have hsorted := plan_sorted htt
  have hperm := plan_perm hu hc htt
  have hlk := links hu hc
  have hmem : ∀ n, n ∈ plan.order ↔ n < ls.layers.length := fun n => by
    rw [hperm.mem_iff, show ls.net.graph.idxs = List.range ls.layers.length from graph_idxs ls, List.mem_range]
  have hcl : ∀ n ∈ plan.order, ∀ s ∈ ls.net.graph.nextOf n, s ∈ plan.order := by
    intro n _ s hsn
    exact hperm.mem_iff.2 (next_closed hu hc n (nextOf_idx hsn) s hsn)
  have : Inhabited (Nd ℝ) := ⟨⟨[], []⟩⟩
  obtain ⟨v, hval⟩ := exists_valuationE (x := x) (fwd := fun n => (ls.net.op n).forward M ls.net.fmt)
    (P := fun n (z : Nd ℝ) => (vals ++ cs.map Nd.data)[n]? = some z.data) hsorted (by
      intro pre n post ho v hpre
      have hn : n < ls.layers.length := (hmem n).mp (by rw [ho]; simp)
      refine layer_value hI hL hn fun p hp => ?_
      exact (hpre p ((hsorted pre n post ho).2 p hp)).2)
  have hop : ∀ {k o}, ls.layers[k]? = some o → ls.net.op k = o := fun h => by simp [LinkState.net, h]
  refine ⟨fun k => ?_, fun k hk => ?_⟩
  · rw [hmem]
    constructor
    · intro hk; exact ⟨_, graph_mem.mpr ⟨k, hk, rfl⟩, rfl⟩
    · rintro ⟨l, hl, rfl⟩
      obtain ⟨k, hk, rfl⟩ := graph_mem.mp hl
      exact hk
  · have hk' := (hmem k).mp hk
    rcases Nat.lt_or_ge k st.layers.length with hlt | hge
    · rcases Nat.eq_zero_or_pos k with rfl | hpos
      · obtain ⟨d, _, g1, _⟩ := hI.first
        refine .inl ⟨prev_nil hI hL hk' (.inl rfl), .inl ⟨d, hop ?_⟩⟩
        rw [hL.layers, List.getElem?_append_left hlt]; exact g1
      · obtain ⟨e, hee, rfl⟩ := (key_iff hI k).mpr ⟨by omega, hlt⟩
        obtain ⟨op, z, g1, g2, hc', n, im, as, ho⟩ := hI.made e hee
        have e1 : ls.net.op e.1 = op := hop (by rw [hL.layers, List.getElem?_append_left hlt]; exact g1)
        refine .inr ⟨e.2, z, n, im, as, by rw [e1]; exact ho, by rw [e1]; exact hc', ?_⟩
        rintro ins ⟨pre, post, st', hord, hfold, hg⟩
        have hs := stepE_steps (x := x) (v := v) hsorted hlk hcl pre (e.1 :: post) hord (fun i hi => (hval i (by rw [hord]; simp [hi])).1)
        rw [hfold] at hs
        cases hs
        rw [gather_args hsorted hlk hord] at hg
        cases hg
        have hrel := prev_rel hI hL hee
        have hne : ls.net.graph.prevOf e.1 ≠ [] := by
          intro h0
          rw [show ls.graph.prevOf e.1 = [] from h0] at hrel
          exact hc'.1 (List.forall₂_nil_right_iff.mp hrel)
        have hargs : argsOf ls.net.graph.prevOf x v e.1 = (ls.graph.prevOf e.1).map v := by
          unfold argsOf
          rw [if_neg hne]; rfl
        rw [hargs, List.forall₂_map_right_iff, List.forall₂_iff_get]
        rw [List.forall₂_iff_get] at hrel
        refine ⟨hrel.1, fun i h h' => ?_⟩
        obtain ⟨_, t, h3, h4⟩ := hrel.2 i h h'
        have hmp : (ls.graph.prevOf e.1).get ⟨i, h'⟩ ∈ plan.order := by
          have : (ls.graph.prevOf e.1).get ⟨i, h'⟩ ∈ pre := (hsorted pre e.1 post hord).2 _ (List.get_mem _ _)
          rw [hord]; simp only [List.mem_append]; exact .inl this
        have := (hval _ hmp).2
        rw [h4] at this
        exact ⟨t, h3, by simpa using this.symm⟩
    · refine .inl ⟨prev_nil hI hL hk' (.inr hge), .inr ?_⟩
      have hk2 : k - st.layers.length < cs.length := by rw [hL.layers] at hk'; simp at hk'; omega
      refine ⟨cs[k - st.layers.length], hop ?_⟩
      rw [hL.layers, List.getElem?_append_right hge, List.getElem?_map, List.getElem?_eq_getElem hk2]; rfl

/-- the texts of the layers of an imported network -/
theorem import_texts {L : Lib ℝ} (hexp : L.exp = Real.exp) (hlog : L.log = Real.log) (hsqrt : L.sqrt = Real.sqrt) (hv : Valid m input out) (hx : x.Ok)
    (hxd : ∀ d, m.inputs = [(input, d)] → x.data.length = findSize d)
    (he : Spec.eval m input x = some E) (hf : Fits m E) (hb : ∀ n ∈ m.nodes, Bounded n) {net : Network ℝ} {plan : Plan} (h : loadOnnx m = some (net, plan))
    (hsimple : SimpleInputs net.graph) (hcode : ∀ l ∈ net.graph, CodeOk (net.op l.idx)) :
    (∃ t : Texts ℝ, t.Of L net plan) ∧ ∀ k ∈ plan.order, (net.op k).Positive := by
  have hg := import_generable L.cmath hexp hsqrt hv hx hxd he hf h hsimple hcode
  obtain ⟨hmem, hparts⟩ := import_parts (M := L.cmath) hexp hsqrt hv hx he hf h
  have hfmt := (import_wf L hexp hsqrt hv hx hxd he hf h hg).2.2.1
  have hu := (import_wf L hexp hsqrt hv hx hxd he hf h hg).1.unique
  have each : ∀ k ∈ plan.order, (∃ text hash, Emits L net.fmt k (plan.path k) (net.op k) ((net.graph.prevOf k).map (srcRef plan)) text hash) ∧ (net.op k).Positive := by
    intro k hk
    rw [hfmt]
    obtain ⟨l, hl, rfl⟩ := (hmem k).mp hk
    rcases hparts _ hk with ⟨hp, ⟨d, hd⟩ | ⟨v, hd⟩⟩ | ⟨names, y, n, im, as, ho, hc, _⟩
    · rw [hp, hd]
      have : ∃ r s, inputOp d = .input r s := by
        unfold inputOp
        split
        · split <;> exact ⟨_, _, rfl⟩
        · exact ⟨_, _, rfl⟩
      obtain ⟨r, s, hi⟩ := this
      rw [hi]
      exact ⟨⟨_, _, Emits.input r s⟩, trivial⟩
    · rw [hp, hd]
      exact ⟨⟨_, _, Emits.constant v⟩, trivial⟩
    · have hok := hg.ok l hl
      refine ⟨ho.emits hexp hlog hsqrt (hb n ho.node) hok ?_ _ _, ho.positive hok⟩
      rw [List.length_map, ← hg.sizes l hl, List.length_map, prevOf_mem hu hl]
  have : Inhabited (List Char) := ⟨[]⟩
  have : Inhabited (Hash ℝ) := ⟨[]⟩
  choose! t hh ht using fun k hk => (each k hk).1
  exact ⟨⟨⟨t, hh⟩, ht⟩, fun k hk => (each k hk).2⟩

theorem inputsOK_of {M : CMath ℝ} {op : Op ℝ} {ins : List (Nd ℝ)} (hr : Op.reshapes op = true) (hpool : ∀ c f, op = .maxPool c f → c.padTop = 0 ∧ c.padLeft = 0)
    (hall : ∀ i ∈ ins, ∀ a ∈ i.data, M.ninf < a) : op.InputsOK M ins := by
  cases op <;> simp only [Op.reshapes, Bool.false_eq_true] at hr
  case maxPool c f => exact fun i hi => ⟨hall i hi, .inl (hpool c f rfl)⟩
  case broadcast b _ _ _ _ => cases b <;> first | trivial | cases hr
  all_goals trivial

/-- maximum pooling starts from `-INFINITY`, which is less than the numbers of the model -/
theorem import_inputsOK {M : CMath ℝ} (hexp : M.exp = Real.exp) (hsqrt : M.sqrt = Real.sqrt) (hv : Valid m input out) (hx : x.Ok)
    (he : Spec.eval m input x = some E) (hf : Fits m E) {net : Network ℝ} {plan : Plan} (h : loadOnnx m = some (net, plan))
    (hcode : ∀ l ∈ net.graph, CodeOk (net.op l.idx)) (hmin : ∀ s t, E s = some t → ∀ a ∈ t.data, M.ninf < a) :
    ∀ n ins, net.Receives M plan x n ins → (net.op n).InputsOK M ins := by
  obtain ⟨hmem, hparts⟩ := import_parts (M := M) hexp hsqrt hv hx he hf h
  intro k ins hrec
  have hk : k ∈ plan.order := by obtain ⟨pre, post, st, ho, _⟩ := hrec; rw [ho]; simp
  obtain ⟨l, hl, hlk⟩ := (hmem k).mp hk
  rcases hparts _ hk with ⟨hp, ⟨d, hd⟩ | ⟨v, hd⟩⟩ | ⟨names, y, n, im, as, ho, hc, hr⟩
  · rw [hd]
    unfold inputOp
    split
    · split <;> trivial
    · trivial
  · rw [hd]; trivial
  · have hins := hr ins hrec
    obtain ⟨z, hz, _⟩ := hc.2 ins hins
    have hok := ho.ok (by rw [← hlk]; exact hcode l hl) hz hins.length_eq.symm
    rcases ho.kind with ⟨hrs, _⟩ | ⟨o, f, _, hf, e⟩ | ⟨o, s, a, _, _, e⟩
    · have hpool : ∀ c f, net.op k = .maxPool c f → c.padTop = 0 ∧ c.padLeft = 0 := ho.maxPool_pads
      refine inputsOK_of hrs hpool fun i hi => ?_
      obtain ⟨j, hj, rfl⟩ := List.getElem_of_mem hi
      rw [List.forall₂_iff_get] at hins
      obtain ⟨t, h1, h2⟩ := hins.2 j (by rw [hins.1]; exact hj) hj
      intro a ha
      refine hmin _ t h1 a ?_
      rw [← h2]; exact ha
    · rw [e]; trivial
    · rw [e]; trivial

/-- **C64** (partial: the operators of `Supported`, exact real arithmetic).  Take an ONNX model `m` with one input and one output, whose nodes are
supported; an input `x` with the declared number of elements; the value `y` that the ONNX specification gives to the output; and assume
that the importer accepts `m`, that no layer has the same producer twice, that the layers are within `CodeOk`, that Clip nodes have
two bounds, that the parameters are numbers that can be written exactly and not empty, and that `-INFINITY` is less than the numbers of the model.  Then the generator has a text for
every layer; with these texts `parameters.c` is definitions of constant arrays, `inference.h` declares the context and exactly these
arrays, `inference.c` is a C function all of whose arrays are declared; and this function, called on any memory that these
declarations and definitions describe with `x` in `nn_input`, terminates and leaves exactly the elements of `y` in `prediction`. -/
theorem C64_onnx_program_partial (L : Lib ℝ) (hexp : L.exp = Real.exp) (hlog : L.log = Real.log) (hsqrt : L.sqrt = Real.sqrt)
    (hv : Valid m input out) (hx : x.Ok) (hxd : ∀ d, m.inputs = [(input, d)] → x.data.length = findSize d)
    (he : Spec.eval m input x = some E) (hf : Fits m E) (hb : ∀ n ∈ m.nodes, Bounded n)
    (hmin : ∀ s t, E s = some t → ∀ a ∈ t.data, -L.inf < a) {y : Nd ℝ} (hy : E out = some y)
    {net : Network ℝ} {plan : Plan} (h : loadOnnx m = some (net, plan)) (hsimple : SimpleInputs net.graph)
    (hcode : ∀ l ∈ net.graph, CodeOk (net.op l.idx))
    (dbl : ℝ → Gen.Dbl) (page : Nat) (hr : CText.Network.Representable net plan dbl) (hne : CText.Network.NoEmpty net plan) :
    (∃ t : Texts ℝ, t.Of L net plan) ∧ ∀ t : Texts ℝ, t.Of L net plan →
    ∃ tp defs th fields ti nOut nIn ds s,
      paramText dbl page net.op plan.order = some tp ∧ IsDefs page tp defs ∧
      headerText net plan = some th ∧ IsHeader th fields (defs.map ArrDef.decl) ∧ (fields.map (·.id)).Nodup ∧ (defs.map (·.id)).Nodup ∧
      sourceText t net plan = some ti ∧ IsInference ti nOut nIn ds s ∧ CText.Declared ds s ∧ Within s.arrays (Bound fields (defs.map ArrDef.decl) ds) ∧
      nIn = x.data.length ∧ y.data.length ≤ nOut ∧
      (∃ mem, Starts fields defs nOut x.data mem) ∧
      ∀ mem, Starts fields defs nOut x.data mem → ∃ m', Runs L ds s mem m' ∧ Holds m' .pred y.data := by
  obtain ⟨ht, hpos⟩ := import_texts hexp hlog hsqrt hv hx hxd he hf hb h hsimple hcode
  exact ⟨ht, fun t ht => C63_onnx_program_partial t L hexp hsqrt hv hx hxd he hf hy h hsimple hcode ht hpos dbl page hr hne
    (import_inputsOK (M := L.cmath) hexp hsqrt hv hx he hf h hcode hmin)⟩

end Verif.Onnx

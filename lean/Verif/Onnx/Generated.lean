import Verif.Onnx.Sizes
import Verif.CText.Project

/-!
# C61, C63: from an ONNX model to the text of `inference.c` and to the generated files

C60 (import) followed by C55 (generation).
-/

namespace Verif.Onnx
open Net Layers Graph CText
open scoped Classical

variable {m : Model} {input out : String} {x : Nd ℝ} {E : Spec.Env}

/-- the conditions of C52 on the layers of a network that an import does not settle: no layer has the same producer twice, the
parameters of the layers are in the domain of the theorems on the generated code, the tensors have the sizes that the layers
expect, layers that need it own their array -/
structure Generable (net : Network ℝ) : Prop where
  simple : SimpleInputs net.graph
  ok : ∀ l ∈ net.graph, (net.op l.idx).OK
  sizes : ∀ l ∈ net.graph, l.prev.map (fun p => (net.op p).size) = (net.op l.idx).inSizes
  own : ∀ l ∈ net.graph, (net.op l.idx).NeedsOwn → ∃ p ∈ net.graph, l.prev = [p.idx] ∧ p.next = [l.idx]

theorem inputOp_size {d : List Nat} {r : Bool} {s : Shape} (h : inputOp d = .input r s) : s.size = findSize d := by
  unfold inputOp at h
  split at h
  · split at h
    · rename_i hc
      cases h; exact hc
    · cases h; simp [Shape.size]
  · cases h; simp [Shape.size]

/-- the only condition on imported layers besides `CodeOk`: no layer has the same producer twice -/
theorem import_generable (M : CMath ℝ) (hexp : M.exp = Real.exp) (hsqrt : M.sqrt = Real.sqrt)
    (hv : Valid m input out) (hx : x.Ok) (hxd : ∀ d, m.inputs = [(input, d)] → x.data.length = findSize d)
    (he : Spec.eval m input x = some E) (hf : Fits m E)
    {net : Network ℝ} {plan : Plan} (h : loadOnnx m = some (net, plan)) (hsimple : SimpleInputs net.graph)
    (hcode : ∀ l ∈ net.graph, CodeOk (net.op l.idx)) : Generable net := by
  unfold loadOnnx at h
  obtain ⟨net', himp, h⟩ := Option.bind_eq_some_iff.mp h
  obtain ⟨plan', htt, h⟩ := Option.bind_eq_some_iff.mp h
  cases h
  obtain ⟨st, ls, vals, cs, rfl, hI, hL⟩ := import_inv (M := M) hexp hsqrt hv hx he hf himp
  have hcode' : ∀ k < ls.layers.length, CodeOk (ls.net.op k) := fun k hk => hcode _ (graph_mem.mpr ⟨k, hk, rfl⟩)
  have hop : ∀ {k o}, ls.layers[k]? = some o → ls.net.op k = o := fun h => by simp [LinkState.net, h]
  have hll : st.layers.length ≤ ls.layers.length := by rw [hL.layers]; simp
  have hlen : (vals ++ cs.map Nd.data).length = ls.layers.length := by rw [hL.layers]; simp [hI.length]
  -- the layers
  have cases3 : ∀ k < ls.layers.length, (k = 0 ∧ ∃ d, m.inputs = [(input, d)] ∧ ls.net.op k = inputOp d ∧ (vals ++ cs.map Nd.data)[k]? = some x.data) ∨
      (∃ e ∈ st.dictIn, e.1 = k ∧ ∃ y, Correct M E (ls.net.op k) e.2 y ∧ (vals ++ cs.map Nd.data)[k]? = some y.data ∧ ∃ n im as, Origin m E (ls.net.op k) e.2 y n im as) ∨
      (st.layers.length ≤ k ∧ ∃ v, ls.net.op k = .constant v ∧ (vals ++ cs.map Nd.data)[k]? = some v.data) := by
    intro k hk
    rcases Nat.lt_or_ge k st.layers.length with hk' | hk'
    · rcases Nat.eq_zero_or_pos k with rfl | hpos
      · obtain ⟨d, h0, h1, h2⟩ := hI.first
        refine .inl ⟨rfl, d, h0, hop ?_, ?_⟩
        · rw [hL.layers, List.getElem?_append_left hk']; exact h1
        · rw [List.getElem?_append_left (by rw [hI.length]; exact hk')]; exact h2
      · obtain ⟨e, hee, rfl⟩ := (key_iff hI k).mpr ⟨by omega, hk'⟩
        obtain ⟨op, z, h1, h2, hc, ho⟩ := hI.made e hee
        have : ls.net.op e.1 = op := hop (by rw [hL.layers, List.getElem?_append_left hk']; exact h1)
        refine .inr (.inl ⟨e, hee, rfl, z, by rw [this]; exact hc, ?_, by rw [this]; exact ho⟩)
        rw [List.getElem?_append_left (by rw [hI.length]; exact hk')]; exact h2
    · have hlc : k - st.layers.length < cs.length := by
        have : ls.layers.length = st.layers.length + cs.length := by rw [hL.layers]; simp
        omega
      refine .inr (.inr ⟨hk', cs[k - st.layers.length], hop ?_, ?_⟩)
      · rw [hL.layers, List.getElem?_append_right hk', List.getElem?_map, List.getElem?_eq_getElem hlc]; rfl
      · rw [List.getElem?_append_right (by rw [hI.length]; exact hk'), hI.length, List.getElem?_map, List.getElem?_eq_getElem hlc]; rfl
  -- what a layer receives
  have feed : ∀ e ∈ st.dictIn, List.Forall₂ (fun s i => ∃ t, E s = some t ∧ i.data = t.data) e.2
      ((ls.graph.prevOf e.1).map fun p => (⟨[], ((vals ++ cs.map Nd.data)[p]?).getD []⟩ : Nd ℝ)) := by
    intro e hee
    rw [List.forall₂_map_right_iff]
    refine (prev_rel hI hL hee).imp ?_
    rintro s p ⟨_, t, h1, h2⟩
    exact ⟨t, h1, by rw [h2]; rfl⟩
  -- the sizes of the values
  have hsize : ∀ k < ls.layers.length, (ls.net.op k).size = (((vals ++ cs.map Nd.data)[k]?).getD []).length := by
    intro k hk
    rcases cases3 k hk with ⟨rfl, d, h0, h1, h2⟩ | ⟨e, hee, rfl, y, hc, h2, n, im, as, ho⟩ | ⟨_, v, h1, h2⟩
    · rw [h1, h2]
      have : ∃ r s, inputOp d = .input r s := by
        unfold inputOp
        split
        · split <;> exact ⟨_, _, rfl⟩
        · exact ⟨_, _, rfl⟩
      obtain ⟨r, s, hi⟩ := this
      rw [hi, Option.getD_some, hxd d h0, ← inputOp_size hi]; rfl
    · rw [h2, Option.getD_some]
      exact ho.size hc (hcode' _ hk) (feed e hee)
    · rw [h1, h2]; rfl
  have hpl : ∀ k < ls.layers.length, ∀ p ∈ ls.graph.prevOf k, p < ls.layers.length := by
    intro k hk p hp
    rw [graph_prev ls hk] at hp
    obtain ⟨l, hl, rfl⟩ := List.mem_map.mp hp
    exact (link_bounds hI hL (List.mem_of_mem_filter hl)).1
  refine ⟨hsimple, ?_, ?_, ?_⟩
  · intro l hl
    obtain ⟨k, hk, rfl⟩ := graph_mem.mp hl
    rcases cases3 k hk with ⟨rfl, d, h0, h1, h2⟩ | ⟨e, hee, rfl, y, hc, h2, n, im, as, ho⟩ | ⟨_, v, h1, h2⟩
    · show (ls.net.op 0).OK
      rw [h1]
      unfold inputOp
      split
      · split <;> trivial
      · trivial
    · obtain ⟨z, hz, _⟩ := hc.2 _ (feed e hee)
      exact ho.ok (hcode' _ hk) hz (feed e hee).length_eq.symm
    · show (ls.net.op k).OK
      rw [h1]; trivial
  · intro l hl
    obtain ⟨k, hk, rfl⟩ := graph_mem.mp hl
    show ((ls.links.filter fun e => e.2 = k).map (·.1)).map _ = (ls.net.op k).inSizes
    rw [← graph_prev ls hk]
    rcases cases3 k hk with ⟨rfl, d, h0, h1, h2⟩ | ⟨e, hee, rfl, y, hc, h2, n, im, as, ho⟩ | ⟨hge, v, h1, h2⟩
    · rw [prev_nil hI hL hk (.inl rfl), h1]
      unfold inputOp
      split
      · split <;> rfl
      · rfl
    · rw [← ho.inSizes hc (feed e hee), List.map_map]
      apply List.map_congr_left
      intro p hp
      exact hsize p (hpl _ hk p hp)
    · rw [prev_nil hI hL hk (.inr hge), h1]; rfl
  · intro l hl how
    obtain ⟨k, hk, rfl⟩ := graph_mem.mp hl
    exfalso
    rcases cases3 k hk with ⟨rfl, d, h0, h1, h2⟩ | ⟨e, hee, rfl, y, hc, h2, n, im, as, ho⟩ | ⟨_, v, h1, h2⟩
    · replace how : (ls.net.op 0).NeedsOwn := how
      rw [h1] at how
      unfold inputOp at how
      split at how
      · split at how <;> exact how
      · exact how
    · exact ho.notOwn how
    · replace how : (ls.net.op k).NeedsOwn := how
      rw [h1] at how; exact how

/-- an imported network whose layers are as required meets the conditions of C52 -/
theorem import_wf (L : Lib ℝ) (hexp : L.cmath.exp = Real.exp) (hsqrt : L.cmath.sqrt = Real.sqrt)
    (hv : Valid m input out) (hx : x.Ok) (hxd : ∀ d, m.inputs = [(input, d)] → x.data.length = findSize d)
    (he : Spec.eval m input x = some E) (hf : Fits m E)
    {net : Network ℝ} {plan : Plan} (h : loadOnnx m = some (net, plan)) (hg : Generable net) :
    net.WF ∧ triTopo net.graph = some plan ∧ net.fmt = .first ∧ ∀ l ∈ net.graph, ∀ r s, net.op l.idx = .input r s → x.data.length = s.size := by
  unfold loadOnnx at h
  obtain ⟨net', himp, h⟩ := Option.bind_eq_some_iff.mp h
  obtain ⟨plan', htt, h⟩ := Option.bind_eq_some_iff.mp h
  cases h
  obtain ⟨st, ls, vals, cs, rfl, hI, hL⟩ := import_inv hexp hsqrt hv hx he hf himp
  -- the only input layer is the first one
  have hinput : ∀ l ∈ ls.net.graph, ∀ r s, ls.net.op l.idx = .input r s → l.idx = 0 := by
    intro l hl r s hop
    have hsz := hg.sizes l hl
    obtain ⟨k, hk, rfl⟩ := graph_mem.mp hl
    simp only at hop
    rw [show (⟨k, (ls.links.filter fun e => e.2 = k).map (·.1), (ls.links.filter fun e => e.1 = k).map (·.2),
      ((ls.layers[k]?).map isConstant).getD false⟩ : Layer).idx = k from rfl, hop] at hsz
    by_contra h0
    simp only at h0
    by_cases hlt : k < st.layers.length
    · obtain ⟨e, hee, rfl⟩ := (key_iff hI k).mpr ⟨by omega, hlt⟩
      obtain ⟨op, z, _, _, hc, _⟩ := hI.made e hee
      have hl := (prev_rel hI hL hee).length_eq
      rw [graph_prev ls hk] at hl
      have hl0 := congrArg List.length hsz
      simp only [List.length_map, Op.inSizes, List.length_nil] at hl0 hl
      rw [hl0] at hl
      exact hc.1 (List.length_eq_zero_iff.mp hl)
    · have : ls.layers[k]? = (cs.map Op.constant)[k - st.layers.length]? := by
        rw [hL.layers, List.getElem?_append_right (by omega)]
      rw [show ls.net.op k = (ls.layers[k]?).getD (.constant ⟨[], []⟩) from rfl, this] at hop
      cases hc : (cs.map Op.constant)[k - st.layers.length]? with
      | none => rw [hc] at hop; simp at hop
      | some o =>
        rw [hc] at hop
        simp only [Option.getD_some] at hop
        subst hop
        obtain ⟨_, hmm⟩ := List.getElem?_eq_some_iff.mp hc
        have hmem := List.mem_of_getElem? hc
        obtain ⟨_, _, e⟩ := List.mem_map.mp hmem
        cases e
  have hfirst : ∃ d, m.inputs = [(input, d)] ∧ ls.net.op 0 = inputOp d := by
    obtain ⟨d, h1, h2, _⟩ := hI.first
    refine ⟨d, h1, ?_⟩
    show (ls.layers[0]?).getD _ = _
    rw [hL.layers, List.getElem?_append_left (List.getElem?_eq_some_iff.mp h2).1, h2]; rfl
  have hwf : ls.net.WF := by
    refine ⟨net_unique ls, net_consistent hI hL, hg.simple, hg.ok, hg.sizes, ?_, hg.own, ?_⟩
    · intro l hl
      obtain ⟨k, hk, rfl⟩ := graph_mem.mp hl
      simp only
      show _ ↔ ∃ v, (ls.layers[k]?).getD _ = _
      rw [List.getElem?_eq_getElem hk]
      simp only [Option.map_some, Option.getD_some]
      cases ls.layers[k] <;> simp [isConstant]
    · intro l hl l' hl' r s r' s' h1 h2
      rw [hinput l hl r s h1] at h1
      rw [hinput l' hl' r' s' h2] at h2
      rw [h1] at h2
      cases h2
      exact ⟨rfl, rfl⟩
  have hxs : ∀ l ∈ ls.net.graph, ∀ r s, ls.net.op l.idx = .input r s → x.data.length = s.size := by
    intro l hl r s hop
    rw [hinput l hl r s hop] at hop
    obtain ⟨d, h1, h2⟩ := hfirst
    rw [h2] at hop
    rw [inputOp_size hop]; exact hxd d h1
  exact ⟨hwf, htt, rfl, hxs⟩

/-- **C61.**  Take an ONNX model `m` with one input and one output, whose nodes are among those that are supported, an input
`x` with the declared number of elements, the value `y` that the ONNX specification gives to its output, and the network and plan that the importer returns for
`m`.  Then, for templates whose texts are those of `Emits`: the text of `inference.c` is a C function; and, called on a
memory with the arrays of the header, the input and the parameters, this function terminates and leaves exactly the
elements of `y` in `prediction`. -/
theorem C61_onnx_to_c_partial (t : Texts ℝ) (L : Lib ℝ) (hexp : L.cmath.exp = Real.exp) (hsqrt : L.cmath.sqrt = Real.sqrt)
    (hv : Valid m input out) (hx : x.Ok) (hxd : ∀ d, m.inputs = [(input, d)] → x.data.length = findSize d)
    (he : Spec.eval m input x = some E) (hf : Fits m E) {y : Nd ℝ} (hy : E out = some y)
    {net : Network ℝ} {plan : Plan} (h : loadOnnx m = some (net, plan)) (hsimple : SimpleInputs net.graph)
    (hcode : ∀ l ∈ net.graph, CodeOk (net.op l.idx)) (ht : t.Of L net plan)
    (hpos : ∀ n ∈ plan.order, (net.op n).Positive) (mem : Mem ℝ) (hm : net.Memory plan x.data mem)
    (hin : ∀ n ins, net.Receives L.cmath plan x n ins → (net.op n).InputsOK L.cmath ins) :
    ∃ ts nOut nIn ds s m', sourceText t net plan = some ts ∧ IsInference ts nOut nIn ds s ∧ CText.Declared ds s ∧
      Runs L ds s mem m' ∧ Holds m' .pred y.data := by
  have href := C60_import_correct_partial hexp hsqrt hv hx he hf h hy
  have hg := import_generable L.cmath hexp hsqrt hv hx hxd he hf h hsimple hcode
  obtain ⟨hwf, htt, hfmt, hxs⟩ := import_wf L hexp hsqrt hv hx hxd he hf h hg
  obtain ⟨y', ts, nOut, nIn, ds, s, m', h1, h2, h3, h4, h5, h6, _⟩ := C55_text_end_to_end_partial t L net hwf plan htt ht hpos x mem hxs hm
    (fun first x' _ hp => by
      have : x' = x := by rw [hfmt] at hp; simpa [prepare] using hp.symm
      subst this
      exact hin) (fun hfm => by rw [hfmt] at hfm; cases hfm)
  rw [href] at h1
  cases h1
  exact ⟨ts, nOut, nIn, ds, s, m', h2, h3, h4, h5, h6⟩

/-- **C63, from ONNX.**  As C61, for the three generated files: `parameters.c` is definitions of constant arrays, `inference.h`
declares the context and exactly these arrays, `inference.c` is a C function all of whose arrays are declared; and, called on any
memory that these declarations and definitions describe, with the input in `nn_input`, this function terminates and leaves
exactly the elements of the ONNX value `y` in `prediction`.  There is such a memory. -/
theorem C63_onnx_program_partial (t : Texts ℝ) (L : Lib ℝ) (hexp : L.cmath.exp = Real.exp) (hsqrt : L.cmath.sqrt = Real.sqrt)
    (hv : Valid m input out) (hx : x.Ok) (hxd : ∀ d, m.inputs = [(input, d)] → x.data.length = findSize d)
    (he : Spec.eval m input x = some E) (hf : Fits m E) {y : Nd ℝ} (hy : E out = some y)
    {net : Network ℝ} {plan : Plan} (h : loadOnnx m = some (net, plan)) (hsimple : SimpleInputs net.graph)
    (hcode : ∀ l ∈ net.graph, CodeOk (net.op l.idx)) (ht : t.Of L net plan)
    (hpos : ∀ n ∈ plan.order, (net.op n).Positive)
    (dbl : ℝ → Gen.Dbl) (page : Nat) (hr : CText.Network.Representable net plan dbl) (hne : CText.Network.NoEmpty net plan)
    (hin : ∀ n ins, net.Receives L.cmath plan x n ins → (net.op n).InputsOK L.cmath ins) :
    ∃ tp defs th fields ti nOut nIn ds s,
      paramText dbl page net.op plan.order = some tp ∧ IsDefs page tp defs ∧
      headerText net plan = some th ∧ IsHeader th fields (defs.map ArrDef.decl) ∧ (fields.map (·.id)).Nodup ∧ (defs.map (·.id)).Nodup ∧
      sourceText t net plan = some ti ∧ IsInference ti nOut nIn ds s ∧ CText.Declared ds s ∧ Within s.arrays (Bound fields (defs.map ArrDef.decl) ds) ∧
      nIn = x.data.length ∧ y.data.length ≤ nOut ∧
      (∃ mem, Starts fields defs nOut x.data mem) ∧
      ∀ mem, Starts fields defs nOut x.data mem → ∃ m', Runs L ds s mem m' ∧ Holds m' .pred y.data := by
  have href := C60_import_correct_partial hexp hsqrt hv hx he hf h hy
  have hg := import_generable L.cmath hexp hsqrt hv hx hxd he hf h hsimple hcode
  obtain ⟨hwf, htt, hfmt, hxs⟩ := import_wf L hexp hsqrt hv hx hxd he hf h hg
  obtain ⟨y', tp, defs, th, fields, ti, nOut, nIn, ds, s, h1, h2, h3, h4, h5, h6, h7, h8, h9, h10, h11, h12, h13, h14, h15⟩ :=
    C63_program_partial t L net hwf plan htt ht hpos dbl page hr hne x hxs
    (fun first x' _ hp => by
      have : x' = x := by rw [hfmt] at hp; simpa [prepare] using hp.symm
      subst this
      exact hin) (fun hfm => by rw [hfmt] at hfm; cases hfm)
  rw [href] at h1
  cases h1
  exact ⟨tp, defs, th, fields, ti, nOut, nIn, ds, s, h2, h3, h4, h5, h6, h7, h8, h9, h10, h11, h12, h13, h14,
    fun mem hmem => by obtain ⟨m', a, b, _⟩ := h15 mem hmem; exact ⟨m', a, b⟩⟩

end Verif.Onnx

import Verif.Keras.Import

/-!
# C65: how the layers of a Keras model are linked

These theorems do not depend on what the layers compute.
-/

namespace Verif.Keras
open Net Layers Graph
open scoped Classical

variable {m : Model}

/-- the layers made for a Keras layer: one, and one for a softmax activation -/
noncomputable def rendered (l : Layer) : Option (List (Op ℝ)) := do
  let op ← create l
  if l.kind.softmaxed then do
    let sm ← softmaxOp l
    some [op, sm]
  else some [op]

/-- the positions in `model.layers` of the producers of a layer -/
def Model.positions (m : Model) (l : Layer) : List Nat := l.inputs.filterMap fun s => m.layers.findIdx? fun k => k.name = s

/-- what holds between iterations without skipped layers -/
structure Wired (m : Model) (op0 : Op ℝ) (pre : List Layer) (st : State) : Prop where
  good : st.Good
  count : pre.length + 1 - m.start + st.nb = st.layers.length
  ops : ∃ oss, (pre.drop m.start).mapM rendered = some oss ∧ st.layers.map Prod.snd = op0 :: oss.flatten
  chain : m.sequential = true → st.links = (List.range (st.layers.length - 1)).map fun k => (k, k + 1)
  linked : m.sequential = false → m.start = 1 → (∀ l ∈ pre.dropLast, l.kind.softmaxed = false) →
    (∀ i l, 1 ≤ i → pre[i]? = some l → (st.links.filter fun e => e.2 = i).map (·.1) = m.positions l) ∧
    ((∀ l ∈ pre, l.kind.softmaxed = false) → st.nb = 0) ∧
    (∀ i l, 1 ≤ i → pre[i]? = some l → ∃ op, create l = some op ∧ st.layers[i]? = some (i, op)) ∧
    ∀ l, 2 ≤ pre.length → pre.getLast? = some l → l.kind.softmaxed = true → st.nb = 1 ∧
      (∃ sm, softmaxOp l = some sm ∧ st.layers[pre.length]? = some (pre.length, sm)) ∧
      (st.links.filter fun e => e.2 = pre.length).map (·.1) = [pre.length - 1]

theorem mapM_append {A B : Type} {f : A → Option B} {l : List A} {a : A} {bs : List B} {b : B} (h : l.mapM f = some bs) (ha : f a = some b) : (l ++ [a]).mapM f = some (bs ++ [b]) := by
  rw [List.mapM_append, h]
  simp [ha]

theorem range_map_succ {n : Nat} (hn : 0 < n) : ((List.range (n - 1)).map fun k => (k, k + 1)) ++ [(n - 1, n)] = (List.range (n + 1 - 1)).map fun k => (k, k + 1) := by
  obtain ⟨j, rfl⟩ : ∃ j, n = j + 1 := ⟨n - 1, by omega⟩
  simp [List.range_succ]

theorem filter_nil {l : List (Nat × Nat)} {i : Nat} (h : ∀ e ∈ l, e.2 ≠ i) : (l.filter fun e => e.2 = i) = [] := by
  rw [List.filter_eq_nil_iff]
  intro e he
  simpa using h e he

theorem wired_step {op0 : Op ℝ} {pre post : List Layer} {l : Layer} (hm : m.layers = pre ++ l :: post) (h1 : m.start ≤ pre.length) {st st' : State}
    (hI : Wired m op0 pre st) (h : m.step st (pre.length, l) = some st') (hs : l.kind.skipped = false) : Wired m op0 (pre ++ [l]) st' := by
  obtain ⟨op, hop, hb, hcase⟩ := step_cases h hI.good hI.count hs
  obtain ⟨oss, ho1, ho2⟩ := hI.ops
  have hpos : 0 < st.layers.length := by
    have := congrArg List.length ho2
    simp at this; omega
  have hst : m.start ≤ 1 := by unfold Model.start; split <;> omega
  have hg1 := good_push hI.good hb op st.nb
  have hl1 : (st.push op (m.producers st.layers.length l) st.nb).layers.length = st.layers.length + 1 := push_length ..
  have hprod : m.sequential = true → m.producers st.layers.length l = [st.layers.length - 1] := by
    intro hsq; unfold Model.producers; rw [hsq, if_pos rfl, if_pos (by omega)]
  have hprod' : m.sequential = false → m.producers st.layers.length l = m.positions l := by
    intro hsq; unfold Model.producers Model.positions; rw [hsq]; simp
  have hdrop : (pre ++ [l]).drop m.start = pre.drop m.start ++ [l] := List.drop_append_of_le_length h1
  have hcount : (pre ++ [l]).length = pre.length + 1 := by simp
  -- links of the layer, in a functional model
  have hold : ∀ i, i < st.layers.length → ((st.links ++ (m.producers st.layers.length l).map fun p => (p, st.layers.length)).filter fun e => e.2 = i) = st.links.filter fun e => e.2 = i := by
    intro i hi
    rw [List.filter_append, filter_nil (l := List.map _ _), List.append_nil]
    intro e he
    obtain ⟨p, _, rfl⟩ := List.mem_map.mp he
    simp only; omega
  have hnew : ((st.links ++ (m.producers st.layers.length l).map fun p => (p, st.layers.length)).filter fun e => e.2 = st.layers.length).map (·.1) = m.producers st.layers.length l := by
    rw [List.filter_append, List.filter_eq_nil_iff.mpr, List.nil_append, List.filter_eq_self.mpr]
    · simp [Function.comp_def]
    · intro e he
      obtain ⟨p, _, rfl⟩ := List.mem_map.mp he
      simp
    · intro e he
      have := (hI.good.links e he).2
      simp only [decide_eq_true_eq]; omega
  have hdl : ∀ l' ∈ pre, l' ∈ (pre ++ [l]).dropLast := by intro l' hl'; simpa using hl'
  rcases hcase with ⟨hsm, rfl⟩ | ⟨hsm, sm, hsmop, rfl⟩
  · refine ⟨hg1, ?_, ⟨oss ++ [[op]], ?_, ?_⟩, ?_, ?_⟩
    · rw [hl1, hcount, ← hI.count]
      show pre.length + 1 + 1 - m.start + st.nb = _
      omega
    · rw [hdrop]
      refine mapM_append ho1 ?_
      simp [rendered, hop, hsm]
    · simp [State.push, ho2]
    · intro hsq
      rw [hl1]
      show st.links ++ _ = _
      rw [hI.chain hsq, hprod hsq]
      have := range_map_succ hpos
      simpa using this
    · intro hsq hs1 hns
      have hns' : ∀ l' ∈ pre, l'.kind.softmaxed = false := fun l' hl' => hns l' (hdl l' hl')
      obtain ⟨i1, i2, i3, _⟩ := hI.linked hsq hs1 fun l' hl' => hns' l' (List.dropLast_subset _ hl')
      have hnb := i2 hns'
      have hlen : st.layers.length = pre.length := by rw [← hI.count, hnb, hs1]; omega
      refine ⟨?_, fun _ => hnb, ?_, ?_⟩
      · intro i l' hi hl'
        show ((st.links ++ _).filter _).map _ = _
        rcases Nat.lt_or_ge i pre.length with hlt | hge
        · rw [List.getElem?_append_left hlt] at hl'
          rw [hold i (by omega)]
          exact i1 i l' hi hl'
        · have : i = pre.length := by
            have := (List.getElem?_eq_some_iff.mp hl').1
            simp at this; omega
          subst this
          rw [List.getElem?_append_right (le_refl _)] at hl'
          simp at hl'
          subst hl'
          rw [← hlen]
          rw [hnew, hprod' hsq]
      · intro i l' hi hl'
        rcases Nat.lt_or_ge i pre.length with hlt | hge
        · rw [List.getElem?_append_left hlt] at hl'
          obtain ⟨op', h1, h2⟩ := i3 i l' hi hl'
          refine ⟨op', h1, ?_⟩
          show (st.layers ++ _)[i]? = _
          rw [List.getElem?_append_left (by omega)]; exact h2
        · have : i = pre.length := by
            have := (List.getElem?_eq_some_iff.mp hl').1
            simp at this; omega
          subst this
          rw [List.getElem?_append_right (le_refl _)] at hl'
          simp at hl'
          subst hl'
          refine ⟨op, hop, ?_⟩
          show (st.layers ++ [(st.layers.length, op)])[pre.length]? = _
          rw [← hlen]; simp
      · intro l' _ hl' hsl
        simp only [List.getLast?_append, List.getLast?_singleton, Option.some_or, Option.some.injEq] at hl'
        subst hl'
        rw [hsm] at hsl; simp at hsl
  · have hg2 := good_push hg1 (prev := [st.layers.length]) (by simp) sm (st.nb + 1)
    refine ⟨hg2, ?_, ⟨oss ++ [[op, sm]], ?_, ?_⟩, ?_, ?_⟩
    · rw [push_length, hl1, hcount]
      show pre.length + 1 + 1 - m.start + (st.nb + 1) = _
      have := hI.count
      omega
    · rw [hdrop]
      refine mapM_append ho1 ?_
      simp [rendered, hop, hsm, hsmop]
    · simp [State.push, ho2]
    · intro hsq
      rw [push_length, hl1]
      show (st.links ++ _) ++ _ = _
      rw [hI.chain hsq, hprod hsq]
      have e1 := range_map_succ hpos
      have e2 := range_map_succ (n := st.layers.length + 1) (by omega)
      simp only [List.map_cons, List.map_nil]
      rw [show ((st.layers.length - 1, st.layers.length) : Nat × Nat) = (st.layers.length - 1, st.layers.length) from rfl, e1]
      rw [push_length, ← e2]
      simp
    · intro hsq hs1 hns
      have hns' : ∀ l' ∈ pre, l'.kind.softmaxed = false := fun l' hl' => hns l' (hdl l' hl')
      obtain ⟨i1, i2, i3, _⟩ := hI.linked hsq hs1 fun l' hl' => hns' l' (List.dropLast_subset _ hl')
      have hnb := i2 hns'
      have hlen : st.layers.length = pre.length := by rw [← hI.count, hnb, hs1]; omega
      refine ⟨?_, fun h => ?_, ?_, ?_⟩
      · intro i l' hi hl'
        show (((st.links ++ _) ++ _).filter _).map _ = _
        have hlt' := (List.getElem?_eq_some_iff.mp hl').1
        simp only [List.length_append, List.length_cons, List.length_nil] at hlt'
        rw [List.filter_append, filter_nil (l := List.map _ _) (by
          intro e he
          obtain ⟨p, _, rfl⟩ := List.mem_map.mp he
          rw [hl1]; simp only; omega), List.append_nil]
        rcases Nat.lt_or_ge i pre.length with hlt | hge
        · rw [List.getElem?_append_left hlt] at hl'
          have := hold i (by omega)
          show ((st.links ++ _).filter _).map _ = _
          rw [this]
          exact i1 i l' hi hl'
        · have : i = pre.length := by omega
          subst this
          rw [List.getElem?_append_right (le_refl _)] at hl'
          simp at hl'
          subst hl'
          rw [← hlen]
          show ((st.links ++ _).filter _).map _ = _
          rw [hnew, hprod' hsq]
      · have := h l (by simp)
        rw [hsm] at this; simp at this
      · intro i l' hi hl'
        rcases Nat.lt_or_ge i pre.length with hlt | hge
        · rw [List.getElem?_append_left hlt] at hl'
          obtain ⟨op', h1, h2⟩ := i3 i l' hi hl'
          refine ⟨op', h1, ?_⟩
          show ((st.layers ++ _) ++ _)[i]? = _
          rw [List.append_assoc, List.getElem?_append_left (by omega)]; exact h2
        · have : i = pre.length := by
            have := (List.getElem?_eq_some_iff.mp hl').1
            simp at this; omega
          subst this
          rw [List.getElem?_append_right (le_refl _)] at hl'
          simp at hl'
          subst hl'
          refine ⟨op, hop, ?_⟩
          show ((st.layers ++ [(st.layers.length, op)]) ++ _)[pre.length]? = _
          rw [← hlen, List.append_assoc, List.getElem?_append_right (le_refl _)]; simp
      · intro l' _ hl' hsl
        simp only [List.getLast?_append, List.getLast?_singleton, Option.some_or, Option.some.injEq] at hl'
        subst hl'
        refine ⟨?_, ⟨sm, hsmop, ?_⟩, ?_⟩
        · show st.nb + 1 = 1
          omega
        · rw [hcount, ← hlen, ← hl1]
          show ((st.push op (m.producers st.layers.length l) st.nb).layers ++ [((st.push op (m.producers st.layers.length l) st.nb).layers.length, sm)])[_]? = _
          simp
        · rw [hcount, ← hlen, ← hl1]
          show (((st.push op (m.producers st.layers.length l) st.nb).links ++ _).filter _).map _ = _
          have hz : ((st.push op (m.producers st.layers.length l) st.nb).links.filter fun e => e.2 = (st.push op (m.producers st.layers.length l) st.nb).layers.length) = [] :=
            filter_nil (fun e he => Nat.ne_of_lt (hg1.links e he).2)
          rw [List.filter_append, hz, hl1]
          simp

theorem wired_all {op0 : Op ℝ} {post pre : List Layer} (hm : m.layers = pre ++ post) (h1 : m.start ≤ pre.length) {st st' : State}
    (hI : Wired m op0 pre st) (h : ((post.zipIdx pre.length).map fun e => (e.2, e.1)).foldlM m.step st = some st') (hs : ∀ l ∈ post, l.kind.skipped = false) :
    Wired m op0 m.layers st' := by
  induction post generalizing pre st with
  | nil =>
    simp at h hm
    subst h
    rw [hm]; exact hI
  | cons l post ih =>
    rw [List.zipIdx_cons, List.map_cons, List.foldlM_cons] at h
    obtain ⟨st1, hst1, h⟩ := Option.bind_eq_some_iff.mp h
    have := wired_step hm h1 hI hst1 (hs l (by simp))
    exact ih (pre := pre ++ [l]) (by rw [hm]; simp) (by rw [List.length_append]; omega) this (by simpa using h) fun l' hl' => hs l' (by simp [hl'])

theorem built_unfold {st : State} (h : m.built = some st) : ∃ l0 op0, m.layers.head? = some l0 ∧ inputOp m.inputDims = some op0 ∧
    (((m.layers.drop m.start).zipIdx m.start).map fun e => (e.2, e.1)).foldlM m.step ⟨[(0, op0)], [], 0⟩ = some st := by
  unfold Model.built at h
  obtain ⟨st0, h0, h⟩ := Option.bind_eq_some_iff.mp h
  unfold Model.init at h0
  obtain ⟨l0, hl0, h0⟩ := Option.bind_eq_some_iff.mp h0
  obtain ⟨op, hop, h0⟩ := Option.bind_eq_some_iff.mp h0
  simp only [Option.some.injEq] at h0
  subst h0
  refine ⟨l0, op, hl0, ?_, ?_⟩
  · unfold Model.inputDims; rw [hl0]; simpa using hop
  · obtain ⟨post0, hm0⟩ : ∃ t, m.layers = l0 :: t := by
      cases hm : m.layers with
      | nil => rw [hm] at hl0; simp at hl0
      | cons a t => rw [hm] at hl0; simp at hl0; exact ⟨t, by rw [hl0]⟩
    have hrest : m.rest = ((m.layers.drop m.start).zipIdx m.start).map fun e => (e.2, e.1) := by
      unfold Model.rest
      rcases start_cases hl0 with ⟨_, e⟩ | ⟨_, e⟩ <;> rw [e, hm0] <;> simp [List.zipIdx_cons]
    rw [← hrest]; exact h

theorem built_wired {st : State} (h : m.built = some st) (hs : ∀ l ∈ m.layers, l.kind.skipped = false) :
    ∃ op0, inputOp m.inputDims = some op0 ∧ Wired m op0 m.layers st := by
  obtain ⟨l0, op0, hl0, hop, h⟩ := built_unfold h
  refine ⟨op0, hop, ?_⟩
  have hlen : m.start ≤ m.layers.length := by
    rcases start_cases hl0 with ⟨_, e⟩ | ⟨_, e⟩ <;> rw [e]
    · cases hm : m.layers with
      | nil => rw [hm] at hl0; simp at hl0
      | cons => simp
    · simp
  have htl : (m.layers.take m.start).length = m.start := by simp [hlen]
  refine wired_all (pre := m.layers.take m.start) (post := m.layers.drop m.start) (st := ⟨[(0, op0)], [], 0⟩) (by simp) (by omega) ?_ (by rw [htl]; exact h)
    fun l hl => hs l (List.mem_of_mem_drop hl)
  refine ⟨⟨rfl, by simp⟩, by rw [htl]; simp, ⟨[], ?_, rfl⟩, fun _ => rfl, fun _ h1 _ => ⟨?_, fun _ => rfl, ?_, ?_⟩⟩
  · rw [List.drop_take, Nat.sub_self]; simp
  · intro i l hi hl
    have := (List.getElem?_eq_some_iff.mp hl).1
    omega
  · intro i l hi hl
    have := (List.getElem?_eq_some_iff.mp hl).1
    omega
  · intro l hl; omega

/-- **C65, Sequential models.**  When the importer accepts a Sequential model without Reshape and Dropout layers, the layers are the input layer
followed by those made for the layers of the model in order (one for each, and a Softmax layer after each layer with a softmax activation), and they form a
chain. -/
theorem C65_sequential (hsq : m.sequential = true) (hs : ∀ l ∈ m.layers, l.kind.skipped = false) {net : Network ℝ} (h : importNet m = some net) :
    ∃ op0 oss, inputOp m.inputDims = some op0 ∧ (m.layers.drop m.start).mapM rendered = some oss ∧
      net.graph.idxs = List.range (oss.flatten.length + 1) ∧
      (∀ k op, (op0 :: oss.flatten)[k]? = some op → net.op k = op) ∧
      ∀ k ≤ oss.flatten.length, net.graph.prevOf k = (if k = 0 then [] else [k - 1]) ∧
        net.graph.nextOf k = (if k = oss.flatten.length then [] else [k + 1]) := by
  unfold importNet at h
  obtain ⟨st, hst, rfl⟩ := Option.map_eq_some_iff.mp h
  obtain ⟨op0, hop, hw⟩ := built_wired hst hs
  obtain ⟨oss, ho1, ho2⟩ := hw.ops
  have hlen : st.layers.length = oss.flatten.length + 1 := by
    have := congrArg List.length ho2; simpa using this
  refine ⟨op0, oss, hop, ho1, by rw [← hlen]; exact graph_idxs hw.good, ?_, ?_⟩
  · intro k op hk
    rw [← ho2, List.getElem?_map] at hk
    obtain ⟨e, he, rfl⟩ := Option.map_eq_some_iff.mp hk
    have := hw.good.get he
    exact net_op hw.good (by rw [he, ← this])
  · intro k hk
    have hk' : k < st.layers.length := by omega
    have hch := hw.chain hsq
    constructor
    · show st.graph.prevOf k = _
      rw [graph_prev hw.good hk', hch, hlen, Nat.add_sub_cancel]
      generalize oss.flatten.length = n at hk
      rw [List.filter_map, List.map_map]
      split
      · rename_i h0; subst h0
        rw [List.map_eq_nil_iff, List.filter_eq_nil_iff]; simp
      · rename_i h0
        have : ∀ n, k ≤ n → (List.range n).filter ((fun e : Nat × Nat => decide (e.2 = k)) ∘ fun k => (k, k + 1)) = [k - 1] := by
          intro n hn
          induction n with
          | zero => omega
          | succ n ih =>
            rw [List.range_succ, List.filter_append]
            rcases Nat.lt_or_ge n k with hlt | hge
            · have : k = n + 1 := by omega
              subst this
              rw [List.filter_eq_nil_iff.mpr (by intro a ha; simp at ha ⊢; omega)]
              simp
            · rw [ih hge, List.filter_eq_nil_iff.mpr (by intro a ha; simp at ha ⊢; omega)]; simp
        rw [this n hk]; simp
    · show st.graph.nextOf k = _
      rw [graph_next hw.good hk', hch, hlen, Nat.add_sub_cancel]
      generalize oss.flatten.length = n at hk
      rw [List.filter_map, List.map_map]
      have : ∀ n, (List.range n).filter ((fun e : Nat × Nat => decide (e.1 = k)) ∘ fun k => (k, k + 1)) = if k < n then [k] else [] := by
        intro n
        induction n with
        | zero => simp
        | succ n ih =>
          rw [List.range_succ, List.filter_append, ih]
          rcases Nat.lt_trichotomy k n with hlt | rfl | hgt
          · rw [if_pos hlt, if_pos (by omega), List.filter_eq_nil_iff.mpr (by intro a ha; simp at ha ⊢; omega)]; simp
          · simp
          · rw [if_neg (by omega), if_neg (by omega), List.filter_eq_nil_iff.mpr (by intro a ha; simp at ha ⊢; omega)]; simp
      rw [this n]
      by_cases hkn : k = n
      · rw [if_neg (by omega), if_pos hkn]; rfl
      · rw [if_pos (by omega), if_neg hkn]; rfl

/-- **C65, functional models.**  When the importer accepts a functional model that starts with an input layer, has no Reshape or Dropout layer and no softmax
activation except on its last layer, then layer `i` of the network is the one made for layer `i` of the model, and its producers are
the layers that the model names as its inputs, in order; a softmax activation of the last layer becomes one more layer, after it. -/
theorem C65_functional (hsq : m.sequential = false) (h1 : m.start = 1) (hs : ∀ l ∈ m.layers, l.kind.skipped = false)
    (hsm : ∀ l ∈ m.layers.dropLast, l.kind.softmaxed = false) {net : Network ℝ} (h : importNet m = some net) :
    (∃ op0, inputOp m.inputDims = some op0 ∧ net.op 0 = op0 ∧ net.graph.prevOf 0 = []) ∧
    (∀ i l, 1 ≤ i → m.layers[i]? = some l → create l = some (net.op i) ∧ net.graph.prevOf i = m.positions l) ∧
    ((∀ l ∈ m.layers, l.kind.softmaxed = false) → net.graph.idxs = List.range m.layers.length) ∧
    (∀ l, 2 ≤ m.layers.length → m.layers.getLast? = some l → l.kind.softmaxed = true → net.graph.idxs = List.range (m.layers.length + 1) ∧
      softmaxOp l = some (net.op m.layers.length) ∧ net.graph.prevOf m.layers.length = [m.layers.length - 1]) := by
  unfold importNet at h
  obtain ⟨st, hst, rfl⟩ := Option.map_eq_some_iff.mp h
  obtain ⟨op0, hop, hw⟩ := built_wired hst hs
  obtain ⟨oss, ho1, ho2⟩ := hw.ops
  obtain ⟨i1, i2, i3, i4⟩ := hw.linked hsq h1 hsm
  have hg := hw.good
  have hcount := hw.count
  rw [h1] at hcount
  have h0 : st.layers[0]? = some (0, op0) := by
    have := congrArg (fun l => l[0]?) ho2
    simp only [List.getElem?_map, List.getElem?_cons_zero] at this
    obtain ⟨e, he, hee⟩ := Option.map_eq_some_iff.mp this
    rw [he, ← hee, ← hg.get he]
  refine ⟨⟨op0, hop, net_op hg h0, ?_⟩, ?_, ?_, ?_⟩
  · show st.graph.prevOf 0 = _
    rw [graph_prev hg (List.getElem?_eq_some_iff.mp h0).1, List.map_eq_nil_iff]
    apply filter_nil
    intro e he
    have := hg.links e he; omega
  · intro i l hi hl
    obtain ⟨op, hop, hli⟩ := i3 i l hi hl
    refine ⟨by rw [net_op hg hli]; exact hop, ?_⟩
    show st.graph.prevOf i = _
    rw [graph_prev hg (List.getElem?_eq_some_iff.mp hli).1]
    exact i1 i l hi hl
  · intro hns
    show st.graph.idxs = _
    rw [graph_idxs hg, ← hcount, i2 hns]; simp
  · intro l h2 hl hls
    obtain ⟨hnb, ⟨sm, hsm, hlm⟩, hlk⟩ := i4 l h2 hl hls
    refine ⟨?_, by rw [net_op hg hlm]; exact hsm, ?_⟩
    · show st.graph.idxs = _
      rw [graph_idxs hg, ← hcount, hnb]; simp
    · show st.graph.prevOf _ = _
      rw [graph_prev hg (List.getElem?_eq_some_iff.mp hlm).1]; exact hlk

end Verif.Keras

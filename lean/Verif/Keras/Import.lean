import Verif.Keras.Wire

/-!
# C66: an imported Keras model computes what the Keras model computes
-/

namespace Verif.Keras
open Net Layers Graph
open Onnx (prod indices mk)
open scoped Classical

variable {M : CMath ℝ} {x : Nd ℝ} {m : Model}

/-- the shape of the input of the model -/
def Model.inputDims (m : Model) : List Nat := if (m.layers.head?).any fun l => l.kind.isInput then ((m.layers.head?).map Layer.outShape).getD [] else m.inputShape

/-- Names are unique and the output is that of the last layer.  In a functional model the first layer is the input layer, every layer but the
last is read by a later one, and only the last one may have a softmax activation. -/
structure Valid (m : Model) : Prop where
  names : (m.layers.map Layer.name).Nodup
  last : ∃ l, m.layers.getLast? = some l ∧ l.name = m.output
  input : m.sequential = false → m.start = 1
  softmax : m.sequential = false → ∀ l ∈ m.layers.dropLast, l.kind.softmaxed = false
  used : m.sequential = false → ∀ l ∈ m.layers.dropLast, ∃ k ∈ m.layers.tail, l.name ∈ k.inputs

/-- The attributes `input_shape` and `output_shape` of the layers are the shapes of the values, which are not empty, and the layers are
supported.  `vs` are the values of the layers on the input `x`. -/
structure Fits (m : Model) (x : Nd ℝ) (vs : List (Nd ℝ)) : Prop where
  input : m.inputDims = x.dims
  rank : (∃ n, x.dims = [n]) ∨ ∃ H W C, x.dims = [H, W, C]
  pos : ∀ v ∈ x :: vs, ∀ k ∈ v.dims, 0 < k
  layers : ∀ i l xs, m.layers[i]? = some l → l.kind.isInput = false → Spec.args m x (vs.take i) l = some xs →
    l.inShapes = xs.map Nd.dims ∧ Supported l.kind xs ∧ ∀ y, vs[i]? = some y → l.outShape = y.dims

/-! ## One iteration -/

theorem producers_in {st : State} (hg : st.Good) {ps prev : List Nat} (h : ps.mapM (fun p => (st.layers[p]?).map Prod.fst) = some prev) :
    prev = ps ∧ ∀ p ∈ ps, p < st.layers.length := by
  induction ps generalizing prev with
  | nil => simp at h; subst h; simp
  | cons p ps ih =>
    rw [List.mapM_cons] at h
    obtain ⟨a, ha, h⟩ := Option.bind_eq_some_iff.mp h
    obtain ⟨l, hl, h⟩ := Option.bind_eq_some_iff.mp h
    cases h
    obtain ⟨e, he, rfl⟩ := Option.map_eq_some_iff.mp ha
    obtain ⟨rfl, hb⟩ := ih hl
    have hp := hg.get he
    refine ⟨by rw [hp], fun q hq => ?_⟩
    rcases List.mem_cons.mp hq with rfl | hq
    · exact (List.getElem?_eq_some_iff.mp he).1
    · exact hb q hq

/-- a layer is appended with its links -/
def State.push (st : State) (op : Op ℝ) (prev : List Nat) (nb : Nat) : State :=
  ⟨st.layers ++ [(st.layers.length, op)], st.links ++ prev.map fun p => (p, st.layers.length), nb⟩

theorem push_length (st : State) (op : Op ℝ) (prev : List Nat) (nb : Nat) : (st.push op prev nb).layers.length = st.layers.length + 1 := by
  simp [State.push]

theorem step_cases {st st' : State} {i : Nat} {l : Layer} (h : m.step st (i, l) = some st') (hg : st.Good)
    (hidx : i + 1 - m.start + st.nb = st.layers.length) (hs : l.kind.skipped = false) :
    ∃ op, create l = some op ∧ (∀ p ∈ m.producers st.layers.length l, p < st.layers.length) ∧
      ((l.kind.softmaxed = false ∧ st' = st.push op (m.producers st.layers.length l) st.nb) ∨
      (l.kind.softmaxed = true ∧ ∃ sm, softmaxOp l = some sm ∧
        st' = (st.push op (m.producers st.layers.length l) st.nb).push sm [st.layers.length] (st.nb + 1))) := by
  unfold Model.step at h
  simp only [hs, Bool.false_eq_true, if_false, hidx] at h
  obtain ⟨op, hop, h⟩ := Option.bind_eq_some_iff.mp h
  obtain ⟨prev, hprev, h⟩ := Option.bind_eq_some_iff.mp h
  obtain ⟨rfl, hb⟩ := producers_in hg hprev
  refine ⟨op, hop, hb, ?_⟩
  split at h
  · rename_i hsm
    obtain ⟨sm, hsm', h⟩ := Option.bind_eq_some_iff.mp h
    refine .inr ⟨hsm, sm, hsm', ?_⟩
    simp only [Option.some.injEq] at h
    rw [← h]
    simp [State.push]
  · rename_i hsm
    simp only [Option.some.injEq] at h
    exact .inl ⟨by simpa using hsm, h.symm⟩

theorem layer_nonempty {k : Kind} {xs : List (Nd ℝ)} {y : Nd ℝ} (h : Spec.layer k xs = some y) : xs ≠ [] := by
  rintro rfl
  cases k <;> simp [Spec.layer, Spec.one, Spec.merge, Spec.concatenate] at h

theorem core_step (hexp : M.exp = Real.exp) (hsqrt : M.sqrt = Real.sqrt) {st st' : State} {vals : List (Nd ℝ)} (hc : Core M x st vals) {i : Nat} {l : Layer}
    (h : m.step st (i, l) = some st') (hidx : i + 1 - m.start + st.nb = st.layers.length) {xs : List (Nd ℝ)} {y : Nd ℝ}
    (hpick : pick vals (m.producers st.layers.length l) = some xs) (hy : Spec.layer l.kind xs = some y) (hin : l.inShapes = xs.map Nd.dims)
    (hout : l.outShape = y.dims) (hsup : Supported l.kind xs) (hpos : ∀ t ∈ xs, ∀ k ∈ t.dims, 0 < k) :
    ∃ vals', Core M x st' vals' ∧ vals'.getLast? = some y ∧ i + 2 - m.start + st'.nb = st'.layers.length ∧
      (∀ k, st.layers.length ≤ k → k + 1 < st'.layers.length → ∃ l ∈ st'.links, l.1 = k) ∧
      (∀ p ∈ m.producers st.layers.length l, ∃ e ∈ st'.links, e.1 = p) ∧
      (∀ e ∈ st.links, e ∈ st'.links) ∧ (l.kind.softmaxed = false → vals' = vals ++ [y] ∧ st'.nb = st.nb) ∧
      ∀ t ∈ vals', t ∈ vals ∨ t = y ∨ ∃ n, t.dims = [n] := by
  have hrep : ∀ t ∈ xs, ∃ z, Rep t z := by
    rw [pick_forall] at hpick
    intro t ht
    obtain ⟨i, hi, rfl⟩ := List.mem_iff_getElem.mp ht
    have := (List.forall₂_iff_get.mp hpick).2 i (by rw [hpick.length_eq]; exact hi) hi
    exact hc.reps _ (List.mem_of_getElem? this)
  have hok : ∀ t ∈ xs, t.Ok := fun t ht => (hrep t ht).elim fun _ h => h.1
  have hyok : ∀ {op : Op ℝ} {y : Nd ℝ}, Returns M op xs y → y.Ok := fun hr => by
    obtain ⟨zs, hzs⟩ := reps_exist hrep
    obtain ⟨_, _, h⟩ := hr zs hzs
    exact h.1
  have hpos' : 0 < st.layers.length := core_pos hc
  have hst : m.start ≤ 1 := by unfold Model.start; split <;> omega
  have hne := layer_nonempty hy
  obtain ⟨op, hop, hb, hcase⟩ := step_cases h hc.good hidx hsup.not_skipped
  rcases hcase with ⟨hsm, rfl⟩ | ⟨hsm, sm, hsmop, rfl⟩
  · have hy' : Spec.layer l.kind.plain xs = some y := by rw [plain_self hsm]; exact hy
    obtain ⟨hr, hk⟩ := layer_correct (M := M) hsqrt hop hy' hin hok hpos hsup
    have hcd := layer_coded hop hy' hin hout hrep (hyok hr) hpos hsup hr
    refine ⟨vals ++ [y], core_push hc hpick hne hr hk hcd st.nb, by simp, ?_, ?_, ?_, ?_, fun _ => ⟨rfl, rfl⟩, ?_⟩
    · rw [push_length]
      show i + 2 - m.start + st.nb = _
      omega
    · intro k h1 h2
      rw [push_length] at h2
      omega
    · intro p hp
      exact ⟨(p, st.layers.length), by simp [State.push, hp], rfl⟩
    · intro e he
      simp [State.push, he]
    · intro t ht
      simp only [List.mem_append, List.mem_singleton] at ht
      exact ht.imp_right .inl
  · obtain ⟨y0, hy0, hys⟩ := plain_softmax hy hsup hsm
    obtain ⟨hr, hk⟩ := layer_correct (M := M) hsqrt hop hy0 hin hok hpos hsup
    have hcd := layer_coded hop hy0 hin (by rw [hout, softmax_dims hys]) hrep (hyok hr) hpos hsup hr
    have hc1 := core_push hc hpick hne hr hk hcd st.nb
    obtain ⟨n, hn⟩ := softmax_rank hsup hsm hy0
    obtain ⟨hr2, hk2⟩ := correct_softmax (M := M) hexp hsmop hn (by rw [hout, softmax_dims hys]) hys
    have hp2 : pick (vals ++ [y0]) [st.layers.length] = some [y0] := by
      rw [pick_forall]
      refine .cons ?_ .nil
      rw [← hc.length, List.getElem?_append_right (le_refl _)]; simp
    have hyo := hyok hr
    have hcd2 := softmax_coded hsmop hn hyo (by
      obtain ⟨z0, hz0⟩ := hc1.reps y0 (by simp)
      obtain ⟨_, _, h⟩ := hr2 [z0] (.cons hz0 .nil)
      exact h.1) (by rw [hout, softmax_dims hys]) hys
    have hc2 := core_push hc1 hp2 (by simp) hr2 hk2 hcd2 (st.nb + 1)
    refine ⟨_, hc2, by simp, ?_, ?_, ?_, ?_, fun h => by rw [hsm] at h; simp at h, ?_⟩
    · rw [push_length, push_length]
      show i + 2 - m.start + (st.nb + 1) = _
      omega
    · intro k h1 h2
      rw [push_length, push_length] at h2
      refine ⟨(st.layers.length, st.layers.length + 1), by simp [State.push], ?_⟩
      simp only; omega
    · intro p hp
      exact ⟨(p, st.layers.length), by simp [State.push, hp], rfl⟩
    · intro e he
      simp [State.push, he]
    · intro t ht
      simp only [List.mem_append, List.mem_singleton] at ht
      rcases ht with (ht | rfl) | rfl
      · exact .inl ht
      · exact .inr (.inr ⟨n, hn⟩)
      · exact .inr (.inl rfl)

/-! ## The loop -/

/-- what holds between iterations: `pre` has been treated and has the values `vs` -/
structure Loop (M : CMath ℝ) (m : Model) (x : Nd ℝ) (pre : List Layer) (vs : List (Nd ℝ)) (st : State) (vals : List (Nd ℝ)) : Prop where
  core : Core M x st vals
  count : pre.length + 1 - m.start + st.nb = st.layers.length
  values : vs.length = pre.length
  last : vals.getLast? = some (vs.getLast?.getD x)
  /-- the values are those of the model, and those of layers before their softmax, which are vectors -/
  among : ∀ t ∈ vals, t ∈ x :: vs ∨ ∃ n, t.dims = [n]
  chain : m.sequential = true → st.Used
  /-- in a functional model the positions are those of the model, up to the last layer -/
  same : m.sequential = false → pre.length < m.layers.length → vals = vs ∧ st.nb = 0
  read : m.sequential = false → ∀ l ∈ pre.tail, ∀ s ∈ l.inputs, ∀ j, (m.layers.findIdx? fun k => k.name = s) = some j → ∃ e ∈ st.links, e.1 = j
  sm : m.sequential = false → ∀ k, vs.length ≤ k + 1 → k + 1 < st.layers.length → ∃ e ∈ st.links, e.1 = k

theorem args_pick {vals : List (Nd ℝ)} {names : List String} {xs : List (Nd ℝ)}
    (h : (names.mapM fun s => (m.layers.findIdx? fun k => decide (k.name = s)).bind fun j => vals[j]?) = some xs) :
    pick vals (names.filterMap fun s => m.layers.findIdx? fun k => decide (k.name = s)) = some xs := by
  induction names generalizing xs with
  | nil => simp at h; subst h; rfl
  | cons s names ih =>
    rw [List.mapM_cons] at h
    obtain ⟨a, ha, h⟩ := Option.bind_eq_some_iff.mp h
    obtain ⟨l, hl, h⟩ := Option.bind_eq_some_iff.mp h
    cases h
    obtain ⟨j, hj, ha⟩ := Option.bind_eq_some_iff.mp ha
    rw [List.filterMap_cons, hj]
    simp only
    have := ih hl
    rw [pick_forall] at this ⊢
    exact .cons ha this

theorem loop_step (hexp : M.exp = Real.exp) (hsqrt : M.sqrt = Real.sqrt) (hv : Valid m) {all : List (Nd ℝ)} (hf : Fits m x all)
    {pre post : List Layer} {l : Layer} (hm : m.layers = pre ++ l :: post) (h1 : m.start ≤ pre.length) {vs : List (Nd ℝ)} {st st' : State} {vals : List (Nd ℝ)}
    (hI : Loop M m x pre vs st vals) (h : m.step st (pre.length, l) = some st') {vs' : List (Nd ℝ)} (hs : Spec.step m x vs l = some vs')
    (hall : ∃ r, all = vs' ++ r) : ∃ vals', Loop M m x (pre ++ [l]) vs' st' vals' := by
  unfold Spec.step at hs
  have hnin : l.kind.isInput = false := by
    by_contra hc
    have hk : l.kind = .inputLayer := by
      cases hk : l.kind <;> simp_all [Kind.isInput]
    unfold Model.step at h
    simp [hk, Kind.skipped, create] at h
  rw [hnin] at hs
  simp only [Bool.false_eq_true, if_false] at hs
  obtain ⟨y, hs, hvs⟩ := Option.bind_eq_some_iff.mp hs
  obtain ⟨xs, hargs, hy⟩ := Option.bind_eq_some_iff.mp hs
  simp only [Option.some.injEq] at hvs
  subst hvs
  obtain ⟨r, rfl⟩ := hall
  have hget : m.layers[pre.length]? = some l := by rw [hm]; simp
  have htake : (vs ++ [y] ++ r).take pre.length = vs := by
    rw [← hI.values, List.append_assoc, List.take_left]
  obtain ⟨hin, hsup, hout⟩ := hf.layers pre.length l xs hget hnin (by rw [htake]; exact hargs)
  have hout := hout y (by rw [← hI.values]; simp)
  have hpl : pre.length < m.layers.length := by rw [hm]; simp
  have hxs : (∀ t ∈ xs, t ∈ x :: vs) ∧ pick vals (m.producers st.layers.length l) = some xs := by
    unfold Spec.args at hargs
    unfold Model.producers
    cases hsq : m.sequential with
    | true =>
      rw [hsq] at hargs
      simp only [if_true, Option.some.injEq] at hargs
      subst hargs
      have hp := core_pos hI.core
      refine ⟨?_, ?_⟩
      · intro t ht
        simp only [List.mem_singleton] at ht
        rw [ht]
        cases hl : vs.getLast? with
        | none => simp
        | some z => simp [List.mem_of_getLast? hl]
      · simp only [if_true]
        rw [if_pos (show 1 ≤ st.layers.length from hp), pick_forall]
        refine .cons ?_ .nil
        rw [← hI.core.length, ← List.getLast?_eq_getElem?]
        exact hI.last
    | false =>
      rw [hsq] at hargs
      simp only [Bool.false_eq_true, if_false] at hargs ⊢
      obtain ⟨rfl, _⟩ := hI.same hsq hpl
      have hp := args_pick hargs
      refine ⟨?_, hp⟩
      rw [pick_forall] at hp
      intro t ht
      obtain ⟨i, hi, rfl⟩ := List.mem_iff_getElem.mp ht
      have := (List.forall₂_iff_get.mp hp).2 i (by rw [hp.length_eq]; exact hi) hi
      simp only [List.get_eq_getElem] at this
      exact List.mem_cons_of_mem _ (List.mem_of_getElem? this)
  obtain ⟨hmem, hpick⟩ := hxs
  obtain ⟨vals', hcore, hlast, hcount, hnew, hprod, hkeep, hplain, hamong⟩ := core_step hexp hsqrt hI.core h hI.count hpick hy hin hout hsup
    (fun t ht k hk => hf.pos t (by
      rcases List.mem_cons.mp (hmem t ht) with rfl | h
      · simp
      · simp [h]) k hk)
  refine ⟨vals', hcore, ?_, by simp [hI.values], by simpa using hlast, ?_, ?_, ?_, ?_, ?_⟩
  · rw [List.length_append]; simp only [List.length_cons, List.length_nil]; omega
  · intro t ht
    rcases hamong t ht with h | rfl | h
    · rcases hI.among t h with h | h
      · refine .inl ?_
        rcases List.mem_cons.mp h with rfl | h
        · simp
        · simp [h]
      · exact .inr h
    · simp
    · exact .inr h
  · intro hsq k hk
    rcases Nat.lt_or_ge k st.layers.length with hlt | hge
    · rcases Nat.lt_or_ge (k + 1) st.layers.length with hlt2 | hge2
      · obtain ⟨e, he, h1⟩ := hI.chain hsq k hlt2
        exact ⟨e, hkeep e he, h1⟩
      · have : k ∈ m.producers st.layers.length l := by
          unfold Model.producers
          rw [hsq, if_pos rfl, if_pos (by omega)]
          simp; omega
        exact hprod k this
    · exact hnew k hge hk
  · intro hsq hlt
    rw [List.length_append] at hlt
    have hnl : l ∈ m.layers.dropLast := by
      have hpost : post ≠ [] := by
        rintro rfl
        rw [hm] at hlt; simp at hlt
      rw [hm, List.dropLast_append_of_ne_nil (by simp)]
      rw [List.dropLast_cons_of_ne_nil hpost]
      simp
    obtain ⟨h1, h2⟩ := hplain (hv.softmax hsq l hnl)
    obtain ⟨h3, h4⟩ := hI.same hsq hpl
    exact ⟨by rw [h1, h3], by rw [h2, h4]⟩
  · intro hsq l' hl' s hs' j hj
    rw [List.tail_append_of_ne_nil (by
      have := hv.input hsq
      intro h0; rw [h0] at h1; simp at h1; omega)] at hl'
    rcases List.mem_append.mp hl' with hl' | hl'
    · obtain ⟨e, he, h1⟩ := hI.read hsq l' hl' s hs' j hj
      exact ⟨e, hkeep e he, h1⟩
    · simp only [List.mem_singleton] at hl'
      subst hl'
      apply hprod
      unfold Model.producers
      rw [hsq]
      simp only [Bool.false_eq_true, if_false, List.mem_filterMap]
      exact ⟨s, hs', hj⟩
  · intro hsq k hk1 hk2
    obtain ⟨hvv, hnb⟩ := hI.same hsq hpl
    have hl2 : st.layers.length = vs.length := by rw [← hI.core.length, hvv]
    apply hnew k _ hk2
    simp only [List.length_append, List.length_cons, List.length_nil] at hk1
    omega

theorem loop_all (hexp : M.exp = Real.exp) (hsqrt : M.sqrt = Real.sqrt) (hv : Valid m) {all : List (Nd ℝ)} (hf : Fits m x all)
    {post pre : List Layer} (hm : m.layers = pre ++ post) (h1 : m.start ≤ pre.length) {vs : List (Nd ℝ)} {st st' : State} {vals : List (Nd ℝ)}
    (hI : Loop M m x pre vs st vals) (h : ((post.zipIdx pre.length).map fun e => (e.2, e.1)).foldlM m.step st = some st')
    (hs : post.foldlM (Spec.step m x) vs = some all) : ∃ vals', Loop M m x m.layers all st' vals' := by
  induction post generalizing pre vs st vals with
  | nil =>
    simp at h hs hm
    subst h hs
    exact ⟨vals, by rw [hm]; exact hI⟩
  | cons l post ih =>
    rw [List.zipIdx_cons, List.map_cons, List.foldlM_cons] at h
    obtain ⟨st1, hst1, h⟩ := Option.bind_eq_some_iff.mp h
    rw [List.foldlM_cons] at hs
    obtain ⟨vs1, hvs1, hs⟩ := Option.bind_eq_some_iff.mp hs
    have hpre : ∃ r, all = vs1 ++ r := by
      clear * - hs
      induction post generalizing vs1 with
      | nil => simp at hs; exact ⟨[], by simp [hs]⟩
      | cons l post ih =>
        rw [List.foldlM_cons] at hs
        obtain ⟨vs2, hvs2, hs⟩ := Option.bind_eq_some_iff.mp hs
        obtain ⟨r, rfl⟩ := ih _ hs
        unfold Spec.step at hvs2
        obtain ⟨v, _, hvs2⟩ := Option.bind_eq_some_iff.mp hvs2
        simp only [Option.some.injEq] at hvs2
        subst hvs2
        exact ⟨[v] ++ r, by simp⟩
    obtain ⟨vals1, hI1⟩ := loop_step hexp hsqrt hv hf hm h1 hI hst1 hvs1 hpre
    exact ih (pre := pre ++ [l]) (by rw [hm]; simp) (by rw [List.length_append]; omega) hI1 (by simpa using h) hs

theorem start_cases {l0 : Layer} (h : m.layers.head? = some l0) : (l0.kind.isInput = true ∧ m.start = 1) ∨ (l0.kind.isInput = false ∧ m.start = 0) := by
  unfold Model.start
  rw [h]
  cases hi : l0.kind.isInput <;> simp [hi]

/-- the values that flow in an imported model -/
theorem import_core (hexp : M.exp = Real.exp) (hsqrt : M.sqrt = Real.sqrt) (hv : Valid m) (hx : x.Ok) {all : List (Nd ℝ)} (he : Spec.eval m x = some all)
    (hf : Fits m x all) {st : State} (h : m.built = some st) :
    ∃ vals, Core M x st vals ∧ st.Used ∧ vals.getLast? = some (all.getLast?.getD x) ∧ all.length = m.layers.length ∧ (∀ t ∈ vals, t ∈ x :: all ∨ ∃ n, t.dims = [n]) ∧
      m.layers.length + 1 - m.start + st.nb = st.layers.length := by
  unfold Model.built at h
  obtain ⟨st0, h0, h⟩ := Option.bind_eq_some_iff.mp h
  unfold Model.init at h0
  obtain ⟨l0, hl0, h0⟩ := Option.bind_eq_some_iff.mp h0
  obtain ⟨op, hop, h0⟩ := Option.bind_eq_some_iff.mp h0
  simp only [Option.some.injEq] at h0
  subst h0
  obtain ⟨post0, hm0⟩ : ∃ t, m.layers = l0 :: t := by
    cases hm : m.layers with
    | nil => rw [hm] at hl0; simp at hl0
    | cons a t => rw [hm] at hl0; simp at hl0; exact ⟨t, by rw [hl0]⟩
  have hdims : (if l0.kind.isInput then l0.outShape else m.inputShape) = x.dims := by
    rw [← hf.input]; unfold Model.inputDims; rw [hl0]; simp
  rw [hdims] at hop
  have hrest : m.rest = ((m.layers.drop m.start).zipIdx m.start).map fun e => (e.2, e.1) := by
    unfold Model.rest
    rcases start_cases hl0 with ⟨_, e⟩ | ⟨_, e⟩ <;> rw [e, hm0] <;> simp [List.zipIdx_cons]
  have hcore : Core M x ⟨[(0, op)], [], 0⟩ [x] := by
    obtain ⟨z, _, hz, _⟩ := prepare_rep (M := M) hx hf.rank hop
    refine ⟨⟨rfl, by simp⟩, rfl, ⟨op, hop, rfl, rfl⟩, ?_, fun t ht => ⟨z, by simp at ht; rw [ht]; exact hz⟩⟩
    intro k op' hk hl
    have := (List.getElem?_eq_some_iff.mp hl).1
    simp at this; omega
  rw [hrest] at h
  have hres : ∃ vals, Loop M m x m.layers all st vals := by
    unfold Spec.eval at he
    by_cases hin : l0.kind.isInput
    · have hstart : m.start = 1 := by unfold Model.start; rw [hl0]; simp [hin]
      rw [hm0, List.foldlM_cons] at he
      obtain ⟨v1, hv1, he⟩ := Option.bind_eq_some_iff.mp he
      have : v1 = [x] := by
        unfold Spec.step at hv1
        rw [if_pos hin] at hv1
        simpa using hv1.symm
      subst this
      refine loop_all hexp hsqrt hv hf (pre := [l0]) (post := post0) (vs := [x]) (st := ⟨[(0, op)], [], 0⟩) (vals := [x]) (by rw [hm0]; rfl) (by rw [hstart]; simp) ?_ (by
        rw [hm0, hstart] at h; simpa using h) he
      refine ⟨hcore, by rw [hstart]; rfl, rfl, rfl, by simp, fun _ k hk => ?_, fun _ _ => ⟨rfl, rfl⟩, by simp, fun _ k _ hk => ?_⟩ <;>
      · simp at hk
    · have hstart : m.start = 0 := by unfold Model.start; rw [hl0]; simp [hin]
      have hsq : m.sequential = true := by
        cases hsq : m.sequential with
        | true => rfl
        | false => have := hv.input hsq; omega
      refine loop_all hexp hsqrt hv hf (pre := []) (post := m.layers) (vs := []) (st := ⟨[(0, op)], [], 0⟩) (vals := [x]) rfl (by rw [hstart]; simp) ?_ (by
        rw [hstart] at h; simpa using h) he
      refine ⟨hcore, by rw [hstart]; rfl, rfl, rfl, by simp, fun _ k hk => ?_, fun h => by rw [hsq] at h; simp at h, fun h => by rw [hsq] at h; simp at h, fun h => by rw [hsq] at h; simp at h⟩
      simp at hk
  obtain ⟨vals, hI⟩ := hres
  refine ⟨vals, hI.core, ?_, hI.last, hI.values, hI.among, hI.count⟩
  cases hsq : m.sequential with
  | true => exact hI.chain hsq
  | false =>
    intro k hk
    rcases Nat.lt_or_ge (k + 1) m.layers.length with hlt | hge
    · have hkl : k < m.layers.length := by omega
      have hmem : m.layers[k] ∈ m.layers.dropLast := by
        rw [List.mem_iff_getElem]
        exact ⟨k, by rw [List.length_dropLast]; omega, by rw [List.getElem_dropLast]⟩
      obtain ⟨l', hl', hname⟩ := hv.used hsq _ hmem
      refine hI.read hsq l' hl' _ hname k ?_
      rw [List.findIdx?_eq_some_iff_getElem]
      refine ⟨hkl, by simp, fun j hj hc => ?_⟩
      simp only [decide_eq_true_eq] at hc
      have hnd := hv.names
      rw [List.nodup_iff_getElem?_ne_getElem?] at hnd
      refine hnd j k hj (by simpa using hkl) ?_
      rw [List.getElem?_map, List.getElem?_map, List.getElem?_eq_getElem hkl, List.getElem?_eq_getElem (show j < m.layers.length by omega)]
      simpa using hc
    · exact hI.sm hsq k (by rw [hI.values]; exact hge) hk

/-- **C66** (partial: the classes and restrictions of `Supported` and `Valid`, exact real arithmetic).  The network imported from a Keras
model, Sequential or functional, is put in an execution order, and `compute_inference` on `x` returns the elements of the output of the model, in the
order of Keras (channels last). -/
theorem C66_import_correct_partial (hexp : M.exp = Real.exp) (hsqrt : M.sqrt = Real.sqrt) (hv : Valid m) (h1 : ∃ l ∈ m.layers, l.kind.isInput = false) (hx : x.Ok)
    {vs : List (Nd ℝ)} (he : Spec.eval m x = some vs) (hf : Fits m x vs) {net : Network ℝ} (h : importNet m = some net) {y : Nd ℝ}
    (hy : Spec.output m x = some y) :
    ∃ plan, loadKeras m = some (net, plan) ∧ net.reference M plan x = some y.data := by
  have himp := h
  unfold importNet at h
  obtain ⟨st, hst, rfl⟩ := Option.map_eq_some_iff.mp h
  obtain ⟨vals, hc, hu, hlast, hlen, _, hcount⟩ := import_core hexp hsqrt hv hx he hf hst
  obtain ⟨plan, hplan⟩ := good_plan hc.good (by have := core_pos hc; intro h0; rw [h0] at this; simp at this)
  refine ⟨plan, ?_, ?_⟩
  · unfold loadKeras
    rw [himp]
    simp only [Option.bind_eq_bind, Option.bind_some]
    rw [hplan]; rfl
  · have h2 : 2 ≤ st.layers.length := by
      obtain ⟨l, hl, hli⟩ := h1
      have : m.start < m.layers.length := by
        cases hm : m.layers with
        | nil => rw [hm] at hl; simp at hl
        | cons a t =>
          simp only [List.length_cons]
          rcases start_cases (m := m) (l0 := a) (by rw [hm]; rfl) with ⟨ha, e⟩ | ⟨_, e⟩
          · rw [hm] at hl
            rcases List.mem_cons.mp hl with rfl | hl
            · rw [hli] at ha; simp at ha
            · have := List.length_pos_of_mem hl; omega
          · omega
      omega
    refine core_reference hc hu h2 hplan ?_
    rw [hlast]
    unfold Spec.output at hy
    rw [he] at hy
    simp only [Option.bind_eq_bind, Option.bind_some] at hy
    obtain ⟨j, hj, hy⟩ := Option.bind_eq_some_iff.mp hy
    have : j = vs.length - 1 := by
      obtain ⟨l, hl, hn⟩ := hv.last
      rw [List.findIdx?_eq_some_iff_getElem] at hj
      obtain ⟨hjl, hjn, _⟩ := hj
      rw [List.getLast?_eq_getElem?] at hl
      obtain ⟨hll, hl⟩ := List.getElem?_eq_some_iff.mp hl
      have hnd := hv.names
      by_contra hne
      have hlt : j < m.layers.length - 1 := by omega
      rw [List.nodup_iff_getElem?_ne_getElem?] at hnd
      refine hnd j (m.layers.length - 1) hlt (by simpa using hll) ?_
      rw [List.getElem?_map, List.getElem?_map, List.getElem?_eq_getElem hll, List.getElem?_eq_getElem hjl]
      simp only [decide_eq_true_eq] at hjn
      simp only [Option.map_some, Option.some.injEq]
      rw [hl, hn, hjn]
    rw [this, ← List.getLast?_eq_getElem?] at hy
    rw [hy]; rfl

end Verif.Keras

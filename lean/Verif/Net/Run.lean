import Verif.Net.Ops2
import Verif.Props.Graph
import Verif.Props.Sizes

/-!
# C52: the generated program computes what `compute_inference` returns

The whole chain for networks made of the modelled layers: the execution plan computed by `tri_topo`, the arrays declared in
the header, the code of each layer, the saved copies, the layout of the input and of the prediction, against the
reference interpreter running the `forward_path_layer` methods.
-/

namespace Verif.Net
open Prog Layers Graph
variable {K : Type}

/-! ## The interpreter loop -/

theorem stepE_steps {T : Type} {prevOf nextOf : Nat → List Nat} {fwd : Nat → List T → Option T} {order : List Nat} {x : T}
    (hs : Sorted prevOf order) (hc : ∀ a b, a ∈ prevOf b ↔ b ∈ nextOf a)
    (hcl : ∀ n ∈ order, ∀ s ∈ nextOf n, s ∈ order) {v : Nat → T} :
    ∀ pre post, order = pre ++ post → (∀ n ∈ pre, fwd n (argsOf prevOf x v n) = some (v n)) →
      pre.foldlM (stepE prevOf nextOf fwd) (Inputs.init order x, none)
        = some (liAt nextOf order x v pre, pre.getLast?.map v) := by
  intro pre
  induction pre using List.reverseRecOn with
  | nil =>
    intro post _ _
    simp only [List.foldlM_nil, Option.pure_def, List.getLast?_nil, Option.map_none]
    congr 2
    funext i
    simp [Inputs.init, liAt]
  | append_singleton pre n ih =>
    intro post he hv
    rw [List.foldlM_append, ih (n :: post) (by simp [he]) (fun i hi => hv i (by simp [hi]))]
    obtain ⟨hn, hp⟩ := hs pre n post (by simp [he])
    have hno : n ∈ order := by simp [he]
    have hnself : n ∉ nextOf n := fun hh => hn (hp n ((hc n n).2 hh))
    have hg : gather (prevOf n) n (liAt nextOf order x v pre) = some (argsOf prevOf x v n) := by
      simp only [gather, liAt, hno, hn, not_false_eq_true, and_self, if_true, argsOf]
      by_cases h0 : prevOf n = []
      · simp [h0]
      · simp only [h0, if_false]
        apply mapM_some
        intro p hpm
        simp [hp p hpm, (hc p n).1 hpm]
    have hnextnew : ∀ s ∈ nextOf n, s ∈ order ∧ s ∉ pre ∧ s ≠ n := by
      intro s hsn
      have h1 := hcl n hno s hsn
      refine ⟨h1, ?_, ?_⟩
      · intro hsp
        obtain ⟨a, b, hab⟩ := List.append_of_mem hsp
        have := (hs a s (b ++ n :: post) (by simp [he, hab])).2 n ((hc n s).2 hsn)
        exact hn (by rw [hab]; simp [this])
      · rintro rfl; exact hnself hsn
    have hpub := publish_eq n (v n) (nextOf n) (liAt nextOf order x v pre) (by
      intro s hsn
      obtain ⟨h1, h2, _⟩ := hnextnew s hsn
      simp [liAt, h1, h2])
    simp only [List.foldlM_cons, List.foldlM_nil, Option.bind_eq_bind, Option.bind_some,
      stepE, hg, hv n (by simp), hpub, Option.pure_def]
    congr 1
    refine Prod.ext ?_ (by simp)
    funext i
    simp only [liAt]
    by_cases hin : i = n
    · simp [hin]
    · by_cases hio : i ∈ order ∧ i ∉ pre
      · by_cases hinext : i ∈ nextOf n
        · simp [hin, hio, hinext]
          funext j
          by_cases hj : j = n
          · simp [hj, hinext]
          · simp [hj]
        · simp [hin, hio, hinext]
          funext j
          by_cases hj : j = n
          · subst hj; simp [hinext, hn]
          · simp [hj]
      · have : ¬ (i ∈ order ∧ i ∉ pre ++ [n]) := by
          rintro ⟨a, b⟩; exact hio ⟨a, fun h => b (by simp [h])⟩
        simp only [hin, if_false, this]
        by_cases hinext : i ∈ nextOf n
        · obtain ⟨a, b, _⟩ := hnextnew i hinext; exact absurd ⟨a, b⟩ hio
        · simp [hinext, hio]

theorem gather_args {T : Type} {prevOf nextOf : Nat → List Nat} {order : List Nat} {x : T} {v : Nat → T}
    (hs : Sorted prevOf order) (hc : ∀ a b, a ∈ prevOf b ↔ b ∈ nextOf a) {pre : List Nat} {n : Nat} {post : List Nat}
    (he : order = pre ++ n :: post) :
    gather (prevOf n) n (liAt nextOf order x v pre) = some (argsOf prevOf x v n) := by
  obtain ⟨hn, hp⟩ := hs pre n post he
  have hno : n ∈ order := by simp [he]
  simp only [gather, liAt, hno, hn, not_false_eq_true, and_self, if_true, argsOf]
  by_cases h0 : prevOf n = []
  · simp [h0]
  · simp only [h0, if_false]
    apply mapM_some
    intro p hpm
    simp [hp p hpm, (hc p n).1 hpm]

/-- If every layer returns a value with property `P` once its producers have, there is a valuation of all the layers. -/
theorem exists_valuationE {T : Type} [Inhabited T] {prevOf : Nat → List Nat} {fwd : Nat → List T → Option T}
    {order : List Nat} {x : T} {P : Nat → T → Prop} (hs : Sorted prevOf order)
    (h : ∀ pre n post, order = pre ++ n :: post → ∀ v : Nat → T,
      (∀ i ∈ pre, fwd i (argsOf prevOf x v i) = some (v i) ∧ P i (v i)) →
      ∃ y, fwd n (argsOf prevOf x v n) = some y ∧ P n y) :
    ∃ v : Nat → T, ∀ n ∈ order, fwd n (argsOf prevOf x v n) = some (v n) ∧ P n (v n) := by
  suffices H : ∀ pre post, order = pre ++ post →
      ∃ v : Nat → T, ∀ n ∈ pre, fwd n (argsOf prevOf x v n) = some (v n) ∧ P n (v n) from H order [] (by simp)
  intro pre
  induction pre using List.reverseRecOn with
  | nil => intro _ _; exact ⟨fun _ => default, by simp⟩
  | append_singleton pre n ih =>
    intro post he
    obtain ⟨v, hv⟩ := ih (n :: post) (by simp [he])
    obtain ⟨hn, hp⟩ := hs pre n post (by simp [he])
    obtain ⟨y, hy, hP⟩ := h pre n post (by simp [he]) v hv
    have hargs : ∀ i, (∀ p ∈ prevOf i, p ∈ pre) →
        argsOf prevOf x (fun i => if i = n then y else v i) i = argsOf prevOf x v i := by
      intro i hi
      unfold argsOf
      split
      · rfl
      · apply List.map_congr_left
        intro p hpm
        have : p ≠ n := fun h => hn (h ▸ hi p hpm)
        simp [this]
    refine ⟨fun i => if i = n then y else v i, ?_⟩
    intro i hi
    by_cases hin : i = n
    · subst hin; rw [hargs i hp]; simpa using ⟨hy, hP⟩
    · have hipre : i ∈ pre := by simpa [hin] using hi
      obtain ⟨a, b, hab⟩ := List.append_of_mem hipre
      have hpi := (hs a i (b ++ n :: post) (by simp [he, hab])).2
      rw [hargs i (fun p hpm => by rw [hab]; simp [hpi p hpm])]
      simp only [hin, if_false]
      exact hv i hipre

/-! ## Networks accepted -/

section
set_option linter.unusedSectionVars false
variable [Field K] [LinearOrder K] [IsStrictOrderedRing K] [FloorRing K]

/-- Layers whose reference returns an array of rank three with the attributes `output_channels`, ...; the others
that have `output_channels` make `np.transpose(nn_output, (1, 2, 0))` raise or mix up the axes. -/
def Op.Rank3 : Op K → Prop
  | .conv .. | .maxPool .. | .avgPool .. | .concat .. | .gatherElements .. | .tile .. | .constantPad .. | .pad ..
  | .batchNorm .. | .resize .. => True
  | .broadcast op .. => op ≠ .max ∧ op ≠ .min
  | .gather _ _ d idx _ => d = [idx.length]
  | _ => False

/-- A network as the importers build them, within the conditions of `Op.OK`: consistent links, no layer taking the same
producer twice, producers of the sizes the layers expect, the layers that work in place placed after a producer of
which they are the only consumer, and input layers that agree on the shape of the input. -/
structure Network.WF (net : Network K) : Prop where
  unique : UniqueIdx net.graph
  consistent : Consistent net.graph
  simple : SimpleInputs net.graph
  ok : ∀ l ∈ net.graph, (net.op l.idx).OK
  sizes : ∀ l ∈ net.graph, l.prev.map (fun p => (net.op p).size) = (net.op l.idx).inSizes
  const : ∀ l ∈ net.graph, l.isConst = true ↔ ∃ v, net.op l.idx = .constant v
  own : ∀ l ∈ net.graph, (net.op l.idx).NeedsOwn → ∃ p ∈ net.graph, l.prev = [p.idx] ∧ p.next = [l.idx]
  inputs : ∀ l ∈ net.graph, ∀ l' ∈ net.graph, ∀ r s r' s', net.op l.idx = .input r s → net.op l'.idx = .input r' s' →
    r = r' ∧ s = s'

/-- `dict_cst` as the list of its items -/
def dictOf (plan : Plan) : List (Nat × Nat) := plan.order.filterMap fun n => (plan.cst n).map fun k => (n, k)

/-- The memory when `inference` is called: arrays with the sizes of the header, the parameters written by
the generator, the input, and a `prediction` array for the output. -/
structure Network.Memory (net : Network K) (plan : Plan) (x : List K) (m : Mem K) : Prop where
  declared : ∃ other, Gen.declared (plan.order.map fun n => (net.op n).info n) plan.maxPath (dictOf plan) other = some m.size
  params : ∀ n ∈ plan.order, ∀ p ∈ (net.op n).params n, Holds m p.1 p.2
  input : Holds m .input x
  pred : ∀ n, plan.order.getLast? = some n → (net.op n).size ≤ m.size .pred

/-- `ins` are the inputs that the reference interpreter gathers for layer `n` when started on `x'` -/
def Network.Receives (net : Network K) (M : CMath K) (plan : Plan) (x' : Nd K) (n : Nat) (ins : List (Nd K)) : Prop :=
  ∃ pre post st, plan.order = pre ++ n :: post ∧
    pre.foldlM (stepE net.graph.prevOf net.graph.nextOf fun n => (net.op n).forward M net.fmt)
      (Inputs.init plan.order x', none) = some st ∧
    gather (net.graph.prevOf n) n st.1 = some ins

/-! ## Input and output layouts -/

theorem prepare_input (fmt : DataFormat) (r : Bool) (s : Shape) (x : Nd K) (hx : x.data.length = s.size) :
    ∃ x', prepare fmt (.input r s) x = some x' ∧ x'.data.length = s.size ∧
      ∀ (m : Mem K) road, Holds m .input x.data → s.size ≤ m.size (.out road) →
        Computes (inputCode fmt .first r s.C s.H s.W s.size road) m (.out road) x'.data := by
  cases r with
  | false =>
    refine ⟨x, by cases fmt <;> rfl, hx, fun m road hi ho => ?_⟩
    exact (C23_vector fmt .first s.C s.H s.W s.size road x.data m hx).1 hi ho
  | true =>
    cases fmt with
    | first =>
      refine ⟨x, rfl, hx, fun m road hi ho => ?_⟩
      have := C23_input .first .first s.C s.H s.W road (arrOf s x.data).v m
      have e : inLayout .first s.C s.H s.W (arrOf s x.data).v = x.data := arrOf_flat hx
      rw [e] at this
      exact this hi ho
    | last =>
      have hx' : x.data.length = Shape.size ⟨s.H, s.W, s.C⟩ := by rw [hx]; simp only [Shape.size]; ring
      refine ⟨⟨[s.C, s.H, s.W], tensor3 s.C s.H s.W fun f i j => (arrOf ⟨s.H, s.W, s.C⟩ x.data).v i j f⟩, ?_, ?_, ?_⟩
      · simp only [prepare, if_pos hx]
      · simp only [tensor3_length]; rfl
      · intro m road hi ho
        refine C23_input .last .first s.C s.H s.W road (fun f i j => (arrOf ⟨s.H, s.W, s.C⟩ x.data).v i j f) m ?_ ho
        have e : inLayout .last s.C s.H s.W (fun f i j => (arrOf ⟨s.H, s.W, s.C⟩ x.data).v i j f) = x.data :=
          arrOf_flat (s := ⟨s.H, s.W, s.C⟩) hx'
        rw [e]; exact hi

theorem fill_dims {dims : List Nat} {C H W : Nat} {v : Nat → Nat → Nat → Option K} {y : Nd K}
    (h : fill dims C H W v = some y) : y.dims = dims := by
  unfold fill at h
  cases hm : (tensor3 C H W v).mapM id with
  | none => rw [hm] at h; simp at h
  | some t => rw [hm] at h; simp only [Option.map_some, Option.some.injEq] at h; rw [← h]

/-- arrays of rank three have the shape given by the attributes -/
theorem rank3_dims {M : CMath K} {fmt : DataFormat} {o : Op K} {ins : List (Nd K)} {y : Nd K} {c : Shape}
    (hok : o.OK) (h : o.Rank3) (hlen : ins.map (fun x => x.data.length) = o.inSizes) (hc : o.chans = some c)
    (hy : o.forward M fmt ins = some y) : y.dims = [c.C, c.H, c.W] := by
  have one : ∀ n, o.inSizes = [n] → ∃ x, ins = [x] ∧ x.data.length = n := by
    intro n hn
    rw [hn] at hlen
    match ins, hlen with
    | [x], h => exact ⟨x, rfl, by simpa using h⟩
  cases o with
  | input r s => exact h.elim
  | constant v => exact h.elim
  | dense p n w b act => exact h.elim
  | activation n act => exact h.elim
  | flatten s => exact h.elim
  | matmul C C' H Kd W act => exact h.elim
  | gemm tA tB Mm N Kd alpha beta w c act => exact h.elim
  | transpose s p act => exact h.elim
  | softmax s axis act => exact h.elim
  | reduce fn c k act => exact h.elim
  | conv impl cv wt b act =>
    obtain ⟨x, rfl, hx⟩ := one _ rfl
    simp only [Op.forward, reshape3_eq (s := ⟨cv.inC, cv.inH, cv.inW⟩) hx, Option.bind_eq_bind, Option.bind_some] at hy
    cases hr : convForward cv act wt b (arrOf ⟨cv.inC, cv.inH, cv.inW⟩ x.data).v with
    | none => rw [hr] at hy; simp at hy
    | some r =>
      rw [hr] at hy
      simp only [Option.bind_some, Option.pure_def, Option.some.injEq] at hy
      have e : r.C = cv.filters ∧ r.H = cv.outH ∧ r.W = cv.outW := by
        unfold convForward at hr
        split at hr
        · simp only [Option.some.injEq] at hr; subst hr; exact ⟨rfl, rfl, rfl⟩
        · simp at hr
      simp only [Op.chans, Option.some.injEq] at hc
      rw [← hy, ← hc, ofArr, e.1, e.2.1, e.2.2]
  | maxPool cp act =>
    obtain ⟨x, rfl, hx⟩ := one _ rfl
    simp only [Op.forward, reshape3_eq (s := ⟨cp.C, cp.H, cp.W⟩) hx, Option.bind_eq_bind, Option.bind_some] at hy
    simp only [Op.chans, Option.some.injEq] at hc
    rw [fill_dims hy, ← hc]
  | avgPool cp act =>
    obtain ⟨x, rfl, hx⟩ := one _ rfl
    simp only [Op.forward, reshape3_eq (s := ⟨cp.C, cp.H, cp.W⟩) hx, Option.bind_eq_bind, Option.bind_some] at hy
    simp only [Op.chans, Option.some.injEq] at hc
    rw [fill_dims hy, ← hc]
  | resize ip mode e C hh w act =>
    obtain ⟨x, rfl, hx⟩ := one _ rfl
    simp only [Op.chans, Option.some.injEq] at hc
    cases ip <;>
    · simp only [Op.forward, reshape3_eq (s := ⟨C, hh.inLen, w.inLen⟩) hx, Option.bind_eq_bind, Option.bind_some] at hy
      rw [fill_dims hy, ← hc]
  | gather a s d ix act =>
    obtain ⟨x, rfl, hx⟩ := one _ rfl
    have hd : d = [ix.length] := h
    subst hd
    simp only [Op.chans, Option.some.injEq] at hc
    simp only [Op.forward, reshape3_eq hx, Option.bind_eq_bind, Option.bind_some] at hy
    split at hy
    · simp only [Option.pure_def, Option.some.injEq] at hy
      rw [← hy, ← hc]; cases a <;> rfl
    · simp at hy
  | gatherElements a s out ix act =>
    obtain ⟨x, rfl, hx⟩ := one _ rfl
    simp only [Op.chans, Option.some.injEq] at hc
    simp only [Op.forward, reshape3_eq hx, Option.bind_eq_bind, Option.bind_some, Option.pure_def, Option.some.injEq] at hy
    rw [← hy, ← hc]; rfl
  | tile s rc rh rw' act =>
    obtain ⟨x, rfl, hx⟩ := one _ rfl
    simp only [Op.chans, Option.some.injEq] at hc
    simp only [Op.forward, reshape3_eq hx, Option.bind_eq_bind, Option.bind_some, Option.pure_def, Option.some.injEq] at hy
    rw [← hy, ← hc]; rfl
  | constantPad s p k act =>
    obtain ⟨x, rfl, hx⟩ := one _ rfl
    simp only [Op.chans, Option.some.injEq] at hc
    simp only [Op.forward, reshape3_eq hx, Option.bind_eq_bind, Option.bind_some, Option.pure_def, Option.some.injEq] at hy
    rw [← hy, ← hc]; rfl
  | pad mode s p act =>
    obtain ⟨x, rfl, hx⟩ := one _ rfl
    simp only [Op.chans, Option.some.injEq] at hc
    simp only [Op.forward, reshape3_eq hx, Option.bind_eq_bind, Option.bind_some, Option.pure_def, Option.some.injEq] at hy
    rw [← hy, ← hc]; rfl
  | batchNorm s eps scale mean var bias act =>
    obtain ⟨x, rfl, hx⟩ := one _ rfl
    simp only [Op.chans, Option.some.injEq] at hc
    simp only [Op.forward, reshape3_eq hx, Option.bind_eq_bind, Option.bind_some, Option.pure_def, Option.some.injEq] at hy
    rw [← hy, ← hc]; rfl
  | broadcast op out ss cst act =>
    obtain ⟨h1, h2⟩ := h
    have hop : op = .add ∨ op = .sub ∨ op = .mul ∨ op = .div := by
      cases op <;> simp_all
      cases ss <;> exact hok.elim
    obtain ⟨c', hf, hl⟩ := (correct_arith M fmt op hop out ss cst act 0 ins hok hlen).2
    simp only [Op.chans, Option.some.injEq] at hc
    rw [hf, Option.some.injEq] at hy
    rw [← hy, hl, ← hc]
  | concat a ss act =>
    obtain ⟨y', hf, hl⟩ := (correct_concat M fmt a ss act 0 ins hok hlen).2
    simp only [Op.chans, Option.some.injEq] at hc
    rw [hf, Option.some.injEq] at hy
    rw [← hy, hl, ← hc]

/-! ## The theorem -/

theorem noInputs {o : Op K} (hok : o.OK) (h : o.inSizes = []) : (∃ r s, o = .input r s) ∨ ∃ v, o = .constant v := by
  cases o with
  | input r s => exact .inl ⟨r, s, rfl⟩
  | constant v => exact .inr ⟨v, rfl⟩
  | broadcast op out ss cst act =>
    simp only [Op.inSizes, List.map_eq_nil_iff] at h
    subst h
    cases op <;> exact hok.elim
  | concat a ss act =>
    simp only [Op.inSizes, List.map_eq_nil_iff] at h
    subst h
    simp [Op.OK] at hok
  | _ => simp [Op.inSizes] at h

theorem size_of_chans {o : Op K} {c : Shape} (h : o.chans = some c) : o.size = c.size := by
  cases o with
  | softmax s axis act =>
    simp only [Op.chans] at h
    split at h
    · simp at h
    · simp only [Option.some.injEq] at h; rw [← h]; rfl
  | _ => first | (simp [Op.chans] at h; done) | (simp only [Op.size, h])

/-- the first layer is an input layer -/
theorem first_input {net : Network K} (hwf : net.WF) {plan : Plan} (h : triTopo net.graph = some plan) :
    ∃ n r s, plan.order.head? = some n ∧ net.op n = .input r s ∧ n ∈ plan.order := by
  obtain ⟨f⟩ := facts h
  have hperm := plan_perm hwf.unique hwf.consistent h
  have hm := f.hmove
  unfold moveConsts at hm
  split at hm
  · simp at hm
  · rename_i o os ho
    simp only [Option.some.injEq] at hm
    have hoc : net.graph.constOf o = false := by
      have : o ∈ List.filter (fun i => !net.graph.constOf i) (sortAll net.graph.nextOf net.graph.length net.graph.idxs).1 := by
        rw [ho]; simp
      simpa using (List.mem_filter.1 this).2
    have hmem : o ∈ plan.order := by rw [← hm]; simp
    obtain ⟨l, hl, rfl⟩ := layer_of_idx (hperm.mem_iff.1 hmem)
    have hprev : l.prev = [] := by
      have := (plan_sorted h [] l.idx _ hm.symm).2
      rw [prevOf_mem hwf.unique hl] at this
      cases hp : l.prev with
      | nil => rfl
      | cons a t => rw [hp] at this; exact absurd (this a (by simp)) (by simp)
    have hin := hwf.sizes l hl
    rw [hprev] at hin
    rcases noInputs (hwf.ok l hl) hin.symm with ⟨r, s, e⟩ | hc
    · exact ⟨l.idx, r, s, by rw [← hm]; rfl, e, hmem⟩
    · have := (hwf.const l hl).2 hc
      rw [constOf_mem hwf.unique hl] at hoc
      simp [this] at hoc

/-- **C52.**  Take any network of the modelled layers, within the conditions `WF`, for which an execution plan is found; any
input of the size declared by the input layers; and any memory with the arrays of the header and the parameters of the
network.  If the inputs of the layers meet `InputsOK` and, for channels-last models, the last layer's array has
rank three, then `compute_inference` returns a prediction and the generated function, called on
that memory, terminates without leaving an array and leaves exactly this prediction in `prediction`; the input and the
parameters are unchanged. -/
theorem C52_network_partial (net : Network K) (hwf : net.WF) (plan : Plan) (h : triTopo net.graph = some plan)
    (M : CMath K) (x : Nd K) (m : Mem K)
    (hx : ∀ l ∈ net.graph, ∀ r s, net.op l.idx = .input r s → x.data.length = s.size)
    (hm : net.Memory plan x.data m)
    (hin : ∀ first x', plan.order.head? = some first → prepare net.fmt (net.op first) x = some x' →
      ∀ n ins, net.Receives M plan x' n ins → (net.op n).InputsOK M ins)
    (hlast : net.fmt = .last → ∀ n, plan.order.getLast? = some n → (net.op n).chans = none ∨ (net.op n).Rank3) :
    ∃ y m', net.reference M plan x = some y ∧ net.inference M plan m = some ((), m') ∧ Holds m' .pred y ∧
      m'.size = m.size ∧ ∀ b, ReadOnly b → m'.val b = m.val b := by
  have hu := hwf.unique
  have hc := hwf.consistent
  obtain ⟨f⟩ := facts h
  have hsorted := plan_sorted h
  have hperm := plan_perm hu hc h
  have hlk := links hu hc
  have hcl : ∀ n ∈ plan.order, ∀ s ∈ net.graph.nextOf n, s ∈ plan.order := by
    intro n _ s hsn
    exact hperm.mem_iff.2 (next_closed hu hc n (nextOf_idx hsn) s hsn)
  have hlay : ∀ n ∈ plan.order, ∃ l ∈ net.graph, l.idx = n := fun n hn => layer_of_idx (hperm.mem_iff.1 hn)
  -- the input
  obtain ⟨n0, r0, s0, hhead, hop0, hn0⟩ := first_input hwf h
  obtain ⟨l0, hl0, rfl⟩ := hlay n0 hn0
  obtain ⟨x', hprep, hx'len, hx'code⟩ := prepare_input net.fmt r0 s0 x (hx l0 hl0 r0 s0 hop0)
  have hin' := hin l0.idx x' hhead (by rw [hop0]; exact hprep)
  have hinputs : ∀ l ∈ net.graph, ∀ r s, net.op l.idx = .input r s → r = r0 ∧ s = s0 :=
    fun l hl r s e => hwf.inputs l hl l0 hl0 r s r0 s0 e hop0
  set fwd := fun n => (net.op n).forward M net.fmt with hfwd
  -- the values of the layers
  have hargs : ∀ (v : Nat → Nd K) l, l ∈ net.graph → (∀ p ∈ l.prev, (v p).data.length = (net.op p).size) →
      l.prev ≠ [] → (argsOf net.graph.prevOf x' v l.idx).map (fun x => x.data.length) = (net.op l.idx).inSizes := by
    intro v l hl hp hne
    rw [argsOf, prevOf_mem hu hl, if_neg hne, ← hwf.sizes l hl, List.map_map]
    exact List.map_congr_left fun p hpm => hp p hpm
  have hstep : ∀ pre n post, plan.order = pre ++ n :: post → ∀ v : Nat → Nd K,
      (∀ i ∈ pre, fwd i (argsOf net.graph.prevOf x' v i) = some (v i) ∧ (v i).data.length = (net.op i).size) →
      ∃ y, fwd n (argsOf net.graph.prevOf x' v n) = some y ∧ y.data.length = (net.op n).size := by
    intro pre n post he v hv
    obtain ⟨l, hl, rfl⟩ := hlay n (by simp [he])
    have hpre := (hsorted pre l.idx post he).2
    rw [prevOf_mem hu hl] at hpre
    by_cases hne : l.prev = []
    · have hs := hwf.sizes l hl
      rw [hne] at hs
      have ea : argsOf net.graph.prevOf x' v l.idx = [x'] := by rw [argsOf, prevOf_mem hu hl, if_pos hne]
      rw [ea]
      rcases noInputs (hwf.ok l hl) hs.symm with ⟨r, s, e⟩ | ⟨w, e⟩
      · refine ⟨x', by simp only [hfwd, e]; rfl, ?_⟩
        rw [e, hx'len, (hinputs l hl r s e).2]; rfl
      · exact ⟨w, by simp only [hfwd, e]; rfl, by rw [e]; rfl⟩
    · have hlen := hargs v l hl (fun p hp => (hv p (hpre p hp)).2) hne
      have hne' : (net.op l.idx).inSizes ≠ [] := by
        rw [← hwf.sizes l hl]; simpa using hne
      have hrec : net.Receives M plan x' l.idx (argsOf net.graph.prevOf x' v l.idx) :=
        ⟨pre, post, _, he, stepE_steps hsorted hlk hcl pre (l.idx :: post) he (fun i hi => (hv i hi).1),
          gather_args hsorted hlk he⟩
      obtain ⟨y, hy, hyl, _⟩ := op_correct M net.fmt (net.op l.idx) l.idx _ hne' (hwf.ok l hl) hlen (hin' _ _ hrec)
      exact ⟨y, hy, hyl⟩
  have : Inhabited (Nd K) := ⟨⟨[], []⟩⟩
  obtain ⟨v, hv⟩ := exists_valuationE (fwd := fwd) (P := fun n y => y.data.length = (net.op n).size) hsorted hstep
  -- sizes of the arrays
  obtain ⟨other, hdecl⟩ := hm.declared
  obtain ⟨sizes, hdecl', hsz⟩ := Gen.C32_arrays_large_enough hu hc h (plan.order.map fun n => (net.op n).info n)
    (by rw [List.map_map]; simp [Function.comp_def, Op.info]) (dictOf plan)
    (by
      intro n k
      simp only [dictOf, List.mem_filterMap, Option.map_eq_some_iff, Prod.mk.injEq]
      constructor
      · rintro ⟨a, ha, b, hb, rfl, rfl⟩; exact ⟨ha, hb⟩
      · rintro ⟨a, b⟩; exact ⟨n, a, k, b, rfl, rfl⟩) other
  rw [hdecl, Option.some.injEq] at hdecl'
  subst hdecl'
  have hroom : ∀ n ∈ plan.order, (net.op n).size ≤ m.size (.out (plan.path n)) ∧ (net.op n).size ≤ m.size .temp ∧
      (∀ k, plan.cst n = some k → (net.op n).size ≤ m.size (.cst k)) ∧
      (∀ p, (net.op n).patches = some p → p ≤ m.size (.out (plan.path n))) := by
    intro n hn
    obtain ⟨h1, h2, h3, h4⟩ := hsz ((net.op n).info n) (List.mem_map.2 ⟨n, hn, rfl⟩)
    exact ⟨h1, h2, h3, fun p hp => (h4 p hp).1⟩
  -- the code of the layers
  have hcode : ∀ n ∈ plan.order, ∀ m1 : Mem K, m1.size = m.size → (∀ b, ReadOnly b → m1.val b = m.val b) →
      (∀ p ∈ net.graph.prevOf n, Holds m1 (outStr plan p) (v p).data ∧ (v p).data.length = (net.op p).size) →
      Computes (net.layerCode M n ((net.graph.prevOf n).map (outStr plan)) (.out (plan.path n))) m1 (.out (plan.path n))
        (v n).data := by
    intro n hn m1 hs1 hro hprod
    obtain ⟨l, hl, rfl⟩ := hlay n hn
    obtain ⟨hr1, hr2, _, hr4⟩ := hroom l.idx hn
    rw [← hs1] at hr1 hr2
    rw [prevOf_mem hu hl] at hprod ⊢
    have hpar : ∀ p ∈ (net.op l.idx).params l.idx, Holds m1 p.1 p.2 := by
      intro p hp
      refine (hm.params l.idx hn p hp).congr hs1 (hro p.1 ?_)
      cases ho : net.op l.idx with
      | broadcast op out ss cst act =>
        rw [ho] at hp
        cases cst <;> simp only [Op.params, List.mem_cons, List.not_mem_nil, or_false] at hp
        rw [hp]; trivial
      | _ =>
        rw [ho] at hp
        simp only [Op.params, List.mem_cons, List.not_mem_nil, or_false] at hp
        try (rcases hp with hp | hp | hp | hp <;> rw [hp] <;> trivial)
        try (rcases hp with hp | hp <;> rw [hp] <;> trivial)
        try (rw [hp]; trivial)
    by_cases hne : l.prev = []
    · have hs := hwf.sizes l hl
      rw [hne] at hs
      have ea : argsOf net.graph.prevOf x' v l.idx = [x'] := by rw [argsOf, prevOf_mem hu hl, if_pos hne]
      have hvn := (hv l.idx hn).1
      rw [ea] at hvn
      rw [hne]
      rcases noInputs (hwf.ok l hl) hs.symm with ⟨r, s, e⟩ | ⟨w, e⟩
      · obtain ⟨rfl, rfl⟩ := hinputs l hl r s e
        have e2 : v l.idx = x' := by
          simp only [hfwd, e] at hvn
          simpa [Op.forward] using hvn.symm
        rw [e2]
        simp only [Network.layerCode, e, List.map_nil, Op.code, Option.getD_some]
        refine hx'code m1 _ (hm.input.congr hs1 (hro .input trivial)) ?_
        rw [e] at hr1; exact hr1
      · have e2 : v l.idx = w := by
          simp only [hfwd, e] at hvn
          simpa [Op.forward] using hvn.symm
        rw [e2]
        simp only [Network.layerCode, e, List.map_nil, Op.code, Option.getD_some]
        refine C22_constant _ _ _ _ m1 rfl ?_ ?_
        · rw [e] at hpar; exact hpar (_, _) (.head _)
        · rw [e] at hr1; exact hr1
    · have hprevo : ∀ p ∈ l.prev, p ∈ plan.order := by
        intro p hp
        obtain ⟨a, b, hab⟩ := List.append_of_mem hn
        have := (hsorted a l.idx b hab).2 p (by rw [prevOf_mem hu hl]; exact hp)
        rw [hab]; simp [this]
      have hlen := hargs v l hl (fun p hp => (hv p (hprevo p hp)).2) hne
      have hne' : (net.op l.idx).inSizes ≠ [] := by
        rw [← hwf.sizes l hl]; simpa using hne
      have hrec : net.Receives M plan x' l.idx (argsOf net.graph.prevOf x' v l.idx) := by
        obtain ⟨a, b, hab⟩ := List.append_of_mem hn
        exact ⟨a, b, _, hab, stepE_steps hsorted hlk hcl a (l.idx :: b) hab
          (fun i hi => (hv i (by rw [hab]; simp [hi])).1), gather_args hsorted hlk hab⟩
      obtain ⟨y, hy, hyl, hrun⟩ := op_correct M net.fmt (net.op l.idx) l.idx _ hne' (hwf.ok l hl) hlen (hin' _ _ hrec)
      have hyv : y = v l.idx := by
        have := (hv l.idx hn).1
        simp only [hfwd] at this
        rw [hy] at this
        exact Option.some.inj this
      subst hyv
      have ea : argsOf net.graph.prevOf x' v l.idx = l.prev.map v := by rw [argsOf, prevOf_mem hu hl, if_neg hne]
      rw [ea] at hrun
      have hready : Ready (net.op l.idx) m1 l.idx (plan.path l.idx) (l.prev.map (outStr plan)) (l.prev.map v) := by
        refine ⟨?_, hpar, hr2, hr1, ?_, ?_, ?_, ?_⟩
        · rw [List.forall₂_map_left_iff, List.forall₂_map_right_iff, List.forall₂_same]
          intro p hp
          refine ⟨?_, (hprod p hp).1⟩
          unfold outStr; split <;> simp
        · intro p hp; rw [hs1]; exact hr4 p hp
        · intro z hz
          obtain ⟨p, hp, rfl⟩ := List.mem_map.1 hz
          rw [(hprod p hp).2, hs1]
          exact (hroom p (hprevo p hp)).2.1
        · intro hown
          obtain ⟨p, hp, h1, h2⟩ := hwf.own l hl hown
          rw [h1]
          simp only [List.map_cons, List.map_nil, (C07_in_place hu hc h hl hp h1 h2).2]
        · intro hpatch
          obtain ⟨c, wt, b, act, e⟩ : ∃ c wt b act, net.op l.idx = .conv .stdGemm c wt b act := by
            cases ho : net.op l.idx with
            | conv impl c wt b act =>
              cases impl with
              | loops6 => rw [ho] at hpatch; exact absurd rfl hpatch
              | stdGemm => exact ⟨c, wt, b, act, rfl⟩
            | _ => rw [ho] at hpatch; exact absurd rfl hpatch
          have hsl := hwf.sizes l hl
          rw [e] at hsl
          obtain ⟨p, hp⟩ : ∃ p, l.prev = [p] := by
            have := congrArg List.length hsl
            simp only [List.length_map, Op.inSizes, List.length_cons, List.length_nil] at this
            exact List.length_eq_one_iff.1 this
          obtain ⟨q, hq, hqi⟩ := hlay p (hprevo p (by simp [hp]))
          have hk := C04_cst_iff_multi_consumer hu hc h hq
          rw [hp, List.map_cons, List.map_nil]
          by_cases hmul : q.next.length > 1
          · right
            intro k
            have := hk.2 hmul
            rw [hqi] at this
            obtain ⟨k', hk'⟩ := Option.isSome_iff_exists.1 this
            simp [outStr, hk']
          · left
            have hmem : l.idx ∈ q.next := by
              rw [← nextOf_mem hu hq, ← hlk, prevOf_mem hu hl, hp, hqi]; simp
            have hnx : q.next = [l.idx] := by
              match hqn : q.next, hmem with
              | [a], hmem => simp at hmem; rw [hmem]
              | a :: b :: t, _ => rw [hqn] at hmul; simp at hmul
            have := (C07_in_place hu hc h hl hq (by rw [hp, hqi]) hnx).2
            rw [hqi] at this
            rw [this]
      obtain ⟨c, hc1, hc2⟩ := hrun m1 (plan.path l.idx) _ hready
      simp only [Network.layerCode, hc1, Option.getD_some]
      exact hc2
  -- running the layers
  obtain ⟨m1, e1, hm1, hx1, hlast1⟩ := run_refines_val (plan := plan) (nextOf := net.graph.nextOf)
    (code := net.layerCode M) (m0 := m) (size := fun n => (net.op n).size) (v := fun n => (v n).data) hsorted hlk
    (fun pre post he p q hpq hp hq => plan_noalias hu hc hwf.simple h he hpq hp hq)
    (fun pre post he p q hpq hp hq => by
      rw [f.hcst]
      exact assignCst_noalias hsorted.nodup hlk (simple_prev hu hwf.simple) he hpq hp hq)
    (fun n hn => by
      rw [f.hcst] at hn
      exact ((assignCst_keys _ _).1 hn).2)
    hcode (fun n hn => (hv n hn).2) (fun n hn => (hroom n hn).2.2.1)
    plan.order [] (by simp) m rfl (fun _ _ => rfl) (by simp) (by simp)
  obtain ⟨n, hn⟩ : ∃ n, plan.order.getLast? = some n := by
    cases hd : plan.order.getLast? with
    | none =>
      have : plan.order = [] := List.getLast?_eq_none_iff.1 hd
      rw [this] at hn0; simp at hn0
    | some n => exact ⟨n, rfl⟩
  have hno : n ∈ plan.order := List.mem_of_getLast? hn
  have hfin := hlast1 n hn
  have hlen := (hv n hno).2
  have hp1 : (net.op n).size ≤ m1.size .pred := by rw [hm1]; exact hm.pred n hn
  have hloop : loopE net.graph.prevOf net.graph.nextOf fwd plan.order x' = some (v n) := by
    unfold loopE
    rw [stepE_steps hsorted hlk hcl plan.order [] (by simp) (fun i hi => (hv i hi).1)]
    simp [hn]
  -- the prediction
  have hout : ∃ y, finish net.fmt (net.op n) (v n) = some y ∧
      Computes (outputCode net.fmt .first (net.op n).chans.isSome (((net.op n).chans).getD ⟨0, 0, 0⟩).C
        (((net.op n).chans).getD ⟨0, 0, 0⟩).H (((net.op n).chans).getD ⟨0, 0, 0⟩).W (net.op n).size (plan.path n)) m1
        .pred y := by
    cases hcn : (net.op n).chans with
    | none =>
      refine ⟨(v n).data, by unfold finish; rw [hcn]; cases net.fmt <;> rfl, ?_⟩
      exact (C23_vector net.fmt .first 0 0 0 (net.op n).size (plan.path n) (v n).data m1 hlen).2 hfin hp1
    | some c =>
      have hcs := size_of_chans hcn
      rw [hcs] at hlen hp1 ⊢
      have harr : tensor3 c.C c.H c.W (arrOf c (v n).data).v = (v n).data := arrOf_flat hlen
      have hrun := C23_output net.fmt .first c.C c.H c.W (plan.path n) (arrOf c (v n).data).v m1
        (by rw [inLayout, harr]; exact hfin) hp1
      refine ⟨_, ?_, hrun⟩
      cases hfmt : net.fmt with
      | first => simp only [finish, inLayout, harr]
      | last =>
        have hr3 : (net.op n).Rank3 := by
          rcases hlast hfmt n hn with h | h
          · rw [hcn] at h; simp at h
          · exact h
        obtain ⟨l, hl, hli⟩ := hlay n hno
        have hvn := (hv n hno).1
        have hne : l.prev ≠ [] := by
          intro hne
          have hs := hwf.sizes l hl
          rw [hne] at hs
          rcases noInputs (hwf.ok l hl) hs.symm with ⟨r, s, e⟩ | ⟨w, e⟩ <;>
          · rw [← hli, e] at hcn; simp [Op.chans] at hcn
        have hprevo : ∀ p ∈ l.prev, p ∈ plan.order := by
          intro p hp
          obtain ⟨a, b, hab⟩ := List.append_of_mem hno
          have := (hsorted a n b hab).2 p (by rw [← hli, prevOf_mem hu hl]; exact hp)
          rw [hab]; simp [this]
        have hal := hargs v l hl (fun p hp => (hv p (hprevo p hp)).2) hne
        rw [hli] at hal
        have hd := rank3_dims (hli ▸ hwf.ok l hl) hr3 hal hcn hvn
        simp only [finish, hcn, hd, inLayout]
  obtain ⟨y, hy, m2, e2, h2, c2⟩ := hout
  refine ⟨y, m2, ?_, ?_, h2, by rw [c2.1, hm1], ?_⟩
  · unfold Network.reference
    simp only [hhead, hn, Option.bind_eq_bind, Option.bind_some, hop0, hprep, ← hfwd, hloop, hy]
  · unfold Network.inference
    refine (andThen_run e1).trans ?_
    simp only [hn]
    exact e2
  · intro b hb
    rw [c2.2 b (by intro hh; simp at hh; rcases hh with rfl | rfl <;> exact hb), hx1 b hb]

end

end Verif.Net

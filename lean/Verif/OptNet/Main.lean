import Verif.OptNet.Layer2
import Verif.OptNet.Follow
import Verif.Net.Run
import Verif.Props.Opt

/-!
# C71: the program generated for the optimised network
-/

namespace Verif.OptNet
open Net Layers Opt Export Graph
open scoped Classical

/-! ## The tensors of the original network -/

theorem values {net : Network ℝ} (hwf : net.WF) {plan : Plan} (h : triTopo net.graph = some plan) (hfmt : net.fmt = .first) (M : CMath ℝ) (x : Nd ℝ)
    (hx : ∀ l ∈ net.graph, ∀ r s, net.op l.idx = .input r s → x.data.length = s.size)
    (hin : ∀ n ins, net.Receives M plan x n ins → (net.op n).InputsOK M ins) :
    ∃ v : Nat → Nd ℝ, (∀ n ∈ plan.order, (net.op n).forward M .first (argsOf net.graph.prevOf x v n) = some (v n) ∧ (v n).data.length = (net.op n).size) ∧
      (∀ n ∈ plan.order, (net.op n).InputsOK M (argsOf net.graph.prevOf x v n)) ∧
      net.reference M plan x = plan.order.getLast?.map fun n => (v n).data := by
  have hu := hwf.unique
  have hc := hwf.consistent
  have hsorted := plan_sorted h
  have hperm := plan_perm hu hc h
  have hlk := links hu hc
  have hcl : ∀ n ∈ plan.order, ∀ s ∈ net.graph.nextOf n, s ∈ plan.order := by
    intro n _ s hsn
    exact hperm.mem_iff.2 (next_closed hu hc n (nextOf_idx hsn) s hsn)
  have hlay : ∀ n ∈ plan.order, ∃ l ∈ net.graph, l.idx = n := fun n hn => layer_of_idx (hperm.mem_iff.1 hn)
  set fwd := fun n => (net.op n).forward M net.fmt with hfwd
  have hrec : ∀ pre n post, plan.order = pre ++ n :: post → ∀ v : Nat → Nd ℝ, (∀ i ∈ pre, fwd i (argsOf net.graph.prevOf x v i) = some (v i)) →
      net.Receives M plan x n (argsOf net.graph.prevOf x v n) := by
    intro pre n post he v hv
    exact ⟨pre, post, _, he, stepE_steps hsorted hlk hcl pre (n :: post) he hv, gather_args hsorted hlk he⟩
  have hstep : ∀ pre n post, plan.order = pre ++ n :: post → ∀ v : Nat → Nd ℝ,
      (∀ i ∈ pre, fwd i (argsOf net.graph.prevOf x v i) = some (v i) ∧ (v i).data.length = (net.op i).size) →
      ∃ y, fwd n (argsOf net.graph.prevOf x v n) = some y ∧ y.data.length = (net.op n).size := by
    intro pre n post he v hv
    obtain ⟨l, hl, rfl⟩ := hlay n (by simp [he])
    have hpre := (hsorted pre l.idx post he).2
    rw [prevOf_mem hu hl] at hpre
    by_cases hne : l.prev = []
    · have hs := hwf.sizes l hl
      rw [hne] at hs
      have ea : argsOf net.graph.prevOf x v l.idx = [x] := by rw [argsOf, prevOf_mem hu hl, if_pos hne]
      rw [ea]
      rcases noInputs (hwf.ok l hl) hs.symm with ⟨r, s, e⟩ | ⟨w, e⟩
      · exact ⟨x, by simp only [hfwd, e]; rfl, by rw [e, hx l hl r s e]; rfl⟩
      · exact ⟨w, by simp only [hfwd, e]; rfl, by rw [e]; rfl⟩
    · have hlen : (argsOf net.graph.prevOf x v l.idx).map (fun x => x.data.length) = (net.op l.idx).inSizes := by
        rw [argsOf, prevOf_mem hu hl, if_neg hne, ← hwf.sizes l hl, List.map_map]
        exact List.map_congr_left fun p hpm => (hv p (hpre p hpm)).2
      have hne' : (net.op l.idx).inSizes ≠ [] := by
        rw [← hwf.sizes l hl]; simpa using hne
      obtain ⟨y, hy, hyl, _⟩ := op_correct M net.fmt (net.op l.idx) l.idx _ hne' (hwf.ok l hl) hlen
        (hin _ _ (hrec pre l.idx post he v fun i hi => (hv i hi).1))
      exact ⟨y, hy, hyl⟩
  have : Inhabited (Nd ℝ) := ⟨⟨[], []⟩⟩
  obtain ⟨v, hv⟩ := exists_valuationE (fwd := fwd) (P := fun n y => y.data.length = (net.op n).size) hsorted hstep
  refine ⟨v, fun n hn => ⟨?_, (hv n hn).2⟩, fun n hn => ?_, ?_⟩
  · have := (hv n hn).1
    simp only [hfwd, hfmt] at this
    exact this
  · obtain ⟨a, b, hab⟩ := List.append_of_mem hn
    exact hin _ _ (hrec a n b hab v fun i hi => (hv i (by rw [hab]; simp [hi])).1)
  · obtain ⟨n0, r0, s0, hhead, hop0, hn0⟩ := first_input hwf h
    cases hl : plan.order.getLast? with
    | none => rw [List.getLast?_eq_none_iff.1 hl] at hn0; simp at hn0
    | some n =>
      have hloop : loopE net.graph.prevOf net.graph.nextOf fwd plan.order x = some (v n) := by
        unfold loopE
        rw [stepE_steps hsorted hlk hcl plan.order [] (by simp) (fun i hi => (hv i hi).1)]
        simp [hl]
      have hprep : prepare net.fmt (net.op n0) x = some x := by rw [hfmt]; cases net.op n0 <;> rfl
      have hfin : finish net.fmt (net.op n) (v n) = some (v n).data := by rw [hfmt]; rfl
      unfold Network.reference
      simp only [hhead, hl, Option.bind_eq_bind, Option.bind_some, hprep, ← hfwd, hloop, hfin, Option.map_some]

theorem nd_inputs (M : CMath ℝ) (op : Op ℝ) {ins zs : List (Nd ℝ)} (h : op.InputsOK M ins) (hz : zs.map Nd.data = ins.map Nd.data)
    (hd : ∀ z ∈ zs, z.dims = []) : op.InputsOK M zs := by
  cases op with
  | maxPool c act =>
    intro z hzm
    have : z.data ∈ ins.map Nd.data := by rw [← hz]; exact List.mem_map_of_mem hzm
    obtain ⟨x, hx, e⟩ := List.mem_map.1 this
    have := h x hx
    rw [e] at this
    exact this
  | broadcast b o ss k act =>
    cases b <;> first | trivial | exact fun a ha b hb => by rw [hd a ha, hd b hb]
  | _ => trivial

theorem imported {net : XNet} {plan : Plan} {D : Nat → Shape} (H : Optimisable net plan D) :
    Imported net.graph (fun n => clsOf (net.layer n).op) fun n => fnOf n (net.layer n).act := by
  have W := H.wf
  have hc : ∀ l ∈ net.graph, l.isConst = true ↔ clsOf (net.layer l.idx).op = .constant := by
    intro l hl
    rw [W.const l hl]
    show (∃ v, (net.layer l.idx).full = .constant v) ↔ _
    unfold XLayer.full
    generalize (net.layer l.idx).op = o
    cases o with
    | broadcast b => cases b <;> simp [setAct, clsOf]
    | _ => simp [setAct, clsOf]
  refine ⟨W.unique, W.consistent, W.simple, H.simpleNext, H.listed, hc, ?_, ?_, ?_, ?_⟩
  · intro l hl hco
    obtain ⟨v, e⟩ := (W.const l hl).1 hco
    have := W.sizes l hl
    rw [e] at this
    simpa [Op.inSizes] using this
  · intro l hl hp
    have hs := W.sizes l hl
    rw [hp] at hs
    rcases noInputs (W.ok l hl) hs.symm with ⟨r, s, e⟩ | ⟨v, e⟩
    · left
      have := clsOf_setAct (net.layer l.idx).act.compute (net.layer l.idx).op
      rw [← this]
      exact congrArg clsOf e
    · right
      have := clsOf_setAct (net.layer l.idx).act.compute (net.layer l.idx).op
      rw [← this]
      exact congrArg clsOf e
  · intro l hl hm hlen
    have hs := congrArg List.length (W.sizes l hl)
    change (List.map _ l.prev).length = ((net.layer l.idx).full).inSizes.length at hs
    unfold XLayer.full at hs
    rw [inSizes_setAct, List.length_map, hlen] at hs
    revert hs hm
    generalize (net.layer l.idx).op = o
    cases o with
    | broadcast b => cases b <;> simp [clsOf]
    | _ => simp [clsOf, Op.inSizes]
  · intro l hl hm
    rw [H.mulLinear l hl hm]
    rfl

/-- the tensor of shape `s` with the elements of `t` -/
noncomputable def tenOf (s : Shape) (t : List ℝ) : Ten := if h : t.length = s.C * s.H * s.W then ⟨s.C, s.H, s.W, t, h⟩ else ⟨0, 0, 0, [], rfl⟩

theorem tenOf_data {s : Shape} {t : List ℝ} (h : t.length = s.C * s.H * s.W) : (tenOf s t).data = t ∧ shapeOf (tenOf s t) = s := by
  unfold tenOf; rw [dif_pos h]; exact ⟨rfl, rfl⟩

theorem ten_ext {a b : Ten} (h1 : a.data = b.data) (h2 : shapeOf a = shapeOf b) : a = b := by
  obtain ⟨C, H, W, d, l⟩ := a
  obtain ⟨C', H', W', d', l'⟩ := b
  simp only [shapeOf, Shape.mk.injEq] at h2
  obtain ⟨rfl, rfl, rfl⟩ := h2
  simp only at h1
  subst h1
  rfl

theorem full_act (net : XNet) (o : Nat) : setAct (actOf net (fnOf o (net.layer o).act)).compute (net.layer o).full = (net.layer o).full := by
  have : actOf net (fnOf o (net.layer o).act) = (net.layer o).act := by
    cases h : (net.layer o).act <;> simp [fnOf, actOf, h]
  rw [this, XLayer.full, setAct_setAct]

theorem prev_one {net : XNet} {plan : Plan} {D : Nat → Shape} (H : Optimisable net plan D) {l : Layer} (hl : l ∈ net.graph) {n : Nat}
    (hs : (net.layer l.idx).op.inSizes = [n]) : ∃ p, l.prev = [p] := by
  have := congrArg List.length (H.wf.sizes l hl)
  change (List.map _ l.prev).length = ((net.layer l.idx).full).inSizes.length at this
  rw [XLayer.full, inSizes_setAct, hs, List.length_map] at this
  exact List.length_eq_one_iff.1 this

theorem shape_size {net : XNet} {plan : Plan} {D : Nat → Shape} (H : Optimisable net plan D) (h : triTopo net.graph = some plan) :
    ∀ n ∈ plan.order, (D n).C * (D n).H * (D n).W = (net.layer n).full.size := by
  have hu : UniqueIdx net.graph := H.wf.unique
  have hsorted := plan_sorted h
  have hperm := plan_perm hu (show Consistent net.graph from H.wf.consistent) h
  have key : ∀ pre post, plan.order = pre ++ post → ∀ n ∈ pre, (D n).C * (D n).H * (D n).W = (net.layer n).full.size := by
    intro pre
    induction pre using List.reverseRecOn with
    | nil => intro _ _ n hn; simp at hn
    | append_singleton pre n ih =>
      intro post he i hi
      rcases List.mem_append.1 hi with hi | hi
      · exact ih (n :: post) (by simp [he]) i hi
      · simp only [List.mem_singleton] at hi
        subst hi
        obtain ⟨l, hl, rfl⟩ := layer_of_idx (hperm.mem_iff.1 (by rw [he]; simp : i ∈ plan.order))
        rw [XLayer.full, size_setAct]
        by_cases ha : ∃ n f, (net.layer l.idx).op = .activation n f
        · obtain ⟨n, f, ha⟩ := ha
          obtain ⟨p, hp⟩ := prev_one H hl (n := n) (by rw [ha]; rfl)
          have hpre : p ∈ pre := (hsorted pre l.idx post (by simp [he])).2 p (by rw [show net.graph.prevOf l.idx = l.prev from prevOf_mem hu hl, hp]; simp)
          have e := H.wf.sizes l hl
          rw [hp] at e
          change [(net.layer p).full.size] = ((net.layer l.idx).full).inSizes at e
          rw [show (net.layer l.idx).full = setAct (net.layer l.idx).act.compute (net.layer l.idx).op from rfl, inSizes_setAct, ha] at e
          simp only [Op.inSizes, List.cons.injEq, and_true] at e
          rw [H.shapes.activation l hl n f p ha hp, ih (l.idx :: post) (by simp [he]) p hpre, e, ha]
          rfl
        · rw [H.shapes.op l hl (fun n f e => ha ⟨n, f, e⟩)]
          exact opShape_size _ (fun n f e => ha ⟨n, f, e⟩)
  exact fun n hn => key plan.order [] (by simp) n hn

theorem fit_layer {net : XNet} {plan : Plan} {D : Nat → Shape} (H : Optimisable net plan D) {l : Layer} (hl : l ∈ net.graph) {t : Nat → Ten}
    (ht : ∀ p ∈ l.prev, shapeOf (t p) = D p) : Fit (net.layer l.idx).full (l.prev.map t) := by
  constructor
  · intro s e a b c d f ho
    cases hop : (net.layer l.idx).op with
    | batchNorm s' e' a' b' c' d' f' =>
      have ho' := ho
      rw [XLayer.full, hop] at ho'
      cases ho'
      obtain ⟨p, hp⟩ := prev_one H hl (n := s.size) (by rw [hop]; rfl)
      rw [hp, List.map_cons, List.map_nil, List.map_cons, List.map_nil, ht p (by rw [hp]; simp), H.shapes.batchNorm l hl _ _ _ _ _ _ _ p hop hp]
    | _ => rw [XLayer.full, hop] at ho; simp [setAct] at ho
  · intro o ss k f ho h2
    cases hop : (net.layer l.idx).op with
    | broadcast b o' ss' k' f' =>
      have ho' := ho
      rw [XLayer.full, hop] at ho'
      cases ho'
      rw [List.length_map] at h2
      obtain ⟨p, q, hp⟩ := List.length_eq_two.1 h2
      rw [hp]
      simp only [List.map_cons, List.map_nil]
      rw [ht p (by rw [hp]; simp), ht q (by rw [hp]; simp)]
      exact H.shapes.multiply l hl _ _ _ _ p q hop hp
    | _ => rw [XLayer.full, hop] at ho; simp [setAct] at ho

theorem outShape_full {net : XNet} {plan : Plan} {D : Nat → Shape} (H : Optimisable net plan D) {l : Layer} (hl : l ∈ net.graph) {t : Nat → Ten}
    (ht : ∀ p ∈ l.prev, shapeOf (t p) = D p) : outShape (net.layer l.idx).full (l.prev.map t) = D l.idx := by
  by_cases ha : ∃ n f, (net.layer l.idx).op = .activation n f
  · obtain ⟨n, f, ha⟩ := ha
    obtain ⟨p, hp⟩ := prev_one H hl (n := n) (by rw [ha]; rfl)
    rw [XLayer.full, ha, hp, H.shapes.activation l hl n f p ha hp]
    exact ht p (by rw [hp]; simp)
  · rw [H.shapes.op l hl (fun n f e => ha ⟨n, f, e⟩), XLayer.full, ← opShape_setAct (net.layer l.idx).act.compute]
    cases hop : (net.layer l.idx).op with
    | activation n f => exact absurd ⟨n, f, hop⟩ ha
    | _ => rfl

/-- The tensors of the layers of the original network. -/
structure Original (M : CMath ℝ) (net : XNet) (plan : Plan) (D : Nat → Shape) (x : Nd ℝ) (xT : Ten) (t : Nat → Ten) : Prop where
  input : xT.data = x.data
  shape : ∀ n ∈ plan.order, shapeOf (t n) = D n
  len : ∀ n ∈ plan.order, (t n).data.length = (net.layer n).full.size
  inputs : ∀ l ∈ net.graph, l.prev ≠ [] → (net.layer l.idx).full.InputsOK M ((l.prev.map t).map nd)
  val : (loaded net plan).IsVal (sem M net) (some xT) fun n => some (t n)
  out : net.network.reference M plan x = plan.order.getLast?.map fun n => (t n).data

theorem original {net : XNet} {plan : Plan} {D : Nat → Shape} (H : Optimisable net plan D) (h : triTopo net.graph = some plan) (M : CMath ℝ) (x : Nd ℝ)
    (hx : ∀ l ∈ net.graph, ∀ r s, (net.layer l.idx).op = .input r s → x.data.length = s.size)
    (hin : ∀ n ins, net.network.Receives M plan x n ins → (net.layer n).full.InputsOK M ins) : ∃ xT t, Original M net plan D x xT t := by
  have hu : UniqueIdx net.graph := H.wf.unique
  have hsorted := plan_sorted h
  have hperm := plan_perm hu (show Consistent net.graph from H.wf.consistent) h
  have hlay : ∀ n ∈ plan.order, ∃ l ∈ net.graph, l.idx = n := fun n hn => layer_of_idx (hperm.mem_iff.1 hn)
  have hin_op : ∀ l ∈ net.graph, ∀ r s, (net.layer l.idx).full = .input r s → (net.layer l.idx).op = .input r s := by
    intro l _ r s e
    unfold XLayer.full at e
    cases hop : (net.layer l.idx).op <;> rw [hop] at e <;> simp [setAct] at e
    rw [e.1, e.2]
  obtain ⟨v, hv, hvi, hout⟩ := values H.wf h H.first M x (fun l hl r s e => hx l hl r s (hin_op l hl r s e)) hin
  obtain ⟨n0, r0, s0, hhead, hop0, hn0⟩ := first_input H.wf h
  obtain ⟨l0, hl0, rfl⟩ := hlay n0 hn0
  have hxl : x.data.length = s0.C * s0.H * s0.W := hx l0 hl0 r0 s0 (hin_op l0 hl0 r0 s0 hop0)
  have hD := shape_size H h
  have ht : ∀ n ∈ plan.order, (tenOf (D n) (v n).data).data = (v n).data ∧ shapeOf (tenOf (D n) (v n).data) = D n :=
    fun n hn => tenOf_data (by rw [hD n hn]; exact (hv n hn).2)
  have hprevo : ∀ l ∈ net.graph, ∀ p ∈ l.prev, p ∈ plan.order := by
    intro l hl p hp
    have hn : l.idx ∈ plan.order := hperm.mem_iff.2 (List.mem_map_of_mem hl)
    obtain ⟨a, b, hab⟩ := List.append_of_mem hn
    have := (hsorted a l.idx b hab).2 p (by rw [prevOf_mem hu hl]; exact hp)
    rw [hab]; simp [this]
  have hdat : ∀ l ∈ net.graph, l.prev ≠ [] → ((l.prev.map fun n => tenOf (D n) (v n).data).map nd).map Nd.data =
      (argsOf net.graph.prevOf x v l.idx).map Nd.data := by
    intro l hl hne
    rw [argsOf, prevOf_mem hu hl, if_neg hne, List.map_map, List.map_map, List.map_map]
    exact List.map_congr_left fun p hp => (ht p (hprevo l hl p hp)).1
  have hinp : ∀ l ∈ net.graph, l.prev ≠ [] → (net.layer l.idx).full.InputsOK M ((l.prev.map fun n => tenOf (D n) (v n).data).map nd) := by
    intro l hl hne
    refine nd_inputs M _ (hvi l.idx (hperm.mem_iff.2 (List.mem_map_of_mem hl))) (hdat l hl hne) ?_
    intro z hz
    obtain ⟨t, _, rfl⟩ := List.mem_map.1 hz
    rfl
  refine ⟨tenOf s0 x.data, fun n => tenOf (D n) (v n).data, (tenOf_data hxl).1, fun n hn => (ht n hn).2, ?_, hinp, ?_, ?_⟩
  · intro n hn; rw [(ht n hn).1]; exact (hv n hn).2
  · intro n hn
    change n ∈ plan.order at hn
    obtain ⟨l, hl, rfl⟩ := hlay n hn
    have hpv : net.graph.prevOf l.idx = l.prev := prevOf_mem hu hl
    show some _ = Opt.Net.eval (sem M net) (loaded net plan) l.idx (argsOf net.graph.prevOf (some (tenOf s0 x.data)) _ l.idx)
    have hcls : clsOf (net.layer l.idx).full = clsOf (net.layer l.idx).op := clsOf_setAct _ _
    by_cases hne : l.prev = []
    · rw [argsOf, hpv, if_pos hne]
      have hs := H.wf.sizes l hl
      rw [hne] at hs
      have hvn := (hv l.idx hn).1
      rw [argsOf, show net.network.graph.prevOf l.idx = l.prev from hpv, if_pos hne] at hvn
      have hDs := H.shapes.op l hl (fun n f e => by
        have : (net.layer l.idx).full.inSizes = [] := hs.symm
        rw [XLayer.full, inSizes_setAct, e] at this; simp [Op.inSizes] at this)
      rw [← opShape_setAct (net.layer l.idx).act.compute] at hDs
      rcases noInputs (H.wf.ok l hl) hs.symm with ⟨r, s, e⟩ | ⟨w, e⟩
      · change (net.layer l.idx).full = .input r s at e
        have ecl : clsOf (net.layer l.idx).op = .input := by rw [← hcls, e]; rfl
        obtain ⟨rfl, rfl⟩ := H.wf.inputs l hl l0 hl0 r s r0 s0 e hop0
        change (net.layer l.idx).full.forward M .first [x] = _ at hvn
        rw [e] at hvn
        have hvn : x = v l.idx := by simpa [Op.forward] using hvn
        change D l.idx = opShape (net.layer l.idx).full at hDs
        rw [e] at hDs
        change D l.idx = s at hDs
        simp only [Opt.Net.eval]
        rw [if_neg (by rw [show (loaded net plan).cls l.idx = .input from ecl]; simp [sem, applies]),
          show (loaded net plan).cls l.idx = .input from ecl, show (loaded net plan).par l.idx = (net.layer l.idx).full from rfl, e, ← hvn, hDs]
        obtain ⟨t, h1, h2, h3⟩ := plainSem_eq M (.input r s) (by simp) [tenOf s x.data] (nd (tenOf s x.data)) rfl (by
          show (tenOf s x.data).data.length = s.size
          rw [(tenOf_data hxl).1]; exact hxl)
        refine Eq.trans ?_ h1.symm
        exact congrArg some (ten_ext h2.symm (by rw [h3, (tenOf_data hxl).2]; rfl))
      · change (net.layer l.idx).full = .constant w at e
        have ecl : clsOf (net.layer l.idx).op = .constant := by rw [← hcls, e]; rfl
        change (net.layer l.idx).full.forward M .first [x] = _ at hvn
        rw [e] at hvn
        have hvn : w = v l.idx := by simpa [Op.forward] using hvn
        change D l.idx = opShape (net.layer l.idx).full at hDs
        rw [e] at hDs
        simp only [Opt.Net.eval]
        rw [if_neg (by rw [show (loaded net plan).cls l.idx = .constant from ecl]; simp [sem, applies]),
          show (loaded net plan).cls l.idx = .constant from ecl, show (loaded net plan).par l.idx = (net.layer l.idx).full from rfl, e]
        obtain ⟨t, h1, h2, h3⟩ := plainSem_eq M (.constant w) (by simp) [tenOf s0 x.data] w rfl rfl
        refine Eq.trans ?_ h1.symm
        refine congrArg some (ten_ext ?_ ?_)
        · rw [(ht l.idx hn).1, h2, hvn]
        · rw [(ht l.idx hn).2, h3, hDs]
    · have ea : argsOf net.graph.prevOf (some (tenOf s0 x.data)) (fun n => some (tenOf (D n) (v n).data)) l.idx =
          (l.prev.map fun n => tenOf (D n) (v n).data).map some := by
        rw [argsOf, hpv, if_neg hne, List.map_map]; rfl
      rw [ea]
      have hsz : (l.prev.map fun n => tenOf (D n) (v n).data).map (fun t => t.data.length) = (net.layer l.idx).full.inSizes := by
        rw [List.map_map, ← show _ = (net.layer l.idx).full.inSizes from H.wf.sizes l hl]
        refine List.map_congr_left fun p hp => ?_
        show (tenOf (D p) (v p).data).data.length = _
        rw [(ht p (hprevo l hl p hp)).1]
        exact (hv p (hprevo l hl p hp)).2
      have hne' : (net.layer l.idx).full.inSizes ≠ [] := by
        rw [← show _ = (net.layer l.idx).full.inSizes from H.wf.sizes l hl]; simpa using hne
      have hact := full_act net l.idx
      obtain ⟨y, t, h1, h2, h3, h4⟩ := sem_layer M net (net.layer l.idx).full (actOf net (fnOf l.idx (net.layer l.idx).act)).compute _ hne'
        (by rw [hact]; exact H.wf.ok l hl) hsz (hinp l hl hne) (fit_layer H hl fun p hp => (ht p (hprevo l hl p hp)).2) (fun _ => hact)
      rw [hact] at h1
      have hdata := forward_data M (net.layer l.idx).full (hdat l hl hne) (hinp l hl hne) (hvi l.idx hn)
      rw [h1] at hdata
      have hvn : (net.layer l.idx).full.forward M .first (argsOf net.graph.prevOf x v l.idx) = some (v l.idx) := (hv l.idx hn).1
      rw [hvn, Option.map_some, Option.map_some, Option.some.injEq] at hdata
      have et : tenOf (D l.idx) (v l.idx).data = t := by
        refine ten_ext ?_ ?_
        · rw [(ht l.idx hn).1, h2, hdata]
        · rw [(ht l.idx hn).2, h3, outShape_full H hl fun p hp => (ht p (hprevo l hl p hp)).2]
      rw [et, ← h4, hcls]
      rfl
  · rw [hout]
    cases hl : plan.order.getLast? with
    | none => rfl
    | some n => simp only [Option.map_some]; rw [(ht n (List.mem_of_getLast? hl)).1]

end Verif.OptNet

import Verif.OptNet.Main

/-!
# C71: the program generated for the optimised network
-/

namespace Verif.OptNet
open Net Layers Opt Export Graph
open scoped Classical

/-- the same layer, up to the weights and biases of a convolution -/
def Same (op op' : Op ℝ) : Prop := op' = op ∨ ∃ impl c wt b f wt' b', op = .conv impl c wt b f ∧ op' = .conv impl c wt' b' f

theorem Same.cls {op op' : Op ℝ} (h : Same op op') : clsOf op' = clsOf op := by
  rcases h with rfl | ⟨_, _, _, _, _, _, _, rfl, rfl⟩ <;> rfl

theorem Same.inSizes {op op' : Op ℝ} (h : Same op op') : op'.inSizes = op.inSizes := by
  rcases h with rfl | ⟨_, _, _, _, _, _, _, rfl, rfl⟩ <;> rfl

theorem Same.patches {op op' : Op ℝ} (h : Same op op') : op'.patches = op.patches := by
  rcases h with rfl | ⟨i, _, _, _, _, _, _, rfl, rfl⟩
  · rfl
  · cases i <;> rfl

theorem Same.needsOwn {op op' : Op ℝ} (h : Same op op') : op'.NeedsOwn ↔ op.NeedsOwn := by
  rcases h with rfl | ⟨_, _, _, _, _, _, _, rfl, rfl⟩ <;> exact Iff.rfl

theorem Same.ok {op op' : Op ℝ} (h : Same op op') (f : ℝ → ℝ) (hok : (setAct f op).OK) : (setAct f op').OK := by
  rcases h with rfl | ⟨_, _, _, _, _, _, _, rfl, rfl⟩ <;> exact hok

theorem Same.inputs {op op' : Op ℝ} (h : Same op op') (M : CMath ℝ) (ins : List (Nd ℝ)) (hi : op.InputsOK M ins) : op'.InputsOK M ins := by
  rcases h with rfl | ⟨_, _, _, _, _, _, _, rfl, rfl⟩ <;> exact hi

theorem Same.fit {op op' : Op ℝ} (h : Same op op') {ts : List Ten} (hf : Fit op ts) : Fit op' ts := by
  rcases h with rfl | ⟨_, _, _, _, _, _, _, rfl, rfl⟩
  · exact hf
  · exact ⟨(fun _ _ _ _ _ _ _ e => by cases e), (fun _ _ _ _ e => by cases e)⟩

theorem Same.setAct {op op' : Op ℝ} (h : Same op op') (f : ℝ → ℝ) (hnap : applies (clsOf op) = false) (e : Export.setAct f op = op) :
    Export.setAct f op' = op' := by
  rcases h with rfl | ⟨_, _, _, _, _, _, _, rfl, rfl⟩
  · exact e
  · simp [clsOf, applies] at hnap

theorem same_fold (M : CMath ℝ) (op : Op ℝ) (bs : List (Op ℝ)) (hc : bs ≠ [] → clsOf op = .conv) (hb : ∀ b ∈ bs, clsOf b = .batchNorm) :
    Same op (bs.foldl (foldOp M) op) := by
  induction bs generalizing op with
  | nil => exact Or.inl rfl
  | cons b bs ih =>
    cases op with
    | conv impl c wt bi f =>
      have hbb := hb b (by simp)
      cases b with
      | batchNorm s eps sc mm vr bb g =>
        rw [List.foldl_cons]
        rcases ih (foldOp M (.conv impl c wt bi f) (.batchNorm s eps sc mm vr bb g)) (fun _ => rfl) (fun b' hb' => hb b' (by simp [hb'])) with e | ⟨i', c', wt', b', f', w1, b1, e1, e2⟩
        · rw [e]; exact Or.inr ⟨impl, c, wt, bi, f, _, _, rfl, rfl⟩
        · simp only [foldOp, Op.conv.injEq] at e1
          obtain ⟨rfl, rfl, -, -, rfl⟩ := e1
          exact Or.inr ⟨_, _, _, _, _, _, _, rfl, e2⟩
      | broadcast bo => cases bo <;> simp [clsOf] at hbb
      | _ => simp [clsOf] at hbb
    | broadcast bo => have := hc (by simp); cases bo <;> simp [clsOf] at this
    | _ => have := hc (by simp); simp [clsOf] at this

/-- the elements of a tensor -/
def enc (t : Option Ten) : List ℝ := (t.map Ten.data).getD []

theorem feeds {w : Nat → Option Ten} {outS : Nat → Buf} {m : Mem ℝ} : ∀ (ps : List Nat) (ts : List Ten), ps.map w = ts.map some →
    (∀ p ∈ ps, outS p ≠ .temp ∧ Holds m (outS p) (enc (w p))) →
    List.Forall₂ (fun b x => b ≠ Buf.temp ∧ Holds m b x.data) (ps.map outS) (ts.map nd)
  | [], [], _, _ => .nil
  | [], _ :: _, h, _ => by simp at h
  | _ :: _, [], h, _ => by simp at h
  | p :: ps, t :: ts, h, hm => by
    simp only [List.map_cons, List.cons.injEq] at h
    refine .cons ?_ (feeds ps ts h.2 fun q hq => hm q (by simp [hq]))
    have := hm p (by simp)
    rw [h.1] at this
    exact this

theorem params_readOnly {op : Op ℝ} {idx : Nat} {p : Buf × List ℝ} (hp : p ∈ op.params idx) : ReadOnly p.1 := by
  cases op with
  | broadcast bo out ss cst act =>
    cases cst <;> simp only [Op.params, List.mem_cons, List.not_mem_nil, or_false] at hp
    rw [hp]; trivial
  | _ =>
    simp only [Op.params, List.mem_cons, List.not_mem_nil, or_false] at hp
    try (rcases hp with hp | hp | hp | hp <;> rw [hp] <;> trivial)
    try (rcases hp with hp | hp <;> rw [hp] <;> trivial)
    try (rw [hp]; trivial)

/-- the conditions on where a layer with one producer reads -/
def Place (net : XNet) (f : Nat) (b : Buf) (r : Nat) : Prop :=
  ((net.layer f).full.NeedsOwn → b = .out r) ∧ ((net.layer f).full.patches ≠ none → b = .out r ∨ ∀ k, b ≠ .out k)

theorem keeps {net : XNet} {plan : Plan} {D : Nat → Shape} (H : Optimisable net plan D) (h : triTopo net.graph = some plan) (M : CMath ℝ) :
    Keeps (sem M net) (loaded net plan) := by
  intro o ho hap c hc
  have hu : UniqueIdx net.graph := H.wf.unique
  have hperm := plan_perm hu (show Consistent net.graph from H.wf.consistent) h
  obtain ⟨l, hl, rfl⟩ := layer_of_idx (hperm.mem_iff.1 ho)
  change c ∈ net.graph.nextOf l.idx at hc
  rw [nextOf_mem hu hl] at hc
  exact H.kept l hl hap c hc

theorem placed {net : XNet} {plan : Plan} {D : Nat → Shape} (H : Optimisable net plan D) (h : triTopo net.graph = some plan) {l : Layer} (hl : l ∈ net.graph)
    {p : Nat} (hp : l.prev = [p]) : Place net l.idx (outStr plan p) (plan.path l.idx) := by
  have hu : UniqueIdx net.graph := H.wf.unique
  have hc : Consistent net.graph := H.wf.consistent
  have hperm := plan_perm hu hc h
  have hsorted := plan_sorted h
  have hpo : p ∈ plan.order := by
    have hn : l.idx ∈ plan.order := hperm.mem_iff.2 (List.mem_map_of_mem hl)
    obtain ⟨a, b, hab⟩ := List.append_of_mem hn
    have := (hsorted a l.idx b hab).2 p (by rw [prevOf_mem hu hl, hp]; simp)
    rw [hab]; simp [this]
  obtain ⟨q, hq, rfl⟩ := layer_of_idx (hperm.mem_iff.1 hpo)
  constructor
  · intro hown
    obtain ⟨p', hp', h1, h2⟩ := H.wf.own l hl hown
    rw [hp] at h1
    simp only [List.cons.injEq, and_true] at h1
    rw [h1]
    exact (C07_in_place hu hc h hl hp' (by rw [hp, h1]) h2).2
  · intro _
    have hk := C04_cst_iff_multi_consumer hu hc h hq
    by_cases hmul : q.next.length > 1
    · right
      intro k
      obtain ⟨k', hk'⟩ := Option.isSome_iff_exists.1 (hk.2 hmul)
      simp [outStr, hk']
    · left
      have hmem : l.idx ∈ q.next := by
        rw [← nextOf_mem hu hq, ← links hu hc, prevOf_mem hu hl, hp]; simp
      have hnx : q.next = [l.idx] := by
        match hqn : q.next, hmem with
        | [a], hmem => simp at hmem; rw [hmem]
        | a :: b :: t, _ => rw [hqn] at hmul; simp at hmul
      exact (C07_in_place hu hc h hl hq hp hnx).2

/-- **C71.**  Take a network within the conditions `Optimisable`, an execution plan, and an input of the declared size.  The optimisation pass finishes, the
reference on the network *as imported* returns a prediction, and the program generated for the *optimised* network, run on a memory with the arrays declared
for the optimised layers and their parameters, terminates without leaving an array and leaves exactly this prediction in `prediction`. -/
theorem C71_optimised_program_partial (M : CMath ℝ) (net : XNet) (plan : Plan) (D : Nat → Shape) (H : Optimisable net plan D)
    (h : triTopo net.graph = some plan) (x : Nd ℝ)
    (hx : ∀ l ∈ net.graph, ∀ r s, (net.layer l.idx).op = .input r s → x.data.length = s.size)
    (hin : ∀ n ins, net.network.Receives M plan x n ins → (net.layer n).full.InputsOK M ins) :
    ∃ net' y, optimised M net plan = .done net' ∧ net.network.reference M plan x = some y ∧
      ∀ m, Memory net plan net' x.data m → ∃ m', program M net net' m = some ((), m') ∧ Holds m' .pred y := by
  have hu : UniqueIdx net.graph := H.wf.unique
  have hc : Consistent net.graph := H.wf.consistent
  have hperm := plan_perm hu hc h
  have hlay : ∀ n ∈ plan.order, ∃ l ∈ net.graph, l.idx = n := fun n hn => layer_of_idx (hperm.mem_iff.1 hn)
  have I := imported H
  have hS := sem_ok M net
  have hk := keeps H h M
  obtain ⟨net', hr⟩ := C35_optimise_finishes hS I h (fun n => (net.layer n).full) hk
  have I0 := load_inv I h (fun n => (net.layer n).full) (sem M net) hk
  have X := matchLoop_safe hS _ _ _ _ I0 (load_safe I h _ H.orderly) hr
  obtain ⟨⟨j, I'⟩, σ, R⟩ := matchLoop_inv hS _ _ _ _ I0 hr
  obtain ⟨hnodup, -⟩ := C36_indices_partial hS I h (fun n => (net.layer n).full) hk H.orderly hr
  obtain ⟨xT, t, T⟩ := original H h M x hx hin
  obtain ⟨ll, hll⟩ := load_last h
  have hllo : ll ∈ plan.order := List.mem_of_getLast? hll
  refine ⟨net', (t ll).data, hr, by rw [T.out, hll]; rfl, ?_⟩
  intro m hm
  -- what the pass kept
  have F0 : Follow (foldOp M) (sem M net) (loaded net plan) (some xT) (fun n => some (t n)) (Place net) (loaded net plan) fun n => some (t n) := by
    refine ⟨T.val, fun _ h => h, fun _ _ => rfl, fun _ _ => rfl, rfl, fun o _ => ⟨[], rfl, by simp, by simp⟩, ?_, fun o ho => ⟨o, ho, rfl⟩, fun _ _ _ => rfl⟩
    intro f hf p hp
    obtain ⟨l, hl, rfl⟩ := hlay f hf
    change net.graph.prevOf l.idx = [p] at hp
    rw [prevOf_mem hu hl] at hp
    exact placed H h hl hp
  obtain ⟨w, F⟩ := matchLoop_follow hS (Q := Place net) (net0 := loaded net plan) (by
    intro f b r hcls
    change clsOf (net.layer f).op = .activation at hcls
    rw [← clsOf_setAct (net.layer f).act.compute] at hcls
    change clsOf (net.layer f).full = .activation at hcls
    unfold Place
    revert hcls
    generalize (net.layer f).full = o
    cases o with
    | broadcast bo => cases bo <;> simp [clsOf]
    | _ => simp [clsOf, Op.NeedsOwn, Op.patches]) _ _ _ _ _ I0 F0 hr
  -- the attributes of a layer
  have hsame : ∀ o ∈ net'.layers, Same (net.layer o).full (net'.par o) := by
    intro o ho
    obtain ⟨bs, e, h1, h2⟩ := F.par o ho
    rw [e]
    refine same_fold M _ bs (fun hbs => ?_) fun b hb => ?_
    · rw [XLayer.full, clsOf_setAct]; exact h1 hbs
    · obtain ⟨n, -, h3, rfl⟩ := h2 b hb
      show clsOf (net.layer n).full = _
      rw [XLayer.full, clsOf_setAct]; exact h3
  have hcls : ∀ o ∈ net'.layers, net'.cls o = clsOf (net'.par o) := by
    intro o ho
    rw [F.cls, (hsame o ho).cls, XLayer.full, clsOf_setAct]
    rfl
  have hnap : ∀ o ∈ net'.layers, applies (clsOf (net'.par o)) = false → setAct (actOf net (net'.fn o)).compute (net'.par o) = net'.par o := by
    intro o ho hap
    have hap' := hap
    rw [(hsame o ho).cls] at hap'
    refine (hsame o ho).setAct _ hap' ?_
    have := F.fn o ho (by
      show applies ((loaded net plan).cls o) = false
      rw [← F.cls, hcls o ho]; exact hap)
    rw [this]
    exact full_act net o
  have hok : ∀ o ∈ net'.layers, (layerOp net net' o).OK := by
    intro o ho
    obtain ⟨l, hl, rfl⟩ := hlay o (F.sub o ho)
    by_cases hap : applies (clsOf (net.layer l.idx).full) = true
    · exact (hsame _ ho).ok _ (ok_setAct (actOf net (fnOf l.idx (net.layer l.idx).act)).compute _ _ hap (by rw [full_act]; exact H.wf.ok l hl))
    · have hap : applies (clsOf (net.layer l.idx).full) = false := by simpa using hap
      have e1 := F.fn l.idx ho (by
        show applies ((loaded net plan).cls l.idx) = false
        rw [← F.cls, hcls _ ho, (hsame _ ho).cls]; exact hap)
      refine (hsame _ ho).ok _ ?_
      rw [e1]
      show (setAct (actOf net (fnOf l.idx (net.layer l.idx).act)).compute (net.layer l.idx).full).OK
      rw [full_act]
      exact H.wf.ok l hl
  -- the layers with producers
  have hmain : ∀ o ∈ net'.layers, net'.prev o ≠ [] → ∃ ts : List Ten, (net'.prev o).map w = ts.map some ∧
      ∃ y tt, (layerOp net net' o).forward M .first (ts.map nd) = some y ∧ w o = some tt ∧ tt.data = y.data ∧
        Correct M .first (layerOp net net' o) (net'.num o) (ts.map nd) := by
    intro o ho hne
    obtain ⟨l, hl, rfl⟩ := hlay o (F.sub o ho)
    have hpv : (loaded net plan).prev l.idx = l.prev := prevOf_mem hu hl
    have hne0 : l.prev ≠ [] := by
      intro e
      have := F.len l.idx ho
      rw [hpv, e] at this
      exact hne (List.length_eq_zero_iff.1 this)
    have hprevo : ∀ p ∈ l.prev, p ∈ plan.order := by
      intro p hp
      have hn : l.idx ∈ plan.order := F.sub l.idx ho
      obtain ⟨a, b, hab⟩ := List.append_of_mem hn
      have := ((plan_sorted h) a l.idx b hab).2 p (by rw [prevOf_mem hu hl]; exact hp)
      rw [hab]; simp [this]
    have hargs := F.args l.idx ho
    rw [argsOf, if_neg hne, argsOf, hpv, if_neg hne0] at hargs
    have hts : (net'.prev l.idx).map w = (l.prev.map t).map some := by rw [hargs, List.map_map]; rfl
    refine ⟨l.prev.map t, hts, ?_⟩
    have hsz : (l.prev.map t).map (fun t => t.data.length) = (net'.par l.idx).inSizes := by
      rw [(hsame _ ho).inSizes, List.map_map, ← show _ = (net.layer l.idx).full.inSizes from H.wf.sizes l hl]
      exact List.map_congr_left fun p hp => T.len p (hprevo p hp)
    have hne' : (net'.par l.idx).inSizes ≠ [] := by rw [← hsz]; simpa using hne0
    have hinp := (hsame _ ho).inputs M _ (T.inputs l hl hne0)
    obtain ⟨y, tt, h1, h2, h3, h4⟩ := sem_layer M net (net'.par l.idx) (actOf net (net'.fn l.idx)).compute (l.prev.map t) hne' (hok _ ho) hsz hinp
      ((hsame _ ho).fit (fit_layer H hl fun p hp => T.shape p (hprevo p hp))) (hnap _ ho)
    refine ⟨y, tt, h1, ?_, h2, ?_⟩
    · rw [F.val l.idx ho, argsOf, if_neg hne, hts, ← h4]
      simp only [Opt.Net.eval, hcls _ ho]
      rfl
    · refine op_correct M .first _ _ _ ?_ (hok _ ho) ?_ ?_
      · rw [layerOp, inSizes_setAct]; exact hne'
      · rw [layerOp, inSizes_setAct, nd_len, hsz]
      · exact (inputsOK_setAct M _ _ _).2 hinp
  -- the layers without producers
  have hsrc : ∀ o ∈ net'.layers, net'.prev o = [] → ∃ tt, w o = some tt ∧ tt.data.length = layerSize net net' o ∧
      ((∃ r s, layerOp net net' o = .input r s ∧ tt.data = x.data ∧ x.data.length = s.size) ∨ ∃ v, layerOp net net' o = .constant v ∧ tt.data = v.data) := by
    intro o ho hne
    obtain ⟨l, hl, rfl⟩ := hlay o (F.sub o ho)
    have hpv : (loaded net plan).prev l.idx = l.prev := prevOf_mem hu hl
    have hne0 : l.prev = [] := by
      have := F.len l.idx ho
      rw [hpv, hne] at this
      exact List.length_eq_zero_iff.1 this.symm
    have hs := H.wf.sizes l hl
    rw [hne0] at hs
    have hw : w l.idx = Opt.Net.eval (sem M net) net' l.idx [some xT] := by rw [F.val l.idx ho, argsOf, if_pos hne]
    simp only [Opt.Net.eval, hcls _ ho] at hw
    rcases noInputs (H.wf.ok l hl) hs.symm with ⟨r, s, e⟩ | ⟨v, e⟩
    · change (net.layer l.idx).full = .input r s at e
      have ep : net'.par l.idx = .input r s := by
        rcases hsame _ ho with e' | ⟨_, _, _, _, _, _, _, e', -⟩
        · rw [e', e]
        · rw [e] at e'; cases e'
      have ex : x.data.length = s.size := by
        refine hx l hl r s ?_
        unfold XLayer.full at e
        cases hop : (net.layer l.idx).op <;> rw [hop] at e <;> simp [setAct] at e
        rw [e.1, e.2]
      rw [ep] at hw
      have hw : w l.idx = plainSem M (.input r s) [some xT] := hw
      obtain ⟨tt, h1, h2, h3⟩ := plainSem_eq M (.input r s) (by simp) [xT] (nd xT) rfl (by
        show xT.data.length = s.size
        rw [T.input]; exact ex)
      have h2 : tt.data = x.data := h2.trans T.input
      have el : layerOp net net' l.idx = .input r s := by rw [layerOp, ep]; rfl
      exact ⟨tt, hw.trans h1, by rw [h2, layerSize, el, ex]; rfl, Or.inl ⟨r, s, el, h2, ex⟩⟩
    · change (net.layer l.idx).full = .constant v at e
      have ep : net'.par l.idx = .constant v := by
        rcases hsame _ ho with e' | ⟨_, _, _, _, _, _, _, e', -⟩
        · rw [e', e]
        · rw [e] at e'; cases e'
      rw [ep] at hw
      have hw : w l.idx = plainSem M (.constant v) [some xT] := hw
      obtain ⟨tt, h1, h2, h3⟩ := plainSem_eq M (.constant v) (by simp) [xT] v rfl rfl
      have el : layerOp net net' l.idx = .constant v := by rw [layerOp, ep]; rfl
      exact ⟨tt, hw.trans h1, by rw [h2, layerSize, el]; rfl, Or.inr ⟨v, el, h2⟩⟩
  have hlen : ∀ o ∈ net'.layers, (enc (w o)).length = layerSize net net' o := by
    intro o ho
    by_cases hne : net'.prev o = []
    · obtain ⟨tt, e, h1, -⟩ := hsrc o ho hne
      rw [e]; exact h1
    · obtain ⟨ts, -, y, tt, h1, h2, h3, y', h4, h5, -⟩ := hmain o ho hne
      rw [h1, Option.some.injEq] at h4
      rw [h2]
      show tt.data.length = _
      rw [h3, h4]; exact h5
  -- the arrays
  obtain ⟨dict, other, hdict, hdecl⟩ := hm.declared
  unfold Gen.declared at hdecl
  split at hdecl
  · simp at hdecl
  rename_i cst hcst
  simp only [Option.some.injEq] at hdecl
  have hpath : ∀ o ∈ net'.layers, net'.path o < plan.maxPath := by
    intro o ho
    obtain ⟨n, hn, e⟩ := F.path o ho
    obtain ⟨l, hl, rfl⟩ := hlay n hn
    rw [e]
    exact (C05_buffers_declared hu hc h).1 l hl
  set ls := net'.layers.map fun o => (layerOp net net' o).info (net'.num o) with hls
  have hmemls : ∀ o ∈ net'.layers, (layerOp net net' o).info (net'.num o) ∈ ls := fun o ho => List.mem_map.2 ⟨o, ho, rfl⟩
  have hout : ∀ o ∈ net'.layers, m.size (.out (net'.path o)) = Gen.pathSize ls := by
    intro o ho
    rw [← hdecl]
    simp [hpath o ho]
  have htemp : m.size .temp = Gen.tempSize ls := by rw [← hdecl]
  have hps : Gen.lSizeMax ls ≤ Gen.pathSize ls := by unfold Gen.pathSize; split <;> omega
  have hpp : ∀ l ∈ ls, ∀ p, l.patches = some p → p ≤ Gen.pathSize ls := by
    intro l hl p hp
    have h2 := Gen.patches_le hl hp
    have : Gen.pathSize ls = max (Gen.lSizeMax ls) (Gen.patchesSizeMax ls) := by
      unfold Gen.pathSize
      rw [if_pos (List.any_eq_true.2 ⟨l, hl, by simp [hp]⟩)]
    omega
  have hroomT : ∀ o ∈ net'.layers, layerSize net net' o ≤ m.size .temp := by
    intro o ho
    have := Gen.size_le_lSizeMax (hmemls o ho)
    rw [htemp]
    change layerSize net net' o ≤ _ at this
    unfold Gen.tempSize; omega
  have hroomO : ∀ o ∈ net'.layers, layerSize net net' o ≤ m.size (.out (net'.path o)) := by
    intro o ho
    have := Gen.size_le_lSizeMax (hmemls o ho)
    rw [hout o ho]
    change layerSize net net' o ≤ _ at this
    omega
  have hcs : ∀ o ∈ net'.layers, ∀ k, net'.dict (net'.num o) = some k → layerSize net net' o ≤ m.size (.cst k) := by
    intro o ho k hk'
    have := Gen.cstSizes_ge (ls := ls) (by rw [hls, List.map_map]; exact hnodup) dict none _ cst hcst _ (hmemls o ho) k ((hdict _ _).2 hk')
    rw [← hdecl]
    exact this
  -- the code of the layers
  have hcode : ∀ o ∈ net'.layers, CodeAt net' (sem M net) enc (layerCode M net net') m (layerSize net net') (some xT) w o := by
    intro o ho m1 hs1 hro hprod
    rw [← F.val o ho]
    have hpar : ∀ p ∈ (layerOp net net' o).params (net'.num o), Holds m1 p.1 p.2 :=
      fun p hp => (hm.params o ho p hp).congr hs1 (hro p.1 (params_readOnly hp))
    by_cases hne : net'.prev o = []
    · obtain ⟨tt, e, h1, h2⟩ := hsrc o ho hne
      have hr1 := hroomO o ho
      rw [← hs1] at hr1
      rw [e, hne]
      show Computes _ m1 _ tt.data
      simp only [layerCode, List.map_nil]
      rcases h2 with ⟨r, s, el, h2, h3⟩ | ⟨v, el, h2⟩
      · rw [el]
        simp only [Op.code, Option.getD_some]
        obtain ⟨x', hp, -, hx'⟩ := prepare_input .first r s x h3
        have : x' = x := by simp only [prepare, Option.some.injEq] at hp; exact hp.symm
        subst this
        rw [h2]
        refine hx' m1 _ (hm.input.congr hs1 (hro .input trivial)) ?_
        rw [layerSize, el] at hr1
        exact hr1
      · rw [el] at hpar ⊢
        simp only [Op.code, Option.getD_some]
        rw [h2]
        refine C22_constant _ _ _ _ m1 rfl (hpar (_, _) (.head _)) ?_
        rw [layerSize, el] at hr1
        exact hr1
    · obtain ⟨ts, hts, y, tt, h1, h2, h3, y', h4, h5, hrun⟩ := hmain o ho hne
      rw [h1, Option.some.injEq] at h4
      subst h4
      rw [h2]
      show Computes _ m1 _ tt.data
      rw [h3]
      have hplen : ∀ n, (net.layer o).full.inSizes = [n] → ∃ p, net'.prev o = [p] := by
        intro n hn
        obtain ⟨l, hl, rfl⟩ := hlay o (F.sub o ho)
        have e1 : (net'.prev l.idx).length = l.prev.length := by
          rw [F.len _ ho]; exact congrArg List.length (prevOf_mem hu hl)
        have e2 := congrArg List.length (H.wf.sizes l hl)
        change (List.map _ l.prev).length = ((net.layer l.idx).full).inSizes.length at e2
        rw [hn, List.length_map] at e2
        exact List.length_eq_one_iff.1 (e1.trans e2)
      have hready : Ready (layerOp net net' o) m1 (net'.num o) (net'.path o) ((net'.prev o).map net'.outS) (ts.map nd) := by
        refine ⟨feeds _ _ hts ?_, hpar, ?_, ?_, ?_, ?_, ?_, ?_⟩
        · intro p hp
          refine ⟨?_, (hprod p hp).1⟩
          have hpm := I'.wf.prev_mem ho hp
          have hon := I'.wf.back o ho p hp
          rcases X.own p hpm (by intro e; rw [e] at hon; simp at hon) with e | ⟨k, _, e⟩ <;> rw [e] <;> simp
        · rw [hs1]; exact hroomT o ho
        · rw [hs1]; exact hroomO o ho
        · intro p hp
          rw [hs1, hout o ho]
          exact hpp _ (hmemls o ho) p hp
        · intro z hz
          obtain ⟨tz, htz, rfl⟩ := List.mem_map.1 hz
          have : some tz ∈ (net'.prev o).map w := by rw [hts]; exact List.mem_map_of_mem htz
          obtain ⟨p, hp, e⟩ := List.mem_map.1 this
          have h6 := (hprod p hp).2
          rw [e] at h6
          change tz.data.length = _ at h6
          show tz.data.length ≤ _
          rw [h6, hs1]
          exact hroomT p (I'.wf.prev_mem ho hp)
        · intro hown
          rw [layerOp, needsOwn_setAct, (hsame o ho).needsOwn] at hown
          obtain ⟨n, hn⟩ : ∃ n, (net.layer o).full.inSizes = [n] := by
            revert hown
            generalize (net.layer o).full = op
            cases op <;> simp [Op.NeedsOwn, Op.inSizes]
          obtain ⟨p, hp⟩ := hplen n hn
          rw [hp, List.map_cons, List.map_nil, (F.own o ho p hp).1 hown]
        · intro hpa
          rw [layerOp, patches_setAct, (hsame o ho).patches] at hpa
          obtain ⟨n, hn⟩ : ∃ n, (net.layer o).full.inSizes = [n] := by
            revert hpa
            generalize (net.layer o).full = op
            cases op <;> simp [Op.patches, Op.inSizes]
          obtain ⟨p, hp⟩ := hplen n hn
          rw [hp, List.map_cons, List.map_nil]
          rcases (F.own o ho p hp).2 hpa with e | e
          · left; rw [e]
          · right
            intro k e'
            simp only [List.cons.injEq, and_true] at e'
            exact e k e'
      obtain ⟨c, hc1, hc2⟩ := hrun m1 (net'.path o) _ hready
      simp only [layerCode, hc1, Option.getD_some]
      exact hc2
  -- the end
  have hne : net'.layers ≠ [] := matchLoop_nonempty hS _ _ _ _ I0 (by
    intro e; change plan.order = [] at e; rw [e] at hll; simp at hll) hr
  obtain ⟨l, hl⟩ : ∃ l, net'.layers.getLast? = some l := by
    cases hx : net'.layers.getLast? with
    | none => exact absurd (List.getLast?_eq_none_iff.1 hx) hne
    | some l => exact ⟨l, rfl⟩
  have hwl : w l = some (t ll) := by
    rw [isVal_unique I'.wf F.val (R.val (some xT) _ T.val) l (List.mem_of_getLast? hl), Function.comp_apply, R.last ll l hll hl]
  obtain ⟨m', e1, e2⟩ := inference_correct I'.wf X F.val hcode hlen hcs hl (hm.pred l hl)
  refine ⟨m', e1, ?_⟩
  rw [hwl] at e2
  exact e2

end Verif.OptNet

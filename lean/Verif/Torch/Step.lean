import Verif.Torch.Calls

/-!
# One call preserves the invariant
-/

namespace Verif.Torch
open Net Graph CText
open Onnx (prod nat? mk_ok)
open Keras (pick pick_forall)
open scoped Classical

variable {M : CMath ℝ} {p : Program} {x : Nd ℝ} {done : List Node} {n : Node} {E : Spec.Env} {st : State} {vals : List (List ℝ)}

/-- a parameter is found by its name -/
theorem param_of (hnd : (p.nodes.map Node.name).Nodup) {w : String} {v : Nd ℝ} (h : p.Param w v) : p.param (.node w) = some v := by
  obtain ⟨m, hm, rfl, hk⟩ := h
  unfold Program.param
  have : p.nodes.find? (fun n => n.name = m.name) = some m := by
    cases hf : p.nodes.find? (fun n => n.name = m.name) with
    | none => exact absurd (List.find?_eq_none.mp hf m hm) (by simp)
    | some m' =>
      have h1 := List.find?_some hf
      simp only [decide_eq_true_eq] at h1
      rw [node_eq hnd (List.mem_of_find?_eq_some hf) hm h1]
  simp [this, hk]

/-- its value is the parameter -/
theorem param_env (hI : Inv M p x done E st vals) (hn : Next p done n) {w : String} {v t : Nd ℝ} (h : p.Param w v) (ht : E w = some t) :
    t = v ∧ ∃ m ∈ done, m.name = w ∧ ¬ m.isValue := by
  obtain ⟨m, hm, rfl, hk⟩ := h
  obtain ⟨m', hm', he, hv⟩ := hI.env _ _ ht
  have := node_eq hn.names (hn.sub hm') hm he
  subst this
  exact ⟨hv v hk, m', hm', rfl, by simp [Node.isValue, hk]⟩

/-- an operand: its layer, its elements, its shape -/
theorem operand (hI : Inv M p x done E st vals) (hn : Next p done n) {s : String} {d : List Nat} {t : Nd ℝ} (hs : s ∈ n.callReads) (h : p.Tensor s d)
    (ht : E s = some t) :
    (∃ m ∈ done, m.isValue ∧ m.name = s) ∧ t.dims = d ∧ t.Ok ∧ ∃ k sh, st.look s = some (k, sh) ∧ vals[k]? = some t.data ∧ (sh = t.dims ∨ t.dims.length < 4) := by
  obtain ⟨m, hm, rfl, hv, hd⟩ := h
  obtain ⟨m', hm', he, _⟩ := hI.env _ _ ht
  have := node_eq hn.names (hn.sub hm') hm he
  subst this
  obtain ⟨k, t', hh⟩ := hI.held m' hm' hv
  rw [hh.env] at ht
  cases ht
  obtain ⟨sh, h1, h2⟩ := hh.look
  exact ⟨⟨m', hm', hv, rfl⟩, hh.dims.trans hd, hh.ok, k, sh, h1, hh.val.resolve_left (hn.fresh hs), h2⟩

/-- the operand of an activation or normalisation: its layer can be changed -/
theorem opened (hI : Inv M p x done E st vals) (hn : Next p done n) {s : String} {P : Node → Prop} (hP : ∀ m, P m → m.isValue ∧ m.fuses) {t : Nd ℝ}
    (ho : p.Only n s P) (ht : E s = some t) :
    ∃ m ∈ done, m.isValue ∧ m.name = s ∧ P m ∧ t.Ok ∧ ∃ k sh, st.look s = some (k, sh) ∧ Open M m done st vals k t := by
  obtain ⟨⟨m, hm, rfl, hPm⟩, hr⟩ := ho
  obtain ⟨m', hm', he, _⟩ := hI.env _ _ ht
  have := node_eq hn.names (hn.sub hm') hm he
  subst this
  obtain ⟨k, t', hh⟩ := hI.held m' hm' (hP _ hPm).1
  rw [hh.env] at ht
  cases ht
  obtain ⟨sh, h1, _⟩ := hh.look
  refine ⟨m', hm', (hP _ hPm).1, rfl, hPm, hh.ok, k, sh, h1, hh.opened (hP _ hPm).2 ?_⟩
  intro c hc hcr
  exact hn.ne hc (hr c (hn.sub hc) hcr)

theorem fuses_value (m : Node) (h : m.fuses) : m.isValue ∧ m.fuses := by
  obtain ⟨t, args, kw, hk, hb⟩ := id h
  exact ⟨by simp [Node.isValue, hk], h⟩

theorem conv_value (m : Node) (h : m.isConv) : m.isValue ∧ m.fuses := by
  obtain ⟨t, args, kw, hk, hb⟩ := id h
  exact ⟨by simp [Node.isValue, hk], t, args, kw, hk, .inr (.inl hb)⟩

theorem reads_of {t : String} {args : List Arg} {kw : List (String × Arg)} (h : n.kind = .call t args kw) : n.callReads = args.flatMap Arg.names := by
  simp [Node.callReads, h]

theorem value_of {t : String} {args : List Arg} {kw : List (String × Arg)} (h : n.kind = .call t args kw) : n.isValue := by simp [Node.isValue, h]

theorem not_conv {t : String} {args : List Arg} {kw : List (String × Arg)} (h : n.kind = .call t args kw) (hb : branch t ≠ .conv2d) : ¬ n.isConv := by
  rintro ⟨t', args', kw', h', hb'⟩
  rw [h] at h'
  cases h'
  exact hb hb'

theorem not_alias {t : String} {args : List Arg} {kw : List (String × Arg)} (h : n.kind = .call t args kw) (hb : branch t ≠ .alias) : ¬ n.isAlias := by
  rintro ⟨t', args', kw', h', hb'⟩
  rw [h] at h'
  cases h'
  exact hb hb'

theorem not_fuses {t : String} {args : List Arg} {kw : List (String × Arg)} (h : n.kind = .call t args kw)
    (hb : ¬ (branch t = .linear ∨ branch t = .conv2d ∨ branch t = .batchNorm ∨ branch t = .add ∨ branch t = .cat)) : ¬ n.fuses := by
  rintro ⟨t', args', kw', h', hb'⟩
  rw [h] at h'
  cases h'
  exact hb hb'

theorem value_node {s : String} {v : Spec.Val} (h : Spec.value E (.node s) = some v) : ∃ t, E s = some t ∧ v = .t t := by
  obtain ⟨t, h1, h2⟩ := Option.map_eq_some_iff.mp h
  exact ⟨t, h1, h2.symm⟩

theorem mapM_cons_some {α β : Type} {f : α → Option β} {a : α} {l : List α} {r : List β} (h : (a :: l).mapM f = some r) :
    ∃ b bs, f a = some b ∧ l.mapM f = some bs ∧ r = b :: bs := by
  rw [List.mapM_cons] at h
  obtain ⟨b, h1, h⟩ := Option.bind_eq_some_iff.mp h
  obtain ⟨bs, h2, h⟩ := Option.bind_eq_some_iff.mp h
  cases h
  exact ⟨b, bs, h1, h2, rfl⟩

theorem mapM_nil_some {α β : Type} {f : α → Option β} {r : List β} (h : ([] : List α).mapM f = some r) : r = [] := by
  cases h; rfl

theorem pick_one {k : Nat} {d : List ℝ} (h : vals[k]? = some d) : pick vals [k] = some [d] := by
  rw [pick_forall]; exact .cons h .nil

variable {y : Nd ℝ} {vs : List Spec.Val}

/-- what is to be proved for a call -/
def Goes (M : CMath ℝ) (p : Program) (x : Nd ℝ) (done : List Node) (n : Node) (E : Spec.Env) (st : State) (y : Nd ℝ) (t : String) (args : List Arg) : Prop :=
  ∃ st' vals', p.callStep st n.name n.shape t args = some st' ∧ Inv M p x (done ++ [n]) (E.set n.name y) st' vals'

/-- a new layer with one operand -/
theorem push_one (hI : Inv M p x done E st vals) (hn : Next p done n) {t : String} {args : List Arg} {kw : List (String × Arg)} (hk : n.kind = .call t args kw)
    {s : String} {k : Nat} {sh : List Nat} (hl : st.look s = some (k, sh)) {d : List ℝ} (hv : vals[k]? = some d)
    (hs : s ∈ n.callReads) (hreads : ∀ s' ∈ n.callReads, s' = s ∨ ∃ m ∈ done, m.name = s' ∧ ¬ m.isValue)
    {op : Op ℝ} (hg : Gives M op [d] y.data) (hc : Coded op [d] y.data) (hok : y.Ok) (hd : y.dims = n.shape)
    (hf : n.fuses → Fusing op ∧ (n.isConv → Rescales M op [d] y))
    (hstep : p.callStep st n.name n.shape t args = some (st.push n.name n.shape op [k])) : Goes M p x done n E st y t args :=
  ⟨_, _, hstep, inv_push hI hn (value_of hk) (ss := [s]) (.cons ⟨sh, hl⟩ .nil) (pick_one hv) (by simp) (fun s' h => by
    simp only [List.mem_singleton] at h; rw [h]; exact hs) (fun s' h => by rcases hreads s' h with h | h; exact .inl (by simp [h]); exact .inr h) hg hc hok hd hf
    (fun _ => by simp)⟩

theorem go_linear (hI : Inv M p x done E st vals) (hn : Next p done n) (hd : y.dims = n.shape) {s w b : String} {vw vb : Nd ℝ} {i : Nat}
    (hk : n.kind = .call "linear.default" [.node s, .node w, .node b] []) (hs : p.Tensor s [1, i]) (hw : p.Param w vw) (hb : p.Param b vb)
    (hvs : [Arg.node s, .node w, .node b].mapM (Spec.value E) = some vs) (hy : Spec.call "linear.default" vs [] = some y) :
    Goes M p x done n E st y "linear.default" [.node s, .node w, .node b] := by
  obtain ⟨v0, r0, c0, hv0', rfl⟩ := mapM_cons_some hvs
  obtain ⟨v1, r1, c1, hv1', rfl⟩ := mapM_cons_some hv0'
  obtain ⟨v2, r2, c2, hv2', rfl⟩ := mapM_cons_some hv1'
  cases mapM_nil_some hv2'
  obtain ⟨ts, e0, rfl⟩ := value_node c0
  obtain ⟨tw, e1, rfl⟩ := value_node c1
  obtain ⟨tb, e2, rfl⟩ := value_node c2
  obtain ⟨rfl, pw⟩ := param_env hI hn hw e1
  obtain ⟨rfl, pb⟩ := param_env hI hn hb e2
  rw [call_linear] at hy
  have hr := reads_of hk
  have hs0 : s ∈ n.callReads := by simp [hr, Arg.names]
  obtain ⟨_, hdim, hok, k, sh, hl, hv, _⟩ := operand hI hn hs0 hs e0
  obtain ⟨op, h1, h2, h3, h4⟩ := linear_ok (M := M) hdim hok hy
  have hyok : y.Ok := by
    unfold Spec.linear at hy
    split at hy
    · obtain ⟨_, h⟩ := (Option.ite_none_right_eq_some).mp hy
      cases h
      exact mk_ok _ _
    · cases hy
  refine push_one hI hn hk hl hv hs0 ?_ h3 h4 hyok hd (fun _ => ⟨h2, fun h => absurd h (not_conv hk (by decide))⟩) ?_
  · intro s' h
    rw [hr] at h
    simp only [List.flatMap_cons, Arg.names, List.flatMap_nil, List.append_nil, List.cons_append, List.nil_append, List.mem_cons, List.not_mem_nil, or_false] at h
    rcases h with rfl | rfl | rfl
    · exact .inl rfl
    · exact .inr pw
    · exact .inr pb
  · simp only [Program.callStep, show branch "linear.default" = .linear from by decide]
    simp [param_of hn.names hw, param_of hn.names hb, ← hd, h1, Arg.name?, hl]

theorem relu_act : Layers.Act.compute .relu = fun v : ℝ => max v 0 := by
  funext v
  simp [Layers.Act.compute, max_comm]

/-- an activation -/
theorem go_act (hI : Inv M p x done E st vals) (hn : Next p done n) (hd : y.dims = n.shape) {t s : String} {args : List Arg}
    (hk : n.kind = .call t (.node s :: args) []) (hb : branch t = .relu ∨ branch t = .clamp) (hargs : ∀ a ∈ args, a.names = []) (ho : p.Only n s Node.fuses)
    {f : ℝ → ℝ} (hf : Text f) {a : Nd ℝ} (ha : E s = some a) (hy : y = Onnx.Spec.unary f a)
    (hstep : ∀ k sh, st.look s = some (k, sh) →
      p.callStep st n.name n.shape t (.node s :: args) = some ((st.change k fun l => (l.1, setAct f l.2)).alias n.name (k, sh))) :
    Goes M p x done n E st y t (.node s :: args) := by
  obtain ⟨m, hm, hv, rfl, _, hok, k, sh, hl, hop⟩ := opened hI hn fuses_value ho ha
  have hop' := hop
  obtain ⟨_, _, _, op, xs, h1, h2, h3, h4, h5, h6, _⟩ := hop'
  have hr := reads_of hk
  subst hy
  refine ⟨_, _, hstep k sh hl, inv_change hI hn (value_of hk) (not_alias hk (by rcases hb with h | h <;> rw [h] <;> decide))
    (not_conv hk (by rcases hb with h | h <;> rw [h] <;> decide)) hm hv ⟨t, args, [], hk, by rcases hb with h | h <;> simp [h]⟩ ?_ hl ha hop h1 h2 h3
    (op' := setAct f op) ?_ ?_ ?_ rfl (Onnx.unary_ok hok) hd rfl⟩
  · intro s' h
    rw [hr] at h
    rw [List.flatMap_cons, List.mem_append, List.mem_flatMap] at h
    rcases h with h | ⟨a, ha, h⟩
    · exact .inl (by simpa [Arg.names] using h)
    · rw [hargs a ha] at h; cases h
  · have := gives_setAct h4 f h5
    exact this
  · have := coded_setAct h4 hf h6
    exact this
  · intro h
    exact absurd h (not_fuses hk (by rcases hb with h | h <;> rw [h] <;> decide))

theorem go_relu (hI : Inv M p x done E st vals) (hn : Next p done n) (hd : y.dims = n.shape) {s t : String} (ht : t = "relu.default" ∨ t = "relu_.default")
    (hk : n.kind = .call t [.node s] []) (ho : p.Only n s Node.fuses) (hvs : [Arg.node s].mapM (Spec.value E) = some vs) (hy : Spec.call t vs [] = some y) :
    Goes M p x done n E st y t [.node s] := by
  obtain ⟨v0, r0, c0, hv0', rfl⟩ := mapM_cons_some hvs
  cases mapM_nil_some hv0'
  obtain ⟨a, e0, rfl⟩ := value_node c0
  rw [call_relu a ht] at hy
  cases hy
  have hb : branch t = .relu := by rcases ht with rfl | rfl <;> decide
  refine go_act hI hn hd hk (.inl hb) (by simp) ho text_relu e0 (by rw [relu_act]) ?_
  intro k sh hl
  simp only [Program.callStep, hb]
  simp [Arg.name?, hl]

theorem number_value {a : Arg} {v : ℝ} (h : a.number? = some v) : ∃ w : Spec.Val, Spec.value E a = some w ∧ w.number? = some v ∧ a.names = [] := by
  cases a with
  | int k => exact ⟨.int k, rfl, h, rfl⟩
  | num k => exact ⟨.num k, rfl, h, rfl⟩
  | node | nodes | ints | bool | absent => cases h

theorem clip_act (lo hi : ℝ) : Layers.Act.compute (.clip hi lo) = fun v => min (max v lo) hi := by
  funext v
  simp only [Layers.Act.compute]

theorem go_clamp (hI : Inv M p x done E st vals) (hn : Next p done n) (hd : y.dims = n.shape) {s : String} {lo hi : Arg} {a b : ℝ}
    (hk : n.kind = .call "clamp.default" [.node s, lo, hi] []) (hlo : lo.number? = some a) (hhi : hi.number? = some b) (hab : a ≤ b) (ho : p.Only n s Node.fuses)
    (hvs : [Arg.node s, lo, hi].mapM (Spec.value E) = some vs) (hy : Spec.call "clamp.default" vs [] = some y) :
    Goes M p x done n E st y "clamp.default" [.node s, lo, hi] := by
  obtain ⟨v0, r0, c0, hv0', rfl⟩ := mapM_cons_some hvs
  obtain ⟨v1, r1, c1, hv1', rfl⟩ := mapM_cons_some hv0'
  obtain ⟨v2, r2, c2, hv2', rfl⟩ := mapM_cons_some hv1'
  cases mapM_nil_some hv2'
  obtain ⟨t, e0, rfl⟩ := value_node c0
  obtain ⟨w1, f1, g1, n1⟩ := number_value (E := E) hlo
  obtain ⟨w2, f2, g2, n2⟩ := number_value (E := E) hhi
  rw [f1] at c1
  cases c1
  rw [f2] at c2
  cases c2
  simp [Spec.call, Spec.arg, Spec.Val.tensor?, g1, g2] at hy
  subst hy
  refine go_act hI hn hd hk (.inr (by decide)) (by simp [n1, n2]) ho (text_clip hab) e0 (by rw [clip_act]) ?_
  intro k sh hl
  simp only [Program.callStep, show branch "clamp.default" = .clamp from by decide]
  simp [Arg.name?, hl, hlo, hhi, not_lt.mpr hab]

theorem go_norm (hI : Inv M p x done E st vals) (hn : Next p done n) (hd : y.dims = n.shape) {s w b rm rv : String} {vw vb vm vv : Nd ℝ} {mom eps : ℝ} {cudnn : Bool}
    (hk : n.kind = .call "batch_norm.default" [.node s, .node w, .node b, .node rm, .node rv, .bool false, .num mom, .num eps, .bool cudnn] [])
    (hw : p.Param w vw) (hb : p.Param b vb) (hm : p.Param rm vm) (hv : p.Param rv vv) (ho : p.Only n s Node.isConv)
    (hvs : [Arg.node s, .node w, .node b, .node rm, .node rv, .bool false, .num mom, .num eps, .bool cudnn].mapM (Spec.value E) = some vs)
    (hy : Spec.call "batch_norm.default" vs [] = some y) :
    Goes M p x done n E st y "batch_norm.default" [.node s, .node w, .node b, .node rm, .node rv, .bool false, .num mom, .num eps, .bool cudnn] := by
  obtain ⟨v0, r0, c0, hv0', rfl⟩ := mapM_cons_some hvs
  obtain ⟨v1, r1, c1, hv1', rfl⟩ := mapM_cons_some hv0'
  obtain ⟨v2, r2, c2, hv2', rfl⟩ := mapM_cons_some hv1'
  obtain ⟨v3, r3, c3, hv3', rfl⟩ := mapM_cons_some hv2'
  obtain ⟨v4, r4, c4, hv4', rfl⟩ := mapM_cons_some hv3'
  simp only [List.mapM_cons, List.mapM_nil, Spec.value, Option.bind_eq_bind, Option.bind_some, Option.pure_def, Option.some.injEq] at hv4'
  subst hv4'
  obtain ⟨t, e0, rfl⟩ := value_node c0
  obtain ⟨tw, e1, rfl⟩ := value_node c1
  obtain ⟨tb, e2, rfl⟩ := value_node c2
  obtain ⟨tm, e3, rfl⟩ := value_node c3
  obtain ⟨tv, e4, rfl⟩ := value_node c4
  obtain ⟨rfl, pw⟩ := param_env hI hn hw e1
  obtain ⟨rfl, pb⟩ := param_env hI hn hb e2
  obtain ⟨rfl, pm⟩ := param_env hI hn hm e3
  obtain ⟨rfl, pv⟩ := param_env hI hn hv e4
  rw [call_bn] at hy
  obtain ⟨m, hm', hmv, rfl, hconv, hok, k, sh, hl, hop⟩ := opened hI hn conv_value ho e0
  have hop' := hop
  obtain ⟨_, _, _, op, xs, h1, h2, h3, h4, h5, h6, h7⟩ := hop'
  obtain ⟨op', g1, g2, g3, g4⟩ := norm_ok (h7 hconv) hy
  have hyd : y.Ok ∧ y.dims = t.dims := by
    unfold Spec.batchNorm at hy
    split at hy
    · obtain ⟨_, h⟩ := (Option.ite_none_right_eq_some).mp hy
      cases h
      exact ⟨mk_ok _ _, rfl⟩
    · cases hy
  have hr := reads_of hk
  refine ⟨_, _, ?_, inv_change hI hn (value_of hk) (not_alias hk (by decide)) (not_conv hk (by decide)) hm' hmv ⟨_, _, [], hk, .inr (.inr (by decide))⟩ ?_ hl e0 hop h1 h2 h3
    (op' := op') g3 g4 (fun _ => g2) (f := fun l => (l.1, op')) rfl hyd.1 hd hyd.2⟩
  · simp only [Program.callStep, show branch "batch_norm.default" = .batchNorm from by decide]
    simp [Arg.name?, hl, param_of hn.names hw, param_of hn.names hb, param_of hn.names hm, param_of hn.names hv, Arg.number?, h1, g1]
  · intro s' h
    rw [hr] at h
    simp only [List.flatMap_cons, Arg.names, List.flatMap_nil, List.append_nil, List.cons_append, List.nil_append, List.mem_cons, List.not_mem_nil, or_false] at h
    rcases h with rfl | rfl | rfl | rfl | rfl
    · exact .inl rfl
    · exact .inr pw
    · exact .inr pb
    · exact .inr pm
    · exact .inr pv

theorem go_dropout (hI : Inv M p x done E st vals) (hn : Next p done n) (hd : y.dims = n.shape) {s : String} {d : List Nat} {r : ℝ}
    (hk : n.kind = .call "dropout.default" [.node s, .num r, .bool false] []) (hs : p.Tensor s d)
    (hvs : [Arg.node s, .num r, .bool false].mapM (Spec.value E) = some vs) (hy : Spec.call "dropout.default" vs [] = some y) :
    Goes M p x done n E st y "dropout.default" [.node s, .num r, .bool false] := by
  obtain ⟨v0, r0, c0, hv0', rfl⟩ := mapM_cons_some hvs
  simp only [List.mapM_cons, List.mapM_nil, Spec.value, Option.bind_eq_bind, Option.bind_some, Option.pure_def, Option.some.injEq] at hv0'
  subst hv0'
  obtain ⟨t, e0, rfl⟩ := value_node c0
  rw [call_dropout] at hy
  cases hy
  have hr := reads_of hk
  have hs0 : s ∈ n.callReads := by simp [hr, Arg.names]
  obtain ⟨⟨m, hm, hmv, rfl⟩, hdim, hok, k, sh, hl, hv, hsh⟩ := operand hI hn hs0 hs e0
  refine ⟨_, _, ?_, inv_alias hI hn (value_of hk) ⟨_, _, _, hk, by decide⟩ (not_fuses hk (by decide)) hm hmv ?_ hl e0 rfl hok hd hsh⟩
  · simp only [Program.callStep, show branch "dropout.default" = .alias from by decide]
    simp [Arg.name?, hl]
  · intro s'
    rw [hr]
    simp [Arg.names]

theorem axis_lt {r : Nat} {a : Int} {k : Nat} (h : Onnx.Spec.axis? r a = some k) : k < r := by
  unfold Onnx.Spec.axis? at h
  split at h
  · cases h; omega
  · split at h
    · cases h; omega
    · cases h

theorem prod_slice (l : List Nat) {a b : Nat} (hab : a ≤ b) :
    prod (l.take a ++ [prod ((l.drop a).take (b + 1 - a))] ++ l.drop (b + 1)) = prod l := by
  have h : l = l.take a ++ ((l.drop a).take (b + 1 - a) ++ l.drop (b + 1)) := by
    conv_lhs => rw [← List.take_append_drop a l, ← List.take_append_drop (b + 1 - a) (l.drop a), List.drop_drop]
    rw [show a + (b + 1 - a) = b + 1 by omega]
  conv_rhs => rw [h]
  have hp : ∀ l : List Nat, prod l = l.prod := fun l => by unfold prod; rfl
  simp only [hp, List.prod_append, List.prod_cons, List.prod_nil, mul_one, mul_assoc]

theorem flatten_ok {a b : Int} {t : Nd ℝ} (h : Spec.flatten a b t = some y) (hok : t.Ok) :
    y.data = t.data ∧ y.Ok ∧ (y.dims = t.dims ∨ y.dims.length < t.dims.length) := by
  unfold Spec.flatten at h
  obtain ⟨i, hi, h⟩ := Option.bind_eq_some_iff.mp h
  obtain ⟨j, hj, h⟩ := Option.bind_eq_some_iff.mp h
  obtain ⟨hij, h⟩ := (Option.ite_none_right_eq_some).mp h
  cases h
  have hi := axis_lt hi
  have hj := axis_lt hj
  refine ⟨rfl, ?_, ?_⟩
  · unfold Nd.Ok at hok ⊢
    simp only
    rw [hok]
    exact (prod_slice t.dims hij).symm
  · rcases Nat.eq_or_lt_of_le hij with rfl | hlt
    · left
      simp only
      have : (t.dims.drop i).take (i + 1 - i) = [t.dims[i]] := by
        rw [show i + 1 - i = 1 by omega, List.drop_eq_getElem_cons hi]; rfl
      rw [this]
      simp only [prod, List.foldr_cons, List.foldr_nil, mul_one]
      conv_rhs => rw [← List.take_append_drop i t.dims, List.drop_eq_getElem_cons hi]
      simp
    · right
      simp only [List.length_append, List.length_take, List.length_drop, List.length_singleton]
      omega

theorem go_flatten (hI : Inv M p x done E st vals) (hn : Next p done n) (hd : y.dims = n.shape) {s : String} {d : List Nat} {axes : List Int}
    (h4 : d.length ≤ 4) (hk : n.kind = .call "flatten.using_ints" (.node s :: axes.map .int) []) (hs : p.Tensor s d)
    (hvs : (Arg.node s :: axes.map .int).mapM (Spec.value E) = some vs) (hy : Spec.call "flatten.using_ints" vs [] = some y) :
    Goes M p x done n E st y "flatten.using_ints" (.node s :: axes.map .int) := by
  obtain ⟨v0, r0, c0, hv0', rfl⟩ := mapM_cons_some hvs
  obtain ⟨t, e0, rfl⟩ := value_node c0
  have hfl : ∃ a b, Spec.flatten a b t = some y := by
    simp only [Spec.call, Spec.arg, List.getD_cons_zero, Spec.Val.tensor?, Option.bind_eq_bind] at hy
    simp only [List.isEmpty_nil, if_true] at hy
    obtain ⟨a, _, hy⟩ := Option.bind_eq_some_iff.mp hy
    obtain ⟨b, _, hy⟩ := Option.bind_eq_some_iff.mp hy
    exact ⟨a, b, hy⟩
  obtain ⟨a, b, hfl⟩ := hfl
  have hr := reads_of hk
  have hs0 : s ∈ n.callReads := by simp [hr, Arg.names]
  obtain ⟨⟨m, hm, hmv, rfl⟩, hdim, hok, k, sh, hl, hv, hsh⟩ := operand hI hn hs0 hs e0
  obtain ⟨h1, h2, h3⟩ := flatten_ok hfl hok
  refine ⟨_, _, ?_, inv_alias hI hn (value_of hk) ⟨_, _, _, hk, by decide⟩ (not_fuses hk (by decide)) hm hmv ?_ hl e0 h1 h2 hd ?_⟩
  · simp only [Program.callStep, show branch "flatten.using_ints" = .alias from by decide]
    simp [Arg.name?, hl]
  · intro s'
    rw [hr]
    simp [Arg.names, List.flatMap_map]
  · rcases h3 with h3 | h3
    · rw [h3]; exact hsh
    · right; rw [hdim] at h3; omega

theorem go_maxPool (hI : Inv M p x done E st vals) (hn : Next p done n) (hd : y.dims = n.shape) {s : String} {d : List Nat} {k st' : Nat}
    (hk : n.kind = .call "max_pool2d.default" [.node s, .ints [k, k], .ints [st', st']] []) (hs : p.Tensor s d) (hb : d.head? = some 1) (hpos : ∀ e ∈ d, 0 < e)
    (hvs : [Arg.node s, .ints [(k : Int), k], .ints [(st' : Int), st']].mapM (Spec.value E) = some vs) (hy : Spec.call "max_pool2d.default" vs [] = some y) :
    Goes M p x done n E st y "max_pool2d.default" [.node s, .ints [k, k], .ints [st', st']] := by
  obtain ⟨v0, r0, c0, hv0', rfl⟩ := mapM_cons_some hvs
  simp only [List.mapM_cons, List.mapM_nil, Spec.value, Option.bind_eq_bind, Option.bind_some, Option.pure_def, Option.some.injEq] at hv0'
  subst hv0'
  obtain ⟨t, e0, rfl⟩ := value_node c0
  rw [call_maxPool] at hy
  have hr := reads_of hk
  have hs0 : s ∈ n.callReads := by simp [hr, Arg.names]
  obtain ⟨_, hdim, hok, q, sh, hl, hv, hsh⟩ := operand hI hn hs0 hs e0
  rw [← hdim] at hb hpos
  have hyok : y.Ok ∧ t.dims.length = 4 := by
    unfold Spec.maxPool at hy
    split at hy
    · rename_i heq
      obtain ⟨_, h⟩ := (Option.ite_none_right_eq_some).mp hy
      exact ⟨Onnx.mkM_ok h, by rw [heq]; rfl⟩
    · cases hy
  obtain ⟨c, h1, h2, h3⟩ := maxPool_ok (M := M) hb hok hpos hy
  have hsh : sh = t.dims := hsh.resolve_right (by omega)
  refine push_one hI hn hk hl hv hs0 (by rw [hr]; simp [Arg.names]) h2 h3 hyok.1 hd (fun h => absurd h (not_fuses hk (by decide))) ?_
  simp only [Program.callStep, show branch "max_pool2d.default" = .maxPool from by decide]
  simp [Arg.name?, hl, Arg.head?, Onnx.nat?, padding?, hsh, ← hd, h1]

theorem go_avgPool (hI : Inv M p x done E st vals) (hn : Next p done n) (hd : y.dims = n.shape) {s : String} {d : List Nat}
    (hk : n.kind = .call "adaptive_avg_pool2d.default" [.node s, .ints [1, 1]] []) (hs : p.Tensor s d) (hb : d.head? = some 1)
    (hsq : d.getD 2 0 = d.getD 3 0)
    (hvs : [Arg.node s, .ints [1, 1]].mapM (Spec.value E) = some vs) (hy : Spec.call "adaptive_avg_pool2d.default" vs [] = some y) :
    Goes M p x done n E st y "adaptive_avg_pool2d.default" [.node s, .ints [1, 1]] := by
  obtain ⟨v0, r0, c0, hv0', rfl⟩ := mapM_cons_some hvs
  simp only [List.mapM_cons, List.mapM_nil, Spec.value, Option.bind_eq_bind, Option.bind_some, Option.pure_def, Option.some.injEq] at hv0'
  subst hv0'
  obtain ⟨t, e0, rfl⟩ := value_node c0
  rw [call_avgPool] at hy
  have hr := reads_of hk
  have hs0 : s ∈ n.callReads := by simp [hr, Arg.names]
  obtain ⟨_, hdim, hok, q, sh, hl, hv, hsh⟩ := operand hI hn hs0 hs e0
  rw [← hdim] at hb hsq
  have hyok : y.Ok ∧ t.dims.length = 4 := by
    unfold Spec.adaptiveAvgPool at hy
    split at hy
    · rename_i heq
      obtain ⟨_, h⟩ := (Option.ite_none_right_eq_some).mp hy
      cases h
      exact ⟨mk_ok _ _, by rw [heq]; rfl⟩
    · cases hy
  obtain ⟨k, c, h0, h1, h2, h3⟩ := avgPool_ok (M := M) hb hsq hok hy
  have hsh : sh = t.dims := hsh.resolve_right (by omega)
  refine push_one hI hn hk hl hv hs0 (by rw [hr]; simp [Arg.names]) h2 h3 hyok.1 hd (fun h => absurd h (not_fuses hk (by decide))) ?_
  simp only [Program.callStep, show branch "adaptive_avg_pool2d.default" = .avgPool from by decide]
  simp [Arg.name?, hl, hsh, ← hd, h0, h1]

/-- distinct operands have distinct layers -/
theorem plain_two (hI : Inv M p x done E st vals) (hn : Next p done n) {t : String} {args : List Arg} {kw : List (String × Arg)} (hk : n.kind = .call t args kw)
    (hb : branch t = .add ∨ branch t = .cat) (hpl : p.Plain) {s s' : String} (hs : s ∈ n.callReads) (hs' : s' ∈ n.callReads) (hne : s ≠ s')
    (hv : ∃ m ∈ done, m.isValue ∧ m.name = s) (hv' : ∃ m ∈ done, m.isValue ∧ m.name = s') {k : Nat} {sh sh' : List Nat} (h : st.look s = some (k, sh))
    (h' : st.look s' = some (k, sh')) : False := by
  obtain ⟨m, hm, v, rfl⟩ := hv
  obtain ⟨m', hm', v', rfl⟩ := hv'
  have := hpl n hn.mem t args kw hk hb
  rw [← reads_of hk] at this
  exact hne (hI.distinct m hm m' hm' v v' (this.2 _ hs m (hn.sub hm) rfl) (this.2 _ hs' m' (hn.sub hm') rfl) (hn.fresh hs) (hn.fresh hs') k sh sh' h h')

theorem go_add (hI : Inv M p x done E st vals) (hn : Next p done n) (hd : y.dims = n.shape) {a b : String} {da db : List Nat}
    (hk : n.kind = .call "add.Tensor" [.node a, .node b] []) (ha : p.Tensor a da) (hb : p.Tensor b db) (ha1 : da.head? = some 1) (hb1 : db.head? = some 1)
    (ha4 : da.length = 4) (hb4 : db.length = 4) (hsh : n.shape = da) (hpa : ∀ e ∈ da, 0 < e) (hpb : ∀ e ∈ db, 0 < e)
    (hvs : [Arg.node a, .node b].mapM (Spec.value E) = some vs) (hy : Spec.call "add.Tensor" vs [] = some y) :
    Goes M p x done n E st y "add.Tensor" [.node a, .node b] := by
  obtain ⟨v0, r0, c0, hv0', rfl⟩ := mapM_cons_some hvs
  obtain ⟨v1, r1, c1, hv1', rfl⟩ := mapM_cons_some hv0'
  cases mapM_nil_some hv1'
  obtain ⟨ta, e0, rfl⟩ := value_node c0
  obtain ⟨tb, e1, rfl⟩ := value_node c1
  rw [call_add] at hy
  have hr := reads_of hk
  have hs0 : a ∈ n.callReads := by simp [hr, Arg.names]
  have hs1 : b ∈ n.callReads := by simp [hr, Arg.names]
  obtain ⟨hva, hda, hoka, k, sh, hl, hv, hsh1⟩ := operand hI hn hs0 ha e0
  obtain ⟨hvb, hdb, hokb, k', sh', hl', hv', hsh2⟩ := operand hI hn hs1 hb e1
  subst hda
  subst hdb
  have hsh1 : sh = ta.dims := hsh1.resolve_right (by omega)
  have hsh2 : sh' = tb.dims := hsh2.resolve_right (by omega)
  subst hsh1
  subst hsh2
  obtain ⟨op, h1, h2, h3, h4⟩ := add_ok (M := M) ha1 ha4 hb1 hb4 hoka hokb hpa hpb hy (hd.trans hsh)
  refine ⟨_, _, ?_, inv_push hI hn (value_of hk) (ss := [a, b]) (ks := [k, k']) (ds := [ta.data, tb.data]) (.cons ⟨_, hl⟩ (.cons ⟨_, hl'⟩ .nil)) ?_ (by simp) ?_ ?_ h3 h4
    (Onnx.bcast_ok hy) hd (fun _ => ⟨h2, fun h => absurd h (not_conv hk (by decide))⟩) ?_⟩
  · simp only [Program.callStep, show branch "add.Tensor" = .add from by decide]
    simp [Arg.name?, hl, hl', ← hd, h1]
  · rw [pick_forall]; exact .cons hv (.cons hv' .nil)
  · rw [hr]; simp [Arg.names]
  · rw [hr]; simp [Arg.names]
  · intro hpl
    have hne : a ≠ b := by
      have := (hpl n hn.mem _ _ _ hk (.inl (by decide))).1
      simpa [Arg.names] using this
    simp only [List.nodup_cons, List.mem_singleton, List.not_mem_nil, not_false_eq_true, List.nodup_nil, and_true]
    rintro rfl
    exact plain_two hI hn hk (.inl (by decide)) hpl hs0 hs1 hne hva hvb hl hl'

/-- the operands of a concatenation -/
theorem operands (hI : Inv M p x done E st vals) (hn : Next p done n) {l : List String} {ts : List (Nd ℝ)} (hE : l.mapM E = some ts) (hs : ∀ s ∈ l, s ∈ n.callReads)
    (h : ∀ s ∈ l, ∃ d, p.Tensor s d ∧ d.head? = some 1 ∧ d.length = 4) :
    ∃ es : List (Nat × List Nat), l.mapM st.look = some es ∧ List.Forall₂ (fun s e => st.look s = some e) l es ∧ es.map Prod.snd = ts.map Nd.dims ∧
      pick vals (es.map Prod.fst) = some (ts.map Nd.data) ∧ (∀ t ∈ ts, t.dims.head? = some 1 ∧ t.dims.length = 4) ∧ (∀ t ∈ ts, t.Ok) ∧
      (∀ s ∈ l, ∃ m ∈ done, m.isValue ∧ m.name = s) := by
  induction l generalizing ts with
  | nil =>
    cases mapM_nil_some hE
    exact ⟨[], rfl, .nil, rfl, rfl, by simp, by simp, by simp⟩
  | cons s l ih =>
    obtain ⟨t, ts', e0, hE', rfl⟩ := mapM_cons_some hE
    obtain ⟨es, g1, g2, g3, g4, g5, g6, g7⟩ := ih hE' (fun s hs' => hs s (by simp [hs'])) (fun s hs' => h s (by simp [hs']))
    obtain ⟨d, hT, hb, h4⟩ := h s (by simp)
    obtain ⟨hv, hdim, hok, k, sh, hl, hvk, hsh⟩ := operand hI hn (hs s (by simp)) hT e0
    subst hdim
    have hsh : sh = t.dims := hsh.resolve_right (by omega)
    subst hsh
    refine ⟨(k, t.dims) :: es, ?_, .cons hl g2, by simp [g3], ?_, ?_, ?_, ?_⟩
    · rw [List.mapM_cons, hl, g1]; rfl
    · rw [pick_forall] at g4 ⊢
      exact .cons hvk g4
    · intro t' ht'
      rcases List.mem_cons.mp ht' with rfl | ht'
      · exact ⟨hb, h4⟩
      · exact g5 t' ht'
    · intro t' ht'
      rcases List.mem_cons.mp ht' with rfl | ht'
      · exact hok
      · exact g6 t' ht'
    · intro s' hs'
      rcases List.mem_cons.mp hs' with rfl | hs'
      · exact hv
      · exact g7 s' hs'

theorem nodup_idx {l : List String} {es : List (Nat × List Nat)} (h : List.Forall₂ (fun s e => st.look s = some e) l es) (hnd : l.Nodup)
    (H : ∀ s ∈ l, ∀ s' ∈ l, s ≠ s' → ∀ k sh sh', st.look s = some (k, sh) → st.look s' = some (k, sh') → False) : (es.map Prod.fst).Nodup := by
  induction h with
  | nil => simp
  | @cons s e l es h1 h2 ih =>
    rw [List.map_cons, List.nodup_cons]
    rw [List.nodup_cons] at hnd
    refine ⟨?_, ih hnd.2 fun s hs s' hs' => H s (by simp [hs]) s' (by simp [hs'])⟩
    intro hm
    obtain ⟨e', he', heq⟩ := List.mem_map.mp hm
    obtain ⟨i, hi, rfl⟩ := List.mem_iff_getElem.mp he'
    have hi' : i < l.length := by rw [h2.length_eq]; exact hi
    have hg := (List.forall₂_iff_get.mp h2).2 i hi' hi
    simp only [List.get_eq_getElem] at hg
    refine H s (by simp) l[i] (by simp) (fun he => hnd.1 (by rw [he]; exact List.getElem_mem hi')) e.1 e.2 es[i].2 h1 ?_
    rw [hg, ← heq]

theorem go_cat (hI : Inv M p x done E st vals) (hn : Next p done n) (hd : y.dims = n.shape) {l : List String} {axis : Int}
    (hk : n.kind = .call "cat.default" [.nodes l, .int axis] []) (h2 : 2 ≤ l.length) (hax : 1 ≤ axis)
    (hT : ∀ s ∈ l, ∃ d, p.Tensor s d ∧ d.head? = some 1 ∧ d.length = 4)
    (hvs : [Arg.nodes l, .int axis].mapM (Spec.value E) = some vs) (hy : Spec.call "cat.default" vs [] = some y) :
    Goes M p x done n E st y "cat.default" [.nodes l, .int axis] := by
  obtain ⟨v0, r0, c0, hv0', rfl⟩ := mapM_cons_some hvs
  simp only [List.mapM_cons, List.mapM_nil, Spec.value, Option.bind_eq_bind, Option.bind_some, Option.pure_def, Option.some.injEq] at hv0'
  subst hv0'
  obtain ⟨ts, hE, rfl⟩ := Option.map_eq_some_iff.mp c0
  rw [call_cat] at hy
  have hr : n.callReads = l := by rw [reads_of hk]; simp [Arg.names]
  obtain ⟨es, g1, g2, g3, g4, g5, g6, g7⟩ := operands hI hn hE (by rw [hr]; simp) hT
  have hlen : ts.length = l.length := Keras.mapM_length hE
  obtain ⟨op, f1, f2, f3, f4⟩ := cat_ok (M := M) g5 g6 (by omega) hax hy
  have hyok : y.Ok := by
    unfold Spec.cat at hy
    obtain ⟨t0, ht0, hy⟩ := Option.bind_eq_some_iff.mp hy
    obtain ⟨a, _, hy⟩ := Option.bind_eq_some_iff.mp hy
    exact (concat_ok (g6 _ (List.mem_of_head? ht0)) hy).1
  refine ⟨_, _, ?_, inv_push hI hn (value_of hk) (ss := l) (ks := es.map Prod.fst) (ds := ts.map Nd.data) ?_ g4 ?_ (by rw [hr]; simp) (by rw [hr]; simp +contextual) f3 f4
    hyok hd (fun _ => ⟨f2, fun h => absurd h (not_conv hk (by decide))⟩) ?_⟩
  · simp only [Program.callStep, show branch "cat.default" = .cat from by decide]
    simp [g1, g3, ← hd, f1]
  · rw [List.forall₂_map_right_iff]
    exact g2.imp fun s e h => ⟨e.2, h⟩
  · intro h0
    rw [List.map_eq_nil_iff] at h0
    rw [h0] at hlen
    simp at hlen
    omega
  · intro hpl
    have hnd := (hpl n hn.mem _ _ _ hk (.inr (by decide))).1
    rw [← reads_of hk, hr] at hnd
    refine nodup_idx g2 hnd fun s hs s' hs' hne k sh sh' h h' => ?_
    exact plain_two hI hn hk (.inr (by decide)) hpl (by rw [hr]; exact hs) (by rw [hr]; exact hs') hne (g7 s hs) (g7 s' hs') h h'

theorem mapM_get {α β : Type} {f : α → Option β} {l : List α} {r : List β} (h : l.mapM f = some r) (i : Nat) : r[i]? = (l[i]?).bind f := by
  induction l generalizing r i with
  | nil => cases mapM_nil_some h; simp
  | cons a l ih =>
    obtain ⟨b, bs, h1, h2, rfl⟩ := mapM_cons_some h
    cases i with
    | zero => simp [h1]
    | succ i => simpa using ih h2 i

theorem nat?_cast (k : Nat) : nat? (k : Int) = some k := by simp [nat?]

theorem zeros_get (m f : Nat) : (⟨[m], List.replicate m 0⟩ : Nd ℝ).get [f] = 0 := by
  simp [Nd.get, List.getD]
  rcases h' : (List.replicate m (0:ℝ))[Onnx.ravel [m] [f]]? with _ | v
  · rfl
  · exact (List.mem_replicate.mp (List.mem_of_getElem? h')).2

theorem go_conv (hI : Inv M p x done E st vals) (hn : Next p done n) (hd : y.dims = n.shape) {s w : String} {bias : Option String} {d : List Nat} {vw : Nd ℝ}
    {f c k st' : Nat} {rest : List Arg} {args : List Arg}
    (hargs : args = .node s :: .node w :: biasArg bias :: rest)
    (hk : n.kind = .call "conv2d.default" args [])
    (hs : p.Tensor s d) (hb1 : d.head? = some 1) (hw : p.Param w vw) (hwd : vw.dims = [f, c, k, k]) (hbias : ∀ b, bias = some b → ∃ vb, p.Param b vb)
    (hst : rest[0]? = some (.ints [(st' : Int), st']) ∨ rest[0]? = none ∧ st' = 1) (hpd : (∃ q r, rest[1]? = some (.ints [q, r])) ∨ rest[1]? = none)
    (hdl : rest[2]? = some (.ints [1, 1]) ∨ rest[2]? = none) (hgr : rest[3]? = some (.int 1) ∨ rest[3]? = none) (hlen : rest.length ≤ 4)
    (hvs : args.mapM (Spec.value E) = some vs) (hy : Spec.call "conv2d.default" vs [] = some y) :
    Goes M p x done n E st y "conv2d.default" args := by
  subst hargs
  obtain ⟨v0, r0, c0, hv0', rfl⟩ := mapM_cons_some hvs
  obtain ⟨v1, r1, c1, hv1', rfl⟩ := mapM_cons_some hv0'
  obtain ⟨v2, r2, c2, hv2', rfl⟩ := mapM_cons_some hv1'
  obtain ⟨t, e0, rfl⟩ := value_node c0
  obtain ⟨tw, e1, rfl⟩ := value_node c1
  obtain ⟨rfl, pw⟩ := param_env hI hn hw e1
  -- the bias
  obtain ⟨bo, hbo⟩ : ∃ bo : Option (Nd ℝ), v2.opt? = some bo ∧ (∀ b, bias = some b → ∃ vb, bo = some vb ∧ p.Param b vb ∧ ∃ m ∈ done, m.name = b ∧ ¬ m.isValue) ∧
      (bias = none → bo = none) := by
    cases bias with
    | none =>
      simp only [biasArg, Spec.value, Option.some.injEq] at c2
      subst c2
      exact ⟨none, rfl, by simp, fun _ => rfl⟩
    | some b =>
      obtain ⟨tb, e2, rfl⟩ := value_node c2
      obtain ⟨vb, hvb⟩ := hbias b rfl
      obtain ⟨rfl, pb⟩ := param_env hI hn hvb e2
      exact ⟨some tb, rfl, fun b' h => by cases h; exact ⟨tb, rfl, hvb, pb⟩, by simp⟩
  obtain ⟨hb0, hbs, hbn⟩ := hbo
  -- the other arguments
  have g := mapM_get hv2'
  have hcall : ∃ pr : Nat × Nat, (r2.getD 1 (.ints [0, 0])).pair? = some pr ∧ Spec.conv2d t tw bo (st', st') pr (1, 1) = some y := by
    have hst2 : (r2.getD 0 (.ints [1, 1])).pair? = some (st', st') := by
      rw [List.getD_eq_getElem?_getD, g 0]
      rcases hst with h | ⟨h, rfl⟩ <;> rw [h] <;> simp [Spec.value, Spec.Val.pair?]
    have hdl2 : (r2.getD 2 (.ints [1, 1])).pair? = some (1, 1) := by
      rw [List.getD_eq_getElem?_getD, g 2]
      rcases hdl with h | h <;> rw [h] <;> simp [Spec.value, Spec.Val.pair?]
    simp only [Spec.call] at hy
    obtain ⟨_, hy⟩ := (Option.ite_none_right_eq_some).mp hy
    simp only [Spec.arg, List.getD_cons_zero, List.getD_cons_succ, Spec.Val.tensor?, hb0, hst2, hdl2, Option.bind_eq_bind, Option.bind_some] at hy
    obtain ⟨pr, hpr, hy⟩ := Option.bind_eq_some_iff.mp hy
    exact ⟨pr, hpr, hy⟩
  obtain ⟨⟨q, r⟩, hpr, hconv⟩ := hcall
  have hpad : padding? (Arg.node s :: .node w :: biasArg bias :: rest) 4 =
      some (.list ([(q : Int), (r : Int)] ++ [(q : Int), (r : Int)])) := by
    rw [List.getD_eq_getElem?_getD, g 1] at hpr
    unfold padding?
    simp only [List.getElem?_cons_succ]
    rcases hpd with ⟨q', r', h⟩ | h
    · rw [h] at hpr ⊢
      simp only [Option.bind_some, Spec.value, Option.getD_some, Spec.Val.pair?, Option.ite_none_right_eq_some, Option.some.injEq, Prod.mk.injEq] at hpr
      obtain ⟨⟨h1, h2⟩, rfl, rfl⟩ := hpr
      simp [Int.toNat_of_nonneg h1, Int.toNat_of_nonneg h2]
    · rw [h] at hpr ⊢
      simp [Spec.Val.pair?] at hpr
      obtain ⟨rfl, rfl⟩ := hpr
      rfl
  have hr := reads_of hk
  have hs0 : s ∈ n.callReads := by rw [hr]; simp [Arg.names]
  obtain ⟨_, hdim, hok, kk, sh, hl, hv, hsh⟩ := operand hI hn hs0 hs e0
  rw [← hdim] at hb1
  have hyok : y.Ok ∧ t.dims.length = 4 ∧ ∀ v, bo = some v → v.dims = [y.dims.getD 1 0] := by
    unfold Spec.conv2d at hconv
    split at hconv
    · rename_i heq _
      obtain ⟨⟨_, _, _, hbd⟩, h⟩ := (Option.ite_none_right_eq_some).mp hconv
      cases h
      exact ⟨mk_ok _ _, by rw [heq]; rfl, fun v hv => by simpa [Onnx.mk] using hbd v (by simp [hv])⟩
    · cases hconv
  have hsh : sh = t.dims := hsh.resolve_right (by omega)
  subst hsh
  -- the bias given to the layer
  obtain ⟨b, hbl, hbl', hb2⟩ : ∃ b : Nd ℝ, (bias = none → b = ⟨[n.shape.getD 1 0], List.replicate (n.shape.getD 1 0) 0⟩) ∧
      (∀ s, bias = some s → p.param (.node s) = some b) ∧ (b.dims = [y.dims.getD 1 0] ∧ ∀ f < y.dims.getD 1 0, b.get [f] = Spec.biasAt bo f) := by
    cases bias with
    | none =>
      rw [hbn rfl]
      refine ⟨_, fun _ => rfl, by simp, by rw [hd], fun f _ => ?_⟩
      rw [zeros_get]; rfl
    | some b =>
      obtain ⟨vb, rfl, hvb, _⟩ := hbs b rfl
      exact ⟨vb, by simp, fun b' h => by cases h; exact param_of hn.names hvb, hyok.2.2 vb rfl, fun f _ => rfl⟩
  obtain ⟨op, h1, h2, h3, h4, h5⟩ := conv_ok (M := M) hb1 hok ⟨f, c, hwd⟩ hb2 hconv
  refine push_one hI hn hk hl hv hs0 ?_ h4 h5 hyok.1 hd (fun _ => ⟨h2, fun _ => h3⟩) ?_
  · intro s' h
    rw [hr] at h
    simp only [List.flatMap_cons, List.mem_append] at h
    rcases h with h | h | h | h
    · exact .inl (by simpa [Arg.names] using h)
    · refine .inr ?_
      rw [show s' = w by simpa [Arg.names] using h]
      exact pw
    · cases bias with
      | none => simp [Arg.names, biasArg] at h
      | some b =>
        refine .inr ?_
        rw [show s' = b by simpa [Arg.names, biasArg] using h]
        obtain ⟨_, _, _, h⟩ := hbs b rfl
        exact h
    · exfalso
      obtain ⟨a, ha, h⟩ := List.mem_flatMap.mp h
      obtain ⟨i, hi, rfl⟩ := List.mem_iff_getElem.mp ha
      have hi4 : i < 4 := by omega
      have hi' : rest[i]? = some rest[i] := List.getElem?_eq_getElem hi
      generalize rest[i] = a at hi' h
      have hnil : a.names = [] := by
        match i, hi4 with
        | 0, _ => rcases hst with e | ⟨e, _⟩ <;> rw [e] at hi' <;> cases hi'; rfl
        | 1, _ => rcases hpd with ⟨_, _, e⟩ | e <;> rw [e] at hi' <;> cases hi'; rfl
        | 2, _ => rcases hdl with e | e <;> rw [e] at hi' <;> cases hi'; rfl
        | 3, _ => rcases hgr with e | e <;> rw [e] at hi' <;> cases hi'; rfl
      rw [hnil] at h
      cases h
  · have a5 : nat? (1 : Int) = some 1 := rfl
    have a6 : nat? ((1 : Nat) : Int) = some 1 := rfl
    have a7 : [(st' : Int), st'].head? = some (st' : Int) := rfl
    have a8 : [(1 : Int), 1].head? = some (1 : Int) := rfl
    simp only [Program.callStep, show branch "conv2d.default" = .conv2d from by decide]
    rcases hst with b1 | ⟨b1, rfl⟩ <;> rcases hdl with b2 | b2 <;> rcases hgr with b3 | b3 <;> cases bias with
    | none =>
      have hb' := hbl rfl
      rw [← hd] at hb'
      rw [hb'] at h1
      simp only [biasArg] at hpad
      simp only [List.getElem?_cons_succ, List.getElem?_cons_zero, b1, b2, b3, Arg.head?, a5, a6, a7, a8, hpad, nat?_cast, Option.bind_eq_bind, Option.bind_some,
        Arg.name?, hl, param_of hn.names hw, biasArg, ← hd, h1]
    | some s1 =>
      simp only [biasArg] at hpad
      simp only [List.getElem?_cons_succ, List.getElem?_cons_zero, b1, b2, b3, Arg.head?, a5, a6, a7, a8, hpad, nat?_cast, Option.bind_eq_bind, Option.bind_some,
        Arg.name?, hl, param_of hn.names hw, biasArg, hbl' s1 rfl, ← hd, h1]

/-- **One call.** -/
theorem go_call (hI : Inv M p x done E st vals) (hn : Next p done n) (hd : y.dims = n.shape)
    (hshapes : ∀ n ∈ p.nodes, n.isValue → n.shape.length ≤ 4 ∧ ∀ d ∈ n.shape, 0 < d) {t : String} {args : List Arg} {kw : List (String × Arg)}
    {kvs : List (String × Spec.Val)} (hk : n.kind = .call t args kw) (hvs : args.mapM (Spec.value E) = some vs)
    (hkv : (kw.mapM fun e => (Spec.value E e.2).map fun v => (e.1, v)) = some kvs) (hy : Spec.call t vs kvs = some y) : Goes M p x done n E st y t args := by
  have shape : ∀ s d, p.Tensor s d → d.length ≤ 4 ∧ ∀ e ∈ d, 0 < e := by
    rintro s d ⟨m, hm, _, hv, rfl⟩
    exact hshapes m hm hv
  cases hn.supported n hn.mem t args kw hk with
  | linear s w b vw vb i h h1 h2 h3 =>
    rw [hk] at h; cases h; cases mapM_nil_some hkv
    exact go_linear hI hn hd hk h1 h2 h3 hvs hy
  | relu s t' ht h ho =>
    rw [hk] at h; cases h; cases mapM_nil_some hkv
    exact go_relu hI hn hd ht hk ho hvs hy
  | clamp s lo hi a b h h1 h2 h3 ho =>
    rw [hk] at h; cases h; cases mapM_nil_some hkv
    exact go_clamp hI hn hd hk h1 h2 h3 ho hvs hy
  | conv2d s w bias d vw f c k st rest h h1 h2 h3 h4 h5 h6 h7 h8 h9 h10 =>
    rw [hk] at h; cases h; cases mapM_nil_some hkv
    exact go_conv hI hn hd rfl hk h1 h2 h3 h4 h5 h6 h7 h8 h9 h10 hvs hy
  | batchNorm s w b rm rv vw vb vm vv mom eps cudnn h h1 h2 h3 h4 ho =>
    rw [hk] at h; cases h; cases mapM_nil_some hkv
    exact go_norm hI hn hd hk h1 h2 h3 h4 ho hvs hy
  | add a b da db h h1 h2 h3 h4 h5 h6 h7 =>
    rw [hk] at h; cases h; cases mapM_nil_some hkv
    exact go_add hI hn hd hk h1 h2 h3 h4 h5 h6 h7 (shape _ _ h1).2 (shape _ _ h2).2 hvs hy
  | cat l axis h h1 h2 h3 =>
    rw [hk] at h; cases h; cases mapM_nil_some hkv
    exact go_cat hI hn hd hk h1 h2 h3 hvs hy
  | dropout s d r h h1 =>
    rw [hk] at h; cases h; cases mapM_nil_some hkv
    exact go_dropout hI hn hd hk h1 hvs hy
  | flatten s d axes h h1 h2 =>
    rw [hk] at h; cases h; cases mapM_nil_some hkv
    exact go_flatten hI hn hd (shape _ _ h1).1 hk h1 hvs hy
  | maxPool s d k st h h1 h2 =>
    rw [hk] at h; cases h; cases mapM_nil_some hkv
    exact go_maxPool hI hn hd hk h1 h2 (shape _ _ h1).2 hvs hy
  | avgPool s d h h1 h2 h3 =>
    rw [hk] at h; cases h; cases mapM_nil_some hkv
    exact go_avgPool hI hn hd hk h1 h2 h3 hvs hy

end Verif.Torch

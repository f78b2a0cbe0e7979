import Verif.Torch.Supported
import Verif.Torch.Local2
import Verif.Torch.Listed

/-!
# The invariant of the visit
-/

namespace Verif.Torch
open Net Graph CText
open Onnx (prod)
open Keras (pick pick_forall pick_append pick_bound good_push)
open scoped Classical

variable {M : CMath ℝ} {p : Program} {x : Nd ℝ}

/-- the layer of `s` now returns another value -/
def Stale (done : List Node) (s : String) : Prop := ∃ m ∈ done, m.absorbs s

/-- no call has read `s` -/
def Unread (done : List Node) (s : String) : Prop := ∀ c ∈ done, s ∉ c.callReads

/-- the producers of a layer -/
def preds (st : Keras.State) (k : Nat) : List Nat := (st.links.filter fun e => e.2 = k).map (·.1)

/-- a layer that can still be changed -/
structure Open (M : CMath ℝ) (m : Node) (done : List Node) (st : State) (vals : List (List ℝ)) (k : Nat) (t : Nd ℝ) : Prop where
  pos : 1 ≤ k
  out : ∀ l ∈ st.net.links, l.1 ≠ k
  own : ∀ m' ∈ done, m'.isValue → ∀ sh, st.look m'.name = some (k, sh) → m'.name = m.name ∨ Stale done m'.name
  op : ∃ op xs, st.net.layers[k]? = some (k, op) ∧ pick vals (preds st.net k) = some xs ∧ xs ≠ [] ∧ Fusing op ∧ Gives M op xs t.data ∧ Coded op xs t.data ∧
    (m.isConv → Rescales M op xs t)

/-- what the importer knows of a value -/
structure Held (done : List Node) (E : Spec.Env) (st : State) (vals : List (List ℝ)) (m : Node) (k : Nat) (t : Nd ℝ) : Prop where
  look : ∃ sh, st.look m.name = some (k, sh) ∧ (sh = t.dims ∨ t.dims.length < 4)
  lt : k < st.net.layers.length
  env : E m.name = some t
  ok : t.Ok
  dims : t.dims = m.shape
  val : Stale done m.name ∨ vals[k]? = some t.data
  opened : m.fuses → Unread done m.name → Open M m done st vals k t

structure Inv (M : CMath ℝ) (p : Program) (x : Nd ℝ) (done : List Node) (E : Spec.Env) (st : State) (vals : List (List ℝ)) : Prop where
  flow : Flow M x st.net vals
  fmt : st.fmt = .first
  covers : Covers (st.dic.map fun e => e.2.1) st.net.layers.length
  known : ∀ e ∈ st.dic, ∃ m ∈ done, m.isValue ∧ m.name = e.1
  env : ∀ s t, E s = some t → ∃ m ∈ done, m.name = s ∧ ∀ v, m.kind = .getAttr v → t = v
  closed : ∀ c ∈ done, ∀ s ∈ c.callReads, ∃ m ∈ done, m.name = s
  held : ∀ m ∈ done, m.isValue → ∃ k t, Held (M := M) done E st vals m k t
  used : ∀ k < st.net.layers.length, (∃ l ∈ st.net.links, l.1 = k) ∨ ∃ m ∈ done, m.isValue ∧ (∃ sh, st.look m.name = some (k, sh)) ∧ Unread done m.name
  among : ∀ d ∈ vals, ∃ s t, E s = some t ∧ t.data = d
  distinct : ∀ m ∈ done, ∀ m' ∈ done, m.isValue → m'.isValue → ¬ m.isAlias → ¬ m'.isAlias → ¬ Stale done m.name → ¬ Stale done m'.name → ∀ k sh sh',
    st.look m.name = some (k, sh) → st.look m'.name = some (k, sh') → m.name = m'.name
  simple : p.Plain → ∀ k, (preds st.net k).Nodup

/-! ## Lists of nodes -/

section
variable {done : List Node} {n : Node}

theorem stale_mono {s : String} (h : Stale done s) (n : Node) : Stale (done ++ [n]) s := by
  obtain ⟨m, hm, h⟩ := h
  exact ⟨m, by simp [hm], h⟩

theorem unread_of {s : String} (h : Unread (done ++ [n]) s) : Unread done s := fun c hc => h c (by simp [hc])

theorem unread_last {s : String} (h : Unread (done ++ [n]) s) : s ∉ n.callReads := h n (by simp)

theorem absorbs_reads {m : Node} {s : String} (h : m.absorbs s) : s ∈ m.callReads := by
  obtain ⟨t, args, kw, hk, _⟩ := h
  simp [Node.callReads, hk, Arg.names]

theorem stale_read {s : String} (h : Stale done s) : ¬ Unread done s := by
  obtain ⟨m, hm, h⟩ := h
  exact fun hu => hu m hm (absorbs_reads h)

end

theorem look_append {st : State} {s name : String} {e e' : Nat × List Nat} (h : st.look s = some e) :
    State.look { st with dic := st.dic ++ [(name, e')] } s = some e := by
  unfold State.look at h ⊢
  obtain ⟨a, ha, hae⟩ := Option.map_eq_some_iff.mp h
  simp only [List.find?_append, ha, Option.some_or, Option.map_some, hae]

theorem look_new {st : State} {name : String} {e' : Nat × List Nat} (h : ∀ e ∈ st.dic, e.1 ≠ name) :
    State.look { st with dic := st.dic ++ [(name, e')] } name = some e' := by
  unfold State.look
  have : st.dic.find? (fun e => e.1 = name) = none := by
    rw [List.find?_eq_none]
    intro e he
    simpa using h e he
  simp [List.find?_append, this]

theorem look_dic {st st' : State} (h : st.dic = st'.dic) (s : String) : st.look s = st'.look s := by unfold State.look; rw [h]

theorem look_mem {st : State} {s : String} {e : Nat × List Nat} (h : st.look s = some e) : (s, e) ∈ st.dic := by
  unfold State.look at h
  obtain ⟨a, ha, hae⟩ := Option.map_eq_some_iff.mp h
  have h1 := List.find?_some ha
  have h2 := List.mem_of_find?_eq_some ha
  simp only [decide_eq_true_eq] at h1
  rw [← hae, ← h1]
  exact h2

section
variable {done : List Node} {n : Node} {E : Spec.Env} {st : State} {vals : List (List ℝ)}

/-- the situation before a call `n` -/
structure Next (p : Program) (done : List Node) (n : Node) : Prop where
  names : (p.nodes.map Node.name).Nodup
  supported : ∀ n ∈ p.nodes, ∀ t args kw, n.kind = .call t args kw → Supported p n
  split : ∃ rest, p.nodes = done ++ n :: rest

theorem Next.mem (h : Next p done n) : n ∈ p.nodes := by
  obtain ⟨_, h⟩ := h.split
  rw [h]; simp

theorem Next.sub (h : Next p done n) {m : Node} (hm : m ∈ done) : m ∈ p.nodes := by
  obtain ⟨_, h⟩ := h.split
  rw [h]; simp [hm]

theorem Next.ne (h : Next p done n) {m : Node} (hm : m ∈ done) : m.name ≠ n.name := by
  obtain ⟨_, hs⟩ := h.split
  have := h.names
  rw [hs, List.map_append, List.map_cons] at this
  exact (List.nodup_append.mp this).2.2 _ (List.mem_map_of_mem hm) _ (by simp)

theorem node_eq {l : List Node} (h : (l.map Node.name).Nodup) {a b : Node} (ha : a ∈ l) (hb : b ∈ l) (he : a.name = b.name) : a = b :=
  List.inj_on_of_nodup_map h ha hb he

/-- a call that absorbs `s` is its only reader -/
theorem only_reader (hs : Supported p n) {s : String} (h : n.absorbs s) : ∀ m ∈ p.nodes, s ∈ m.callReads → m.name = n.name := by
  obtain ⟨t, args, kw, hk, hb⟩ := h
  cases hs with
  | linear s' w b vw vb i h => rw [hk] at h; cases h; exact absurd hb (by decide)
  | relu s' t' ht h ho => rw [hk] at h; cases h; exact ho.2
  | clamp s' lo hi a b h _ _ _ ho => rw [hk] at h; cases h; exact ho.2
  | conv2d s' w bias d vw f c k st rest h => rw [hk] at h; cases h; exact absurd hb (by decide)
  | batchNorm s' w b rm rv vw vb vm vv mom eps cudnn h _ _ _ _ ho => rw [hk] at h; cases h; exact ho.2
  | add a b da db h => rw [hk] at h; cases h; exact absurd hb (by decide)
  | cat l axis h => rw [hk] at h; cases h
  | dropout s' d r h => rw [hk] at h; cases h; exact absurd hb (by decide)
  | flatten s' d axes h => rw [hk] at h; cases h; exact absurd hb (by decide)
  | maxPool s' d k st h => rw [hk] at h; cases h; exact absurd hb (by decide)
  | avgPool s' d h => rw [hk] at h; cases h; exact absurd hb (by decide)

/-- an operand of the next call is not stale -/
theorem Next.fresh (h : Next p done n) {s : String} (hs : s ∈ n.callReads) : ¬ Stale done s := by
  rintro ⟨m, hm, ha⟩
  obtain ⟨t, args, kw, hk, hb⟩ := id ha
  exact h.ne hm (only_reader (h.supported m (h.sub hm) _ _ _ hk) ha n h.mem hs).symm

theorem Inv.new (hI : Inv M p x done E st vals) (h : Next p done n) : ∀ e ∈ st.dic, e.1 ≠ n.name := by
  intro e he
  obtain ⟨m, hm, _, hn⟩ := hI.known e he
  rw [← hn]
  exact h.ne hm

/-- nothing has read the next node -/
theorem Inv.unread (hI : Inv M p x done E st vals) (h : Next p done n) : Unread done n.name := by
  intro c hc hr
  obtain ⟨m, hm, hn⟩ := hI.closed c hc _ hr
  exact h.ne hm hn

end

end Verif.Torch

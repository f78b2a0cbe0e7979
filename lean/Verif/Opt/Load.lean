import Verif.Opt.Pass
import Verif.Graph.Adjacent
import Verif.Graph.Facts

/-! # The network the pass receives: the result of `tri_topo` -/

namespace Verif.Opt
open Verif.Graph
variable {P T : Type}

/-- The object graph after `tri_topo` and `find_output_str` (`generator/neural_network.py` 141-158,
`ir/layer.py` 168-179): at that point every layer's `idx` is its own. -/
def load (dnn : Dnn) (plan : Plan) (cls : Nat → Cls) (fn : Nat → Fn) (par : Nat → P) : Net P where
  layers := plan.order
  cls := cls
  fn := fn
  par := par
  num := id
  path := plan.path
  outS := outStr plan
  prev := dnn.prevOf
  next := dnn.nextOf
  dict := plan.cst

/-- What the importers guarantee of the list of layers they give to the pass: consistent links without
repetition, producers listed before consumers (the order of the ONNX and Keras files), sources are
inputs or constants, a `MatMul` has two producers, `Multiply` layers are created without activation. -/
structure Imported (dnn : Dnn) (cls : Nat → Cls) (fn : Nat → Fn) : Prop where
  unique : UniqueIdx dnn
  consistent : Consistent dnn
  simple : SimpleInputs dnn
  simpleNext : ∀ l ∈ dnn, l.next.Nodup
  listed : Sorted dnn.prevOf dnn.idxs
  consts : ∀ l ∈ dnn, l.isConst = true ↔ cls l.idx = .constant
  constSource : ∀ l ∈ dnn, l.isConst = true → l.prev = []
  sources : ∀ l ∈ dnn, l.prev = [] → cls l.idx = .input ∨ cls l.idx = .constant
  matMul : ∀ l ∈ dnn, cls l.idx = .matMul → l.prev.length ≠ 1
  mulLinear : ∀ l ∈ dnn, cls l.idx = .multiply → fn l.idx = .linear

theorem Follows.adj {l : List Nat} {a b : Nat} (h : Follows l a b) : Adj l a b := by
  obtain ⟨A, B, rfl⟩ := h
  exact ⟨A.length, by simp, by simp⟩

theorem Follows3.adj {l : List Nat} {a b c : Nat} (h : Follows3 l a b c) : Adj3 l a b c := by
  obtain ⟨A, B, rfl⟩ := h
  exact ⟨A.length, by simp, by simp, by simp⟩

section
variable {dnn : Dnn} {plan : Plan} {cls : Nat → Cls} {fn : Nat → Fn}

theorem Imported.const_iff (I : Imported dnn cls fn) {i : Nat} (hi : i ∈ dnn.idxs) :
    dnn.constOf i = true ↔ cls i = .constant := by
  obtain ⟨l, hl, rfl⟩ := layer_of_idx hi
  rw [constOf_mem I.unique hl]; exact I.consts l hl

theorem Imported.not_head (I : Imported dnn cls fn) (h : triTopo dnn = some plan) {p : Nat}
    (hp : p ∈ plan.order) (h1 : cls p ≠ .input) (h2 : cls p ≠ .constant) : plan.order.head? ≠ some p := by
  intro hh
  obtain ⟨l, hl, rfl⟩ := layer_of_idx ((plan_perm I.unique I.consistent h).mem_iff.1 hp)
  cases ho : plan.order with
  | nil => rw [ho] at hp; simp at hp
  | cons a t =>
    rw [ho] at hh
    simp at hh
    have hs := (plan_sorted h [] a t ho).2
    rw [hh, prevOf_mem I.unique hl] at hs
    cases hpv : l.prev with
    | nil => rcases I.sources l hl hpv with e | e <;> contradiction
    | cons b _ => have := hs b (by rw [hpv]; simp); simp at this

theorem load_wf (I : Imported dnn cls fn) (h : triTopo dnn = some plan) (par : Nat → P) :
    WF (load dnn plan cls fn par) := by
  have hperm := plan_perm I.unique I.consistent h
  have hs := plan_sorted h
  refine ⟨hs.nodup, ?_, ?_, ?_, ?_, ?_⟩
  · intro j o ho p hp
    change plan.order[j]? = some o at ho
    obtain ⟨hj, e⟩ := List.getElem?_eq_some_iff.1 ho
    have he : plan.order = plan.order.take j ++ o :: plan.order.drop (j + 1) := by
      conv_lhs => rw [← List.take_append_drop j plan.order]
      rw [← e, ← List.drop_eq_getElem_cons hj]
    have := (hs _ _ _ he).2 p hp
    obtain ⟨k, hk⟩ := List.mem_iff_getElem?.1 this
    rw [List.getElem?_take] at hk
    split at hk
    · exact ⟨k, by assumption, hk⟩
    · simp at hk
  · intro o _ p hp
    exact (links I.unique I.consistent p o).1 hp
  · intro o _ c hc
    have := (links I.unique I.consistent o c).2 hc
    exact ⟨hperm.mem_iff.2 (prevOf_idx this), this⟩
  · intro o ho
    obtain ⟨l, hl, rfl⟩ := layer_of_idx (hperm.mem_iff.1 ho)
    change (dnn.nextOf l.idx).Nodup
    rw [nextOf_mem I.unique hl]; exact I.simpleNext l hl
  · intro o ho hc
    obtain ⟨l, hl, rfl⟩ := layer_of_idx (hperm.mem_iff.1 ho)
    change (dnn.prevOf l.idx).length ≠ 1
    rw [prevOf_mem I.unique hl]; exact I.matMul l hl hc

/-- a layer with a producer is not a constant -/
theorem Imported.not_const (I : Imported dnn cls fn) {c p : Nat} (hp : p ∈ dnn.prevOf c) :
    dnn.constOf c = false := by
  obtain ⟨l, hl, rfl⟩ := layer_of_idx (prevOf_idx hp)
  rw [constOf_mem I.unique hl]
  cases hk : l.isConst with
  | false => rfl
  | true =>
    have := I.constSource l hl hk
    rw [prevOf_mem I.unique hl, this] at hp; simp at hp

theorem load_pairs (I : Imported dnn cls fn) (h : triTopo dnn = some plan) (par : Nat → P) :
    Pairs (load dnn plan cls fn par) := by
  have hperm := plan_perm I.unique I.consistent h
  obtain ⟨f⟩ := facts h
  have hlen : dnn.idxs.length = dnn.length := by simp [Dnn.idxs]
  intro p hp c hin hn hc
  change dnn.nextOf p = [c] at hn
  change dnn.prevOf c = [p] at hc
  have hp' := hperm.mem_iff.1 hp
  have hcp : c ≠ p := by
    rintro rfl
    obtain ⟨pre, post, he⟩ := List.append_of_mem hp'
    exact (I.listed pre c post he).1 ((I.listed pre c post he).2 c (by rw [hc]; simp))
  have hf := sortAll_follows (next_closed I.unique I.consistent) hn hcp (by
      intro x _ hx
      have := (links I.unique I.consistent x c).2 hx
      rw [hc] at this; simpa using this) hp' (by
      intro pre post he
      exact (I.listed pre c post he).2 p (by rw [hc]; simp))
  rw [hlen] at hf
  refine Follows.adj (moveConsts_follows f.hmove ?_ (I.not_const (p := p) (by rw [hc]; simp)) hf
    (I.not_head h hp hin.1 hin.2))
  cases hk : dnn.constOf p with
  | false => rfl
  | true => exact absurd ((I.const_iff hp').1 hk) hin.2

theorem load_triples (I : Imported dnn cls fn) (h : triTopo dnn = some plan) (par : Nat → P) :
    Triples (load dnn plan cls fn par) := by
  have hperm := plan_perm I.unique I.consistent h
  obtain ⟨f⟩ := facts h
  have hlen : dnn.idxs.length = dnn.length := by simp [Dnn.idxs]
  intro q hq s hs m hm hin _ hps hns hpm hnq
  change dnn.prevOf s = [q] at hps
  change dnn.nextOf s = [m] at hns
  change dnn.prevOf m = [q, s] ∨ dnn.prevOf m = [s, q] at hpm
  change dnn.nextOf q = [s, m] ∨ dnn.nextOf q = [m, s] at hnq
  have hq' := hperm.mem_iff.1 hq
  have irr : ∀ c p, p ∈ dnn.prevOf c → c ≠ p := by
    rintro c p hc rfl
    obtain ⟨pre, post, he⟩ := List.append_of_mem (prevOf_idx hc)
    exact (I.listed pre c post he).1 ((I.listed pre c post he).2 c hc)
  have hqm : q ∈ dnn.prevOf m := by rcases hpm with e | e <;> rw [e] <;> simp
  have hsm : s ∈ dnn.prevOf m := by rcases hpm with e | e <;> rw [e] <;> simp
  have hqs : q ∈ dnn.prevOf s := by rw [hps]; simp
  have hf := sortAll_follows3 (next_closed I.unique I.consistent) hnq hns (irr s q hqs) (irr m q hqm)
    (irr m s hsm) (by
      intro x _ hx
      have := (links I.unique I.consistent x s).2 hx
      rw [hps] at this; simpa using this) (by
      intro x _ hx
      have := (links I.unique I.consistent x m).2 hx
      rcases hpm with e | e <;> rw [e] at this <;> simp at this <;> tauto) hq'
      (fun pre post he => (I.listed pre s post he).2 q hqs)
      (fun pre post he => (I.listed pre m post he).2 q hqm)
  rw [hlen] at hf
  refine Follows3.adj (moveConsts_follows3 f.hmove ?_ (I.not_const hqs) (I.not_const hqm) hf
    (I.not_head h hq hin.1 hin.2))
  cases hk : dnn.constOf q with
  | false => rfl
  | true => exact absurd ((I.const_iff hq').1 hk) hin.2

theorem load_inv (I : Imported dnn cls fn) (h : triTopo dnn = some plan) (par : Nat → P) (S : Sem P T)
    (hk : Keeps S (load dnn plan cls fn par)) : Inv S (load dnn plan cls fn par) 0 := by
  refine ⟨load_wf I h par, load_pairs I h par, load_triples I h par, ?_, ?_, hk⟩
  · intro j hj; omega
  · intro s hs hS m hm
    obtain ⟨_, _, q, _, _, _, m', hn, hc, _⟩ := hS
    rw [hn] at hm; simp at hm; subst hm
    have := ((load_wf I h par).fwd s hs m (by rw [hn]; simp)).1
    obtain ⟨l, hl, rfl⟩ := layer_of_idx ((plan_perm I.unique I.consistent h).mem_iff.1 this)
    exact I.mulLinear l hl hc

end
end Verif.Opt

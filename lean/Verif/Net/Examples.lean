import Verif.Net.Run
import Mathlib.Algebra.Order.Ring.Unbundled.Rat
import Mathlib.Data.Rat.Floor

/-!
# C52: the hypotheses can be met, and some that cannot be dropped
-/

namespace Verif.Net
open Prog Layers Graph
variable {K : Type}

section
set_option linter.unusedSectionVars false
variable [Field K] [LinearOrder K] [IsStrictOrderedRing K] [FloorRing K]

/-- contents of an array among a list of parameters -/
def lookupPar : List (Buf × List K) → Buf → List K
  | [], _ => []
  | (b, t) :: ps, b' => if b = b' then t else lookupPar ps b'

/-- the layer whose parameters an array may belong to -/
def parOwner : Buf → Option Nat
  | .par _ i => some i
  | _ => none

theorem lookup_params {o : Op K} {n : Nat} {p : Buf × List K} (h : p ∈ o.params n) :
    lookupPar (o.params n) p.1 = p.2 ∧ parOwner p.1 = some n := by
  cases o with
  | broadcast op out ss cst act =>
    cases cst <;> simp only [Op.params, List.mem_cons, List.not_mem_nil, or_false] at h
    subst h; exact ⟨by simp [Op.params, lookupPar], rfl⟩
  | _ =>
    simp only [Op.params, List.mem_cons, List.not_mem_nil, or_false] at h
    try (rcases h with rfl | rfl | rfl | rfl <;> exact ⟨by simp [Op.params, lookupPar], rfl⟩)

/-- Whatever the network and the input, the memory that C52 asks for exists. -/
theorem C52_memory_exists (net : Network K) (hu : UniqueIdx net.graph) (hc : Consistent net.graph) (plan : Plan)
    (h : triTopo net.graph = some plan) (x : List K) : ∃ m, net.Memory plan x m := by
  let conts : Buf → List K := fun b => match b with
    | .input => x
    | .par _ i => lookupPar ((net.op i).params i) b
    | _ => []
  let last := match plan.order.getLast? with
    | some n => (net.op n).size
    | none => 0
  let other : Buf → Nat := fun b => (conts b).length + last
  obtain ⟨sizes, hdecl, -⟩ := Gen.C32_arrays_large_enough hu hc h (plan.order.map fun n => (net.op n).info n)
    (by rw [List.map_map]; simp [Function.comp_def, Op.info]) (dictOf plan)
    (by
      intro n k
      simp only [dictOf, List.mem_filterMap, Option.map_eq_some_iff, Prod.mk.injEq]
      constructor
      · rintro ⟨a, ha, b, hb, rfl, rfl⟩; exact ⟨ha, hb⟩
      · rintro ⟨a, b⟩; exact ⟨n, a, k, b, rfl, rfl⟩) other
  have hsz : ∀ b, (b = .input ∨ b = .pred ∨ ∃ k i, b = .par k i) → sizes b = other b := by
    intro b hb
    unfold Gen.declared at hdecl
    split at hdecl
    · simp at hdecl
    · simp only [Option.some.injEq] at hdecl
      rw [← hdecl]
      rcases hb with rfl | rfl | ⟨k, i, rfl⟩ <;> rfl
  have hold : ∀ b, (b = .input ∨ b = .pred ∨ ∃ k i, b = .par k i) →
      Holds (⟨sizes, fun b a => (conts b).getD a 0⟩ : Mem K) b (conts b) := by
    intro b hb
    refine ⟨by simp only [hsz b hb, other]; omega, fun a ha => ?_⟩
    simp [List.getD, ha]
  refine ⟨⟨sizes, fun b a => (conts b).getD a 0⟩, ⟨other, hdecl⟩, ?_, hold .input (.inl rfl), ?_⟩
  · intro n _ p hp
    obtain ⟨h1, h2⟩ := lookup_params hp
    obtain ⟨b, t⟩ := p
    cases b with
    | par k i =>
      simp only [parOwner, Option.some.injEq] at h2
      subst h2
      have := hold (.par k i) (.inr (.inr ⟨k, i, rfl⟩))
      simp only [conts] at this
      rw [h1] at this
      exact this
    | _ => simp [parOwner] at h2
  · intro n hn
    simp only [hsz .pred (.inr (.inl rfl)), other, last, hn]
    omega

/-! ## Hypotheses that cannot be dropped -/

/-- the layers whose array never has rank three although they have `output_channels` -/
def Op.NotRank3 : Op K → Prop
  | .transpose .. | .matmul .. | .gemm .. => True
  | .softmax s _ _ => softmaxOneDim s.size s.C s.H s.W = false
  | .reduce _ _ keepdims _ => keepdims = true
  | _ => False

theorem notRank3_dims {M : CMath K} {fmt : DataFormat} {o : Op K} (h : o.NotRank3) {ins : List (Nd K)} {y : Nd K}
    (hy : o.forward M fmt ins = some y) : y.dims.length ≠ 3 ∧ o.chans.isSome := by
  cases o <;> try exact h.elim
  case transpose s p act =>
    match ins with
    | [x] =>
      simp only [Op.forward, Option.bind_eq_bind, Option.bind_eq_some_iff] at hy
      obtain ⟨v, -, e⟩ := hy
      cases e; exact ⟨by simp, rfl⟩
    | [] => simp [Op.forward] at hy
    | _ :: _ :: _ => simp [Op.forward] at hy
  case matmul =>
    match ins with
    | [x, z] =>
      simp only [Op.forward, Option.bind_eq_bind, Option.bind_eq_some_iff] at hy
      obtain ⟨v, -, w, -, e⟩ := hy
      split at e
      · cases e; exact ⟨by simp, rfl⟩
      · cases e
    | [] => simp [Op.forward] at hy
    | [_] => simp [Op.forward] at hy
    | _ :: _ :: _ :: _ => simp [Op.forward] at hy
  case gemm =>
    match ins with
    | [x] =>
      simp only [Op.forward, Option.bind_eq_bind, Option.bind_eq_some_iff] at hy
      obtain ⟨v, -, e⟩ := hy
      cases e; exact ⟨by simp, rfl⟩
    | [] => simp [Op.forward] at hy
    | _ :: _ :: _ => simp [Op.forward] at hy
  case softmax s axis act =>
    have h' : softmaxOneDim s.size s.C s.H s.W = false := h
    match ins with
    | [x] =>
      simp only [Op.forward, h', Option.bind_eq_bind, Option.bind_eq_some_iff, Bool.false_eq_true, if_false] at hy
      obtain ⟨v, -, e⟩ := hy
      cases axis <;> (cases e; exact ⟨by simp, by simp [Op.chans, h']⟩)
    | [] => simp [Op.forward] at hy
    | _ :: _ :: _ => simp [Op.forward] at hy
  case reduce fn c kd act =>
    have h' : kd = true := h
    subst h'
    match ins with
    | [x] =>
      simp only [Op.forward, fill, Option.bind_eq_bind, Option.bind_eq_some_iff, Option.map_eq_some_iff] at hy
      obtain ⟨v, -, w, -, e⟩ := hy
      cases e
      refine ⟨?_, rfl⟩
      unfold reduceDims; split <;> simp
    | [] => simp [Op.forward] at hy
    | _ :: _ :: _ => simp [Op.forward] at hy

/-- **C52, the rank hypothesis cannot be dropped.**  When a channels-last model ends with a Transpose, MatMul, Gemm,
Softmax over a tensor or Reduce that keeps its axes, `compute_inference` raises on every input. -/
theorem C52_not_channels_last_rank (net : Network K) (hf : net.fmt = .last) (M : CMath K) (plan : Plan) {n : Nat}
    (hl : plan.order.getLast? = some n) (hn : (net.op n).NotRank3) (x : Nd K) : net.reference M plan x = none := by
  unfold Network.reference
  rw [Option.eq_none_iff_forall_not_mem]
  intro y hy
  simp only [Option.mem_def, Option.bind_eq_bind, Option.bind_eq_some_iff] at hy
  obtain ⟨f, -, l, hl', x', -, z, hz, hy⟩ := hy
  rw [hl] at hl'; cases hl'
  unfold loopE at hz
  simp only [Option.bind_eq_bind, Option.bind_eq_some_iff] at hz
  obtain ⟨st, hst, hz⟩ := hz
  obtain ⟨pre, hpre⟩ : ∃ pre, plan.order = pre ++ [n] := by
    rw [List.getLast?_eq_some_iff] at hl; exact hl
  generalize Inputs.init plan.order x' = i0 at hst
  rw [hpre, List.foldlM_append] at hst
  simp only [List.foldlM_cons, List.foldlM_nil, Option.bind_eq_bind, Option.bind_eq_some_iff, Option.pure_def] at hst
  obtain ⟨st1, -, st2, h2, h3⟩ := hst
  cases h3
  unfold stepE at h2
  simp only [Option.bind_eq_bind, Option.bind_eq_some_iff, Option.pure_def] at h2
  obtain ⟨ins, -, y', hfw, li, -, e⟩ := h2
  cases e
  cases hz
  obtain ⟨hd, hc⟩ := notRank3_dims hn hfw
  obtain ⟨c, hc⟩ := Option.isSome_iff_exists.1 hc
  unfold finish at hy
  rw [hf, hc] at hy
  dsimp only at hy
  split at hy
  · rename_i e; rw [e] at hd; simp at hd
  · cases hy

end

/-! ## A small residual network -/

/-- the graph: input, convolution, Add of the convolution and the input, Flatten, Dense -/
def resGraph : Dnn :=
  [⟨0, [], [1, 2], false⟩, ⟨1, [0], [2], false⟩, ⟨2, [1, 0], [3], false⟩, ⟨3, [2], [4], false⟩, ⟨4, [3], [], false⟩]

/-- a 3×3 convolution with padding 1 -/
def resConv : ConvP := ⟨2, 2, 3, 3, 3, 3, 3, 3, 1, 1, 1, 1, 1, 1⟩

/-- a channels-last network with a residual connection -/
def resNet : Network ℚ where
  graph := resGraph
  fmt := .last
  op := fun
    | 0 => .input true ⟨2, 3, 3⟩
    | 1 => .conv .stdGemm resConv (fun f p h w => f + 2 * p - h * w) (fun f => f) (fun v => max v 0)
    | 2 => .broadcast .add ⟨2, 3, 3⟩ [⟨2, 3, 3⟩, ⟨2, 3, 3⟩] none id
    | 3 => .flatten ⟨2, 3, 3⟩
    | _ => .dense 18 2 (fun i j => i - j) (fun j => j) id

theorem resNet_wf : resNet.WF := by
  have hmem : ∀ l ∈ resNet.graph, l = ⟨0, [], [1, 2], false⟩ ∨ l = ⟨1, [0], [2], false⟩ ∨ l = ⟨2, [1, 0], [3], false⟩ ∨
      l = ⟨3, [2], [4], false⟩ ∨ l = ⟨4, [3], [], false⟩ := by
    intro l hl; simpa [resNet, resGraph] using hl
  refine ⟨by decide, by decide, by decide, ?_, ?_, ?_, ?_, ?_⟩
  · intro l hl
    rcases hmem l hl with rfl | rfl | rfl | rfl | rfl
    · trivial
    · exact ⟨by unfold ConvP.Accepted resConv; decide, by simp⟩
    · refine ⟨fun _ => rfl, rfl, ?_, by simp⟩
      intro t ht
      simp only [List.mem_cons, List.not_mem_nil, or_false] at ht
      subst ht; exact ⟨.inr rfl, .inr rfl, .inr rfl⟩
    · trivial
    · trivial
  · intro l hl
    rcases hmem l hl with rfl | rfl | rfl | rfl | rfl <;> rfl
  · intro l hl
    rcases hmem l hl with rfl | rfl | rfl | rfl | rfl <;> simp [resNet]
  · intro l hl hown
    rcases hmem l hl with rfl | rfl | rfl | rfl | rfl
    · exact hown.elim
    · exact hown.elim
    · exact hown.elim
    · exact ⟨⟨2, [1, 0], [3], false⟩, by decide, rfl, rfl⟩
    · exact hown.elim
  · intro l hl l' hl' r s r' s' h h'
    rcases hmem l hl with rfl | rfl | rfl | rfl | rfl <;> rcases hmem l' hl' with rfl | rfl | rfl | rfl | rfl <;>
      simp [resNet] at h h'
    simp_all

/-- All the hypotheses of C52 hold for this network, on every input of eighteen numbers, with any `exp`, `sqrt`. -/
example (M : CMath ℚ) (x : List ℚ) (hx : x.length = 18) :
    ∃ plan m y m', triTopo resNet.graph = some plan ∧ plan.order = [0, 1, 2, 3, 4] ∧ resNet.Memory plan x m ∧
      resNet.reference M plan ⟨[18], x⟩ = some y ∧ resNet.inference M plan m = some ((), m') ∧ Holds m' .pred y := by
  have hp : ∃ plan, triTopo resNet.graph = some plan ∧ plan.order = [0, 1, 2, 3, 4] := ⟨_, rfl, by decide⟩
  obtain ⟨plan, h1, h2⟩ := hp
  obtain ⟨m, hm⟩ := C52_memory_exists resNet resNet_wf.unique resNet_wf.consistent plan h1 x
  obtain ⟨y, m', h3, h4, h5, _⟩ := C52_network_partial resNet resNet_wf plan h1 M ⟨[18], x⟩ m
    (by
      intro l hl r s e
      simp only [resNet, resGraph, List.mem_cons, List.not_mem_nil, or_false] at hl
      rcases hl with rfl | rfl | rfl | rfl | rfl <;> simp [resNet] at e
      rw [← e.2]; simp [Shape.size, hx])
    hm
    (by
      intro f x' _ _ n ins hr
      obtain ⟨pre, post, st, he, _⟩ := hr
      have hn : n ∈ [0, 1, 2, 3, 4] := by rw [← h2, he]; simp
      simp only [List.mem_cons, List.not_mem_nil, or_false] at hn
      rcases hn with rfl | rfl | rfl | rfl | rfl <;> trivial)
    (by
      intro _ n hn
      rw [h2] at hn
      simp at hn
      subst hn; exact .inl rfl)
  exact ⟨plan, m, y, m', h1, h2, hm, h3, h4, h5⟩

/-- a channels-last model with a Transpose after the input -/
def trNet : Network ℚ where
  graph := [⟨0, [], [1], false⟩, ⟨1, [0], [], false⟩]
  fmt := .last
  op := fun
    | 0 => .input true ⟨2, 3, 4⟩
    | _ => .transpose ⟨2, 3, 4⟩ .p231 id

example (M : CMath ℚ) (x : List ℚ) :
    ∃ plan, triTopo trNet.graph = some plan ∧ trNet.reference M plan ⟨[24], x⟩ = none := by
  have hp : ∃ plan, triTopo trNet.graph = some plan ∧ plan.order.getLast? = some 1 := ⟨_, rfl, by decide⟩
  obtain ⟨plan, h1, h2⟩ := hp
  exact ⟨plan, h1, C52_not_channels_last_rank trNet rfl M plan h2 trivial _⟩

end Verif.Net

import Verif.OptNet.Main2
import Verif.Opt.Examples
import Verif.Net.Examples
import Verif.CText.Tac

/-!
# C71: the hypotheses can be met
-/

namespace Verif.OptNet
open Prog Net Layers Graph Opt Export

/-- Whatever the network and the input, the memory that C71 asks for exists. -/
theorem C71_memory_exists {M : CMath ℝ} {net : XNet} {plan : Plan} {D : Nat → Shape} (H : Optimisable net plan D) (h : triTopo net.graph = some plan)
    {net' : Opt.Net (Op ℝ)} (hr : optimised M net plan = .done net') (x : List ℝ) : ∃ m, Memory net plan net' x m := by
  have hS := sem_ok M net
  obtain ⟨hnd, hkeys, -⟩ := C36_indices_partial hS (imported H) h (fun n => (net.layer n).full) (keeps H h M) H.orderly hr
  have hinj : ∀ o ∈ net'.layers, ∀ q ∈ net'.layers, net'.num o = net'.num q → o = q := by
    have hl : net'.layers.Nodup := List.Nodup.of_map _ hnd
    exact fun o ho q hq e => (List.nodup_map_iff_inj_on hl).1 hnd o ho q hq e
  let owner : Nat → Nat := fun i => (net'.layers.find? fun o => net'.num o == i).getD 0
  have hown : ∀ o ∈ net'.layers, owner (net'.num o) = o := by
    intro o ho
    obtain ⟨q, hq⟩ : ∃ q, net'.layers.find? (fun q => net'.num q == net'.num o) = some q := by
      cases e : net'.layers.find? (fun q => net'.num q == net'.num o) with
      | some q => exact ⟨q, rfl⟩
      | none => have := List.find?_eq_none.1 e o ho; simp at this
    have h1 := List.mem_of_find?_eq_some hq
    have h2 := List.find?_some hq
    simp only [owner, hq, Option.getD_some]
    exact hinj q h1 o ho (by simpa using h2)
  let conts : Buf → List ℝ := fun b => match b with
    | .input => x
    | .par _ i => lookupPar ((layerOp net net' (owner i)).params i) b
    | _ => []
  let last := match net'.layers.getLast? with
    | some o => layerSize net net' o
    | none => 0
  let other : Buf → Nat := fun b => (conts b).length + last
  let dict : List (Nat × Nat) := net'.layers.filterMap fun o => (net'.dict (net'.num o)).map fun k => (net'.num o, k)
  have hdict : ∀ k c, (k, c) ∈ dict ↔ net'.dict k = some c := by
    intro k c
    simp only [dict, List.mem_filterMap, Option.map_eq_some_iff, Prod.mk.injEq]
    constructor
    · rintro ⟨o, ho, b, hb, rfl, rfl⟩; exact hb
    · intro e
      obtain ⟨o, ho, rfl⟩ := hkeys k (by rw [e]; simp)
      exact ⟨o, ho, c, e, rfl, rfl⟩
  obtain ⟨w', hw'⟩ := Gen.cstSizes_defined (ls := net'.layers.map fun o => (layerOp net net' o).info (net'.num o)) dict none (fun _ => none) (by
    rintro ⟨k, c⟩ he
    obtain ⟨o, ho, hk⟩ := hkeys k (by rw [(hdict k c).1 he]; simp)
    exact ⟨_, List.mem_map.2 ⟨o, ho, rfl⟩, hk⟩)
  obtain ⟨sizes, hdecl⟩ : ∃ sizes, Gen.declared (net'.layers.map fun o => (layerOp net net' o).info (net'.num o)) plan.maxPath dict other = some sizes :=
    ⟨_, by unfold Gen.declared; rw [hw']⟩
  have hsz : ∀ b, (b = .input ∨ b = .pred ∨ ∃ k i, b = .par k i) → sizes b = other b := by
    intro b hb
    unfold Gen.declared at hdecl
    rw [hw'] at hdecl
    simp only [Option.some.injEq] at hdecl
    rw [← hdecl]
    rcases hb with rfl | rfl | ⟨k, i, rfl⟩ <;> rfl
  have hold : ∀ b, (b = .input ∨ b = .pred ∨ ∃ k i, b = .par k i) →
      Holds (⟨sizes, fun b a => (conts b).getD a 0⟩ : Mem ℝ) b (conts b) := by
    intro b hb
    refine ⟨by simp only [hsz b hb, other]; omega, fun a ha => ?_⟩
    simp [List.getD, ha]
  refine ⟨⟨sizes, fun b a => (conts b).getD a 0⟩, ⟨dict, other, hdict, hdecl⟩, ?_, hold .input (.inl rfl), ?_⟩
  · intro o ho p hp
    obtain ⟨h1, h2⟩ := lookup_params hp
    obtain ⟨b, t⟩ := p
    cases b with
    | par k i =>
      simp only [parOwner, Option.some.injEq] at h2
      subst h2
      have := hold (.par k (net'.num o)) (.inr (.inr ⟨k, _, rfl⟩))
      simp only [conts, hown o ho] at this
      rw [h1] at this
      exact this
    | _ => simp [parOwner] at h2
  · intro o ho
    simp only [hsz .pred (.inr (.inl rfl)), other, last, ho]
    omega

/-! ## A network: convolution, batch normalisation, x·sigmoid(x), Flatten, Dense -/

/-- the graph -/
def siluGraph : Dnn :=
  [⟨0, [], [1], false⟩, ⟨1, [0], [2], false⟩, ⟨2, [1], [3, 4], false⟩, ⟨3, [2], [4], false⟩, ⟨4, [3, 2], [5], false⟩, ⟨5, [4], [6], false⟩, ⟨6, [5], [], false⟩]

/-- a 3×3 convolution with padding 1 -/
def siluConv : ConvP := ⟨2, 2, 3, 3, 3, 3, 3, 3, 1, 1, 1, 1, 1, 1⟩

variable (wt : Nat → Nat → Nat → Nat → ℝ) (b : Nat → ℝ) (eps : ℝ) (scale mean var bias : Nat → ℝ) (w : Nat → Nat → ℝ) (c : Nat → ℝ)

/-- the layers; the parameters are arbitrary -/
def siluNet : XNet where
  graph := siluGraph
  fmt := .first
  layer := fun
    | 0 => ⟨.input true ⟨2, 3, 3⟩, .linear⟩
    | 1 => ⟨.conv .stdGemm siluConv wt b id, .linear⟩
    | 2 => ⟨.batchNorm ⟨2, 3, 3⟩ eps scale mean var bias id, .linear⟩
    | 3 => ⟨.activation 18 id, .sigmoid⟩
    | 4 => ⟨.broadcast .mul ⟨2, 3, 3⟩ [⟨2, 3, 3⟩, ⟨2, 3, 3⟩] none id, .linear⟩
    | 5 => ⟨.flatten ⟨2, 3, 3⟩, .linear⟩
    | _ => ⟨.dense 18 2 w c id, .relu⟩

/-- the shapes of the tensors -/
def siluD : Nat → Shape
  | 6 => ⟨1, 1, 2⟩
  | 5 => ⟨1, 1, 18⟩
  | _ => ⟨2, 3, 3⟩

local macro "siluNet'" : term => `(siluNet wt b eps scale mean var bias w c)

theorem siluGraph_mem {l : Layer} (hl : l ∈ siluGraph) : l = ⟨0, [], [1], false⟩ ∨ l = ⟨1, [0], [2], false⟩ ∨ l = ⟨2, [1], [3, 4], false⟩ ∨ l = ⟨3, [2], [4], false⟩ ∨
    l = ⟨4, [3, 2], [5], false⟩ ∨ l = ⟨5, [4], [6], false⟩ ∨ l = ⟨6, [5], [], false⟩ := by
  simpa [siluGraph] using hl

theorem siluNet_wf : (siluNet').network.WF := by
  refine ⟨show UniqueIdx siluGraph by decide, show Consistent siluGraph by decide, show SimpleInputs siluGraph by decide, ?_, ?_, ?_, ?_, ?_⟩
  · intro l hl
    rcases siluGraph_mem hl with rfl | rfl | rfl | rfl | rfl | rfl | rfl
    · trivial
    · exact ⟨by unfold ConvP.Accepted siluConv; decide, by simp⟩
    · trivial
    · trivial
    · refine ⟨by simp, rfl, ?_, by simp⟩
      intro t ht
      simp only [List.mem_cons, List.not_mem_nil, or_false] at ht
      subst ht; exact ⟨.inr rfl, .inr rfl, .inr rfl⟩
    · trivial
    · trivial
  · intro l hl
    rcases siluGraph_mem hl with rfl | rfl | rfl | rfl | rfl | rfl | rfl <;> rfl
  · intro l hl
    rcases siluGraph_mem hl with rfl | rfl | rfl | rfl | rfl | rfl | rfl <;> simp [siluNet, XNet.network, XLayer.full, setAct]
  · intro l hl hown
    rcases siluGraph_mem hl with rfl | rfl | rfl | rfl | rfl | rfl | rfl
    · exact hown.elim
    · exact hown.elim
    · exact hown.elim
    · exact hown.elim
    · exact hown.elim
    · exact ⟨⟨4, [3, 2], [5], false⟩, by show _ ∈ siluGraph; decide, rfl, rfl⟩
    · exact hown.elim
  · intro l hl l' hl' r s r' s' h h'
    rcases siluGraph_mem hl with rfl | rfl | rfl | rfl | rfl | rfl | rfl <;> rcases siluGraph_mem hl' with rfl | rfl | rfl | rfl | rfl | rfl | rfl <;>
      simp [siluNet, XNet.network, XLayer.full, setAct] at h h'
    simp_all

theorem siluNet_optimisable {plan : Plan} (h : triTopo siluGraph = some plan) : Optimisable siluNet' plan siluD := by
  refine ⟨siluNet_wf .., rfl, ⟨?_, ?_, ?_, ?_⟩, show Sorted siluGraph.prevOf siluGraph.idxs from sorted_of_check (by decide), show ∀ l ∈ siluGraph, l.next.Nodup by decide, ?_, ?_, ?_⟩
  · intro l hl ha
    rcases siluGraph_mem hl with rfl | rfl | rfl | rfl | rfl | rfl | rfl <;> first | rfl | exact absurd rfl (ha 18 id)
  · intro l hl n f p e hp
    rcases siluGraph_mem hl with rfl | rfl | rfl | rfl | rfl | rfl | rfl <;> first | (cases e; done) | (cases hp; rfl)
  · intro l hl s e a b' c' d f p e' hp
    rcases siluGraph_mem hl with rfl | rfl | rfl | rfl | rfl | rfl | rfl <;> first | (cases e'; done) | (cases e'; cases hp; rfl)
  · intro l hl o ss k f p q e hp
    rcases siluGraph_mem hl with rfl | rfl | rfl | rfl | rfl | rfl | rfl <;> first | (cases e; done) | (cases e; cases hp; exact ⟨rfl, rfl⟩)
  · intro l hl e
    rcases siluGraph_mem hl with rfl | rfl | rfl | rfl | rfl | rfl | rfl <;> first | (cases e; done) | rfl
  · intro l hl e c' hc'
    rcases siluGraph_mem hl with rfl | rfl | rfl | rfl | rfl | rfl | rfl <;> first | (cases e; done) | skip
    all_goals
      simp only [List.mem_cons, List.not_mem_nil, or_false] at hc'
      rcases hc' with rfl
      exact fun e' => by cases e'
  · refine orderly_of_check ?_
    have hp : (triTopo siluGraph).map (fun p => orderlyB (loaded siluNet' p)) = some true := by kernel_rfl
    rw [h] at hp
    exact Option.some.inj hp

/-- **C71** An example, for all parameters and all inputs: the pass leaves four layers of the seven — the convolution has taken over the batch normalisation, the
sigmoid and the product — and the program generated for them returns what the interpreter computes with the seven layers. -/
theorem C71_example (M : CMath ℝ) (x : Nd ℝ) (hx : x.data.length = 18) : ∃ plan net' y m m', triTopo siluGraph = some plan ∧ plan.order = [0, 1, 2, 3, 4, 5, 6] ∧
    optimised M siluNet' plan = .done net' ∧ net'.layers = [0, 1, 5, 6] ∧ net'.fn 1 = .silu ∧ (siluNet').network.reference M plan x = some y ∧
    Memory siluNet' plan net' x.data m ∧ program M siluNet' net' m = some ((), m') ∧ Holds m' .pred y := by
  have hp : ∃ plan, triTopo siluGraph = some plan ∧ plan.order = [0, 1, 2, 3, 4, 5, 6] := by
    have h : (triTopo siluGraph).map Plan.order = some [0, 1, 2, 3, 4, 5, 6] := by decide +kernel
    obtain ⟨plan, h1, h2⟩ := Option.map_eq_some_iff.mp h
    exact ⟨plan, h1, h2⟩
  obtain ⟨plan, h1, h2⟩ := hp
  have H := siluNet_optimisable wt b eps scale mean var bias w c h1
  obtain ⟨net', y, h3, h4, h5⟩ := C71_optimised_program_partial M siluNet' plan siluD H h1 x
    (by
      intro l hl r s e
      rcases siluGraph_mem hl with rfl | rfl | rfl | rfl | rfl | rfl | rfl <;> cases e
      exact hx)
    (by
      intro n ins hr
      obtain ⟨pre, post, st, he, _⟩ := hr
      have hn : n ∈ [0, 1, 2, 3, 4, 5, 6] := by rw [← h2, he]; simp
      simp only [List.mem_cons, List.not_mem_nil, or_false] at hn
      rcases hn with rfl | rfl | rfl | rfl | rfl | rfl | rfl <;> trivial)
  obtain ⟨m, hm⟩ := C71_memory_exists H h1 h3 x.data
  obtain ⟨m', h6, h7⟩ := h5 m hm
  have hs : (triTopo siluGraph).map (fun p => (optimised M siluNet' p).show fun n => (n.layers, n.fn 1)) = some (some ([0, 1, 5, 6], .silu)) := by kernel_rfl
  rw [h1] at hs
  have hs := Option.some.inj hs
  dsimp only at hs
  rw [h3] at hs
  have hs := Option.some.inj hs
  simp only [Prod.mk.injEq] at hs
  exact ⟨plan, net', y, m, m', h1, h2, h3, hs.1, hs.2, h4, hm, h6, h7⟩
end Verif.OptNet

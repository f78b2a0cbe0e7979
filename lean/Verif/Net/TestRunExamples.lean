import Verif.Net.TestRun
import Verif.Net.Examples

/-!
# A whole run of the test program: the hypotheses can be met
-/

namespace Verif.Net
open Prog Layers Graph Gen

theorem Network.Memory.loaded {K : Type} {net : Network K} {plan : Plan} {x : List K} {m : Mem K} (hm : net.Memory plan x m) :
    net.Loaded plan m.size (fun k i => m.val (.par k i)) :=
  ⟨hm.declared, fun n hn _ _ _ hv => hm.params n hn _ hv, hm.pred⟩

/-- each iteration in turn -/
theorem complete_inTurn (fin len : Nat) : Complete fin len ((List.range fin).flatMap fun i => List.replicate len i) := by
  intro i
  induction fin with
  | zero => simp
  | succ fin ih =>
    rw [List.range_succ, List.flatMap_append, List.count_append, ih]
    simp only [List.flatMap_cons, List.flatMap_nil, List.append_nil, List.count_replicate, beq_iff_eq]
    split <;> split <;> split <;> omega

/-- `len` rounds of all the iterations: every call is interrupted after each of its steps -/
theorem complete_rounds (fin len : Nat) : Complete fin len ((List.range len).flatMap fun _ => List.range fin) := by
  intro i
  induction len with
  | zero => simp
  | succ len ih =>
    rw [List.range_succ, List.flatMap_append, List.count_append, ih]
    simp only [List.flatMap_cons, List.flatMap_nil, List.append_nil]
    by_cases h : i < fin
    · rw [List.count_eq_one_of_mem List.nodup_range (List.mem_range.2 h)]; simp [h]
    · rw [List.count_eq_zero_of_not_mem (by simpa using h)]; simp [h]

/-- Every hypothesis of C72 holds for the channels-last network with a residual connection of `Net/Examples.lean`, any number
of samples of eighteen numbers, any number of contexts with any contents, the calls interleaved layer by layer. -/
theorem C72_example (M : CMath ℚ) (xs : Nat → List ℚ) (hxs : ∀ s, (xs s).length = 18) (n B : Nat) (ctx : Nat → Buf → Nat → ℚ) :
    ∃ plan sz par w w', triTopo resNet.graph = some plan ∧ w.ctx = ctx ∧
      driver sz par (resNet.steps M plan) () B n
        (fun j => (List.range (resNet.steps M plan).length).flatMap fun _ => List.range (finBloc (B + 1) n j)) 0 w = some w' ∧
      ∀ s, s < n → ∃ y, resNet.reference M plan ⟨[18], xs s⟩ = some y ∧ ∀ k (hk : k < y.length), w'.pred s k = y[k] := by
  have hp : ∃ plan, triTopo resNet.graph = some plan ∧ plan.order = [0, 1, 2, 3, 4] := ⟨_, rfl, by decide⟩
  obtain ⟨plan, h1, h2⟩ := hp
  obtain ⟨m, hm⟩ := C52_memory_exists resNet resNet_wf.unique resNet_wf.consistent plan h1 (xs 0)
  have hi := hm.input.1
  obtain ⟨w', e1, e2, -⟩ := C72_test_run_partial resNet resNet_wf plan h1 M m.size (fun k i => m.val (.par k i)) hm.loaded n B
    (fun j => (List.range (resNet.steps M plan).length).flatMap fun _ => List.range (finBloc (B + 1) n j))
    (fun q _ => complete_rounds _ _)
    (fun s => ⟨[18], xs s⟩) ⟨ctx, fun _ _ => 0, fun s k => (xs s).getD k 0⟩
    (fun s _ => ⟨by rw [hxs, ← hxs 0]; exact hi, fun k hk => by
      show (xs s).getD k 0 = (xs s)[k]
      simp [List.getD_eq_getElem?_getD, List.getElem?_eq_getElem hk]⟩)
    (by
      intro s _ l hl r t e
      simp only [resNet, resGraph, List.mem_cons, List.not_mem_nil, or_false] at hl
      rcases hl with rfl | rfl | rfl | rfl | rfl <;> simp [resNet] at e
      rw [← e.2]; simp [Shape.size, hxs])
    (by
      intro s _ f x' _ _ i ins hr
      obtain ⟨pre, post, st, he, _⟩ := hr
      have hn : i ∈ [0, 1, 2, 3, 4] := by rw [← h2, he]; simp
      simp only [List.mem_cons, List.not_mem_nil, or_false] at hn
      rcases hn with rfl | rfl | rfl | rfl | rfl <;> trivial)
    (by
      intro _ i hn
      rw [h2] at hn
      simp at hn
      subst hn; exact .inl rfl)
  refine ⟨plan, m.size, fun k i => m.val (.par k i), _, w', h1, rfl, e1, fun s hs => ?_⟩
  obtain ⟨y, a, -, b⟩ := e2 s hs
  exact ⟨y, a, b⟩

end Verif.Net

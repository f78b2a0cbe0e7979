import Verif.Opt.Interp

/-! # Small networks, used to show that hypotheses can be met and that some cannot be dropped -/

namespace Verif.Opt
open Verif.Graph

/-- A meaning of the layers on numbers. -/
def exSem : Sem Nat Nat where
  op
    | .conv, p, xs => xs.sum + p
    | .batchNorm, p, xs => xs.sum + p
    | .multiply, _, xs => xs.prod
    | .other _, p, xs => xs.sum * 2 + p
    | _, _, xs => xs.sum
  den
    | .linear, x => x
    | .sigmoid, x => x + 1
    | .silu, x => x * (x + 1)
    | .other _, x => 3 * x
  applies
    | .input => false
    | .constant => false
    | .flatten => false
    | .softmax => false
    | _ => true

theorem exSem_ok : SemOK (· + ·) exSem := by
  refine ⟨fun _ => rfl, fun _ x => by simp [exSem], rfl, rfl, rfl, rfl, rfl, rfl, ?_, ?_, ?_⟩
  · intro pc pb xs; simp [exSem]; omega
  · intro p x; simp [exSem]
  · intro p x; simp [exSem, Nat.mul_comm]

theorem sorted_of_check {prevOf : Nat → List Nat} {l : List Nat}
    (h : ∀ j : Fin l.length, l[j] ∉ l.take j ∧ ∀ p ∈ prevOf l[j], p ∈ l.take j) : Sorted prevOf l := by
  intro pre n post he
  have hj : pre.length < l.length := by rw [he]; simp
  have := h ⟨pre.length, hj⟩
  have e1 : l[pre.length] = n := by simp [he]
  have e2 : l.take pre.length = pre := by simp [he]
  simp only [Fin.getElem_fin, e1, e2] at this
  exact this

/-- classes given by a list -/
def clsOf (l : List Cls) (i : Nat) : Cls := l.getD i (.other 0)
def fnOf (l : List Fn) (i : Nat) : Fn := l.getD i .linear

section
variable {P T : Type}

def orderlyB (net : Net P) : Bool :=
  (net.layers.all fun p => match net.next p with
    | [c] => decide (net.prev c = [p] → net.cls p ≠ .input → net.cls p ≠ .constant → net.num c = net.num p + 1)
    | _ => true) &&
  (net.layers.all fun s => !(decide (isSilu net s)) || match net.prev s, net.next s with
    | [q], [m] => decide (net.num s = net.num q + 1 ∧ net.num m = net.num q + 2 ∧
        ((net.next m).length = 1 → net.prev m = [s, q]))
    | _, _ => true) &&
  (net.layers.all fun o => decide (2 ≤ (net.next o).length → ∀ q ∈ net.layers, net.num q < net.num o →
    net.layers.idxOf q < net.layers.idxOf o))

theorem idxOf_pos {l : List Nat} {q : Nat} (h : q ∈ l) : l[l.idxOf q]? = some q := by
  rw [List.getElem?_eq_getElem (List.idxOf_lt_length_of_mem h)]
  simp

theorem orderly_of_check {net : Net P} (h : orderlyB net = true) : Orderly net := by
  unfold orderlyB at h
  simp only [Bool.and_eq_true, List.all_eq_true] at h
  obtain ⟨⟨h1, h2⟩, h3⟩ := h
  refine ⟨?_, ?_, ?_, ?_⟩
  · intro p hp c hi hn hc
    have := h1 p hp
    rw [hn] at this
    simp only [decide_eq_true_eq] at this
    exact this hc hi.1 hi.2
  · intro s hs hS q m hq hm
    have := h2 s hs
    rw [hq, hm] at this
    simp only [Bool.or_eq_true, Bool.not_eq_true', decide_eq_false_iff_not, decide_eq_true_eq] at this
    rcases this with e | e
    · exact absurd hS e
    · exact ⟨e.1, e.2.1⟩
  · intro s hs hS q m hq hm
    have := h2 s hs
    rw [hq, hm] at this
    simp only [Bool.or_eq_true, Bool.not_eq_true', decide_eq_false_iff_not, decide_eq_true_eq] at this
    rcases this with e | e
    · exact absurd hS e
    · exact e.2.2
  · intro o ho q hq hlen hlt
    have := h3 o ho
    simp only [decide_eq_true_eq] at this
    exact ⟨_, _, this hlen q hq hlt, idxOf_pos hq, idxOf_pos ho⟩

instance (S : Sem P T) (net : Net P) : Decidable (Keeps S net) := by unfold Keeps; infer_instance

/-- what a result shows -/
def Res.show (f : Net P → T) : Res P → Option T
  | .done net => some (f net)
  | _ => none

end

/-- One cell per layer: the code of a layer of the network evaluates it on the cells of its producers. -/
def cellCode (net : Net Nat) (o : Nat) (srcs : List Buf) (dst : Buf) : Prog Nat Unit := fun m =>
  Prog.store dst 0 (net.eval exSem o ((if srcs = [] then [Buf.input] else srcs).map fun b => m.val b 0)) m

theorem cellCode_ok (net : Net Nat) (x : Nat) (o : Nat) :
    CodeOK net exSem (fun y => [y]) (cellCode net) ⟨fun _ => 1, fun _ _ => x⟩ (fun _ => 1) x o := by
  intro m v hm hr hp
  have hsz : ∀ b, m.size b = 1 := fun b => by rw [hm]
  have hargs : ((if (net.prev o).map net.outS = [] then [Buf.input] else (net.prev o).map net.outS).map
      fun b => m.val b 0) = argsOf net.prev x v o := by
    unfold argsOf
    by_cases h0 : net.prev o = []
    · simp [h0, hr .input trivial]
    · rw [if_neg (by simpa using h0), if_neg h0, List.map_map]
      apply List.map_congr_left
      intro p hpm
      have := (hp p hpm).1.2 0 (by simp)
      simpa using this
  refine ⟨{ m with val := fun b' a' => if b' = Buf.out (net.path o) ∧ a' = 0 then
      (net.eval exSem o (argsOf net.prev x v o)) else m.val b' a' }, ?_, ⟨by simp [hsz], ?_⟩, rfl, ?_⟩
  · simp only [cellCode, Prog.store, hsz, hargs]
    simp
  · intro a ha; simp at ha; subst ha; simp
  · intro b hb
    simp at hb
    funext a
    simp [hb.1]

end Verif.Opt

import Verif.Props.Resize
import Mathlib.Tactic.LinearCombination

/-!
# C28: linear and cubic resize
-/

set_option linter.unusedSectionVars false

namespace Verif.Layers
open Prog
variable {K : Type} [Field K] [LinearOrder K] [IsStrictOrderedRing K] [FloorRing K]

/-! ## Linear -/

theorem clampC_eq {lo hi : K} (h : lo ≤ hi) (x : K) : clampC lo hi x = npClip lo hi x := by
  unfold clampC npClip
  by_cases h1 : x < lo
  · rw [if_pos h1, max_eq_right h1.le, min_eq_left h]
  · rw [if_neg h1]
    by_cases h2 : x > hi
    · rw [if_pos h2, max_eq_left (not_lt.1 h1), min_eq_right h2.le]
    · rw [if_neg h2, max_eq_left (not_lt.1 h1), min_eq_left (not_lt.1 h2)]

/-- the clipped coordinate is in `[0, n-1]`, so its integer part is an index -/
theorem clip_index {n : Nat} (hn : 0 < n) (x : K) : ∃ k : Nat, ⌊npClip 0 ((n : K) - 1) x⌋ = k ∧ k < n ∧
    ((k : K) ≤ npClip 0 ((n : K) - 1) x) ∧ npClip 0 ((n : K) - 1) x < k + 1 ∧
    (n ≤ k + 1 → npClip 0 ((n : K) - 1) x = k) := by
  have hn' : (1 : K) ≤ n := by exact_mod_cast hn
  have h0 : 0 ≤ npClip 0 ((n : K) - 1) x := le_min (le_max_right _ _) (by linarith)
  have h1 : npClip 0 ((n : K) - 1) x ≤ n - 1 := min_le_right _ _
  have hk : 0 ≤ ⌊npClip 0 ((n : K) - 1) x⌋ := Int.floor_nonneg.2 h0
  obtain ⟨k, hk'⟩ := Int.eq_ofNat_of_zero_le hk
  have h2 : (k : K) ≤ npClip 0 ((n : K) - 1) x := by
    have := Int.floor_le (npClip 0 ((n : K) - 1) x); rw [hk'] at this; exact_mod_cast this
  have h3 : npClip 0 ((n : K) - 1) x < k + 1 := by
    have := Int.lt_floor_add_one (npClip 0 ((n : K) - 1) x); rw [hk'] at this; exact_mod_cast this
  have h4 : (k : K) + 1 ≤ n := by linarith
  have h5 : k + 1 ≤ n := by exact_mod_cast h4
  refine ⟨k, hk', h5, h2, h3, fun h => ?_⟩
  have h6 : (n : K) ≤ k + 1 := by exact_mod_cast h
  exact le_antisymm (by linarith) h2

/-- bilinear interpolation between the pixels around the position `(x, y)`, pixels outside counting for 0 -/
def bilinear (inH inW : Nat) (g : Nat → Nat → K) (x y : K) (kx ky : Nat) : K :=
  let px (a b : Nat) : K := if a < inH ∧ b < inW then g a b else 0
  px kx ky * (kx + 1 - x) * (ky + 1 - y) + px (kx + 1) ky * (x - kx) * (ky + 1 - y) +
    px kx (ky + 1) * (kx + 1 - x) * (y - ky) + px (kx + 1) (ky + 1) * (x - kx) * (y - ky)

/-- the Python reference interpolates around the clipped coordinate -/
theorem linearForward_eq (e : K) (mode : CoordMode) (h w : RAxis K) (v : Nat → Nat → Nat → K) (f i j : Nat) {x y : K}
    (hx : coordPy e mode h i = some x) (hy : coordPy e mode w j = some y) (hh : 0 < h.inLen) (hw : 0 < w.inLen) {kx ky : Nat}
    (ex : ⌊npClip 0 ((h.inLen : K) - 1) x⌋ = kx) (ey : ⌊npClip 0 ((w.inLen : K) - 1) y⌋ = ky)
    (lx : kx < h.inLen) (ly : ky < w.inLen) :
    linearForward e mode h w v f i j =
      some (bilinear h.inLen w.inLen (v f) (npClip 0 ((h.inLen : K) - 1) x) (npClip 0 ((w.inLen : K) - 1) y) kx ky) := by
  have sx : ((kx : Int) + 1) = ((kx + 1 : Nat) : Int) := by push_cast; rfl
  have sy : ((ky : Int) + 1) = ((ky + 1 : Nat) : Int) := by push_cast; rfl
  simp only [linearForward, hx, hy, Option.bind_eq_bind, Option.bind_some, ex, ey, pyIndex_nat lx, pyIndex_nat ly,
    Option.pure_def, sx, sy, bilinear, lx, ly, true_and, and_true, if_true, and_self]
  by_cases h1 : kx + 1 < h.inLen <;> by_cases h2 : ky + 1 < w.inLen
  · have a1 : ¬ (((kx + 1 : Nat) : Int) ≥ h.inLen) := by omega
    have a2 : ¬ (((ky + 1 : Nat) : Int) ≥ w.inLen) := by omega
    simp only [a1, a2, if_false, or_self, pyIndex_nat h1, pyIndex_nat h2, Option.bind_some, h1, h2, if_true, and_self]
    push_cast; ring_nf
  · have a1 : ¬ (((kx + 1 : Nat) : Int) ≥ h.inLen) := by omega
    have a2 : (((ky + 1 : Nat) : Int) ≥ w.inLen) := by omega
    simp only [a1, a2, if_false, or_true, pyIndex_nat h1, Option.bind_some, h1, h2, if_true, and_false]
    push_cast; ring_nf
  · have a1 : (((kx + 1 : Nat) : Int) ≥ h.inLen) := by omega
    have a2 : ¬ (((ky + 1 : Nat) : Int) ≥ w.inLen) := by omega
    simp only [a1, a2, if_false, or_false, pyIndex_nat h2, Option.bind_some, h1, h2, if_true, false_and]
    push_cast; ring_nf
  · have a1 : (((kx + 1 : Nat) : Int) ≥ h.inLen) := by omega
    have a2 : (((ky + 1 : Nat) : Int) ≥ w.inLen) := by omega
    simp only [a1, a2, if_false, or_self, Option.bind_some, h1, h2, if_true, and_self]
    push_cast; ring_nf

/-- two-dimensional case of the generated code -/
theorem linear2_computes (mode : CoordMode) (C road : Nat) (h w : RAxis K) (act : K → K) (src : Buf)
    (v : Nat → Nat → Nat → K) (m : Mem K) (hs : src ≠ .temp) (hh : 0 < h.inLen) (hw : 0 < w.inLen)
    (hv : Holds m src (tensor3 C h.inLen w.inLen v)) {X Y : Nat → K} {kx ky : Nat → Nat}
    (hX : ∀ i, i < h.outLen → ∃ x, coordC mode h i = some x ∧ X i = npClip 0 ((h.inLen : K) - 1) x ∧ ⌊X i⌋ = kx i ∧ kx i < h.inLen)
    (hY : ∀ j, j < w.outLen → ∃ y, coordC mode w j = some y ∧ Y j = npClip 0 ((w.inLen : K) - 1) y ∧ ⌊Y j⌋ = ky j ∧ ky j < w.inLen)
    (hc : compiles2 mode = true)
    (ht : C * h.outLen * w.outLen ≤ m.size .temp) (ho : C * h.outLen * w.outLen ≤ m.size (.out road)) :
    ∃ code, linear2Code mode C (C * h.outLen * w.outLen) h w act src road = some code ∧
      Computes code m (.out road) (tensor3 C h.outLen w.outLen fun f i j =>
        act (bilinear h.inLen w.inLen (v f) (X i) (Y j) (kx i) (ky j))) := by
  refine ⟨_, by rw [linear2Code, if_pos hc], ?_⟩
  refine kernel3 (h := id) rfl ht ho fun f i j hf hi hj ha => ?_
  obtain ⟨x, x1, x2, x3, x4⟩ := hX i hi
  obtain ⟨y, y1, y2, y3, y4⟩ := hY j hj
  have c1 : clampC 0 ((h.inLen - 1 : Nat) : K) x = X i := by
    rw [x2, clampC_eq (by positivity), Nat.cast_sub hh, Nat.cast_one]
  have c2 : clampC 0 ((w.inLen - 1 : Nat) : K) y = Y j := by
    rw [y2, clampC_eq (by positivity), Nat.cast_sub hw, Nat.cast_one]
  have sx : ((kx i : Int) + 1) = ((kx i + 1 : Nat) : Int) := by push_cast; rfl
  have sy : ((ky j : Int) + 1) = ((ky j + 1 : Nat) : Int) := by push_cast; rfl
  refine Stores.bind (Evals.liftOpt x1) ?_
  refine Stores.bind (Evals.liftOpt y1) ?_
  dsimp only
  rw [c1, c2, x3, y3, sx, sy]
  refine Stores.bind (Evals.load3 hs hv hf x4 y4 (at3_int _ _ _ _ _)) ?_
  refine Stores.bind (Evals.ite (v := 0) (w := v f (kx i + 1) (ky j)) (fun _ => Evals.pure _ _ _) fun hn =>
    Evals.load3 hs hv hf (by omega) y4 (at3_int _ _ _ _ _)) ?_
  refine Stores.bind (Evals.ite (v := 0) (w := v f (kx i + 1) (ky j + 1)) (fun _ => Evals.pure _ _ _) fun hn =>
    Evals.load3 hs hv hf (by omega) (by omega) (at3_int _ _ _ _ _)) ?_
  refine Stores.bind (Evals.ite (v := 0) (w := v f (kx i) (ky j + 1)) (fun _ => Evals.pure _ _ _) fun hn =>
    Evals.load3 hs hv hf x4 (by omega) (at3_int _ _ _ _ _)) ?_
  refine Stores.reapply (g := act) (Stores.store rfl ha ?_) rfl rfl ha
  simp only [bilinear, x4, y4, true_and, and_true, if_true, and_self]
  by_cases h1 : kx i + 1 < h.inLen <;> by_cases h2 : ky j + 1 < w.inLen
  · have a1 : ¬ (((kx i + 1 : Nat) : Int) ≥ h.inLen) := by omega
    have a2 : ¬ (((ky j + 1 : Nat) : Int) ≥ w.inLen) := by omega
    simp only [a1, a2, if_false, or_self, h1, h2, if_true, and_self]
    push_cast; ring_nf
  · have a1 : ¬ (((kx i + 1 : Nat) : Int) ≥ h.inLen) := by omega
    have a2 : (((ky j + 1 : Nat) : Int) ≥ w.inLen) := by omega
    simp only [a1, a2, if_false, or_true, h1, h2, if_true, and_false]
    push_cast; ring_nf
  · have a1 : (((kx i + 1 : Nat) : Int) ≥ h.inLen) := by omega
    have a2 : ¬ (((ky j + 1 : Nat) : Int) ≥ w.inLen) := by omega
    simp only [a1, a2, if_false, or_false, h1, h2, if_true, false_and]
    push_cast; ring_nf
  · have a1 : (((kx i + 1 : Nat) : Int) ≥ h.inLen) := by omega
    have a2 : (((ky j + 1 : Nat) : Int) ≥ w.inLen) := by omega
    simp only [a1, a2, if_false, or_self, h1, h2, if_true, and_self]
    push_cast; ring_nf

/-- **C28, linear.** With at least two rows and columns, and a coordinate transformation computed identically by both
(half_pixel, pytorch_half_pixel, asymmetric), the generated code is C, stays in bounds, and leaves the activated value of
the Python reference. -/
theorem C28_linear_partial (mode : CoordMode) (C road : Nat) (h w : RAxis K) (act : K → K) (e : K) (src : Buf)
    (v : Nat → Nat → Nat → K) (m : Mem K) (hs : src ≠ .temp) (hm : exactMode mode) (hh : 1 < h.inLen) (hw : 1 < w.inLen)
    (hv : Holds m src (tensor3 C h.inLen w.inLen v))
    (ht : C * h.outLen * w.outLen ≤ m.size .temp) (ho : C * h.outLen * w.outLen ≤ m.size (.out road)) :
    ∃ (code : Prog K Unit) (r : Nat → Nat → Nat → K),
      linearCode mode C (C * h.outLen * w.outLen) h w act src road = some code ∧
      (∀ f i j, f < C → i < h.outLen → j < w.outLen → linearForward e mode h w v f i j = some (r f i j)) ∧
      Computes code m (.out road) (tensor3 C h.outLen w.outLen fun f i j => act (r f i j)) := by
  have hx := fun i => coord_exact hm e h i
  have hy := fun j => coord_exact hm e w j
  choose x x1 x2 using hx
  choose y y1 y2 using hy
  have ix := fun i => clip_index (n := h.inLen) (by omega) (x i)
  have iy := fun j => clip_index (n := w.inLen) (by omega) (y j)
  choose kx kx1 kx2 _ using ix
  choose ky ky1 ky2 _ using iy
  obtain ⟨code, hcode, hcomp⟩ := linear2_computes mode C road h w act src v m hs (by omega) (by omega) hv
    (X := fun i => npClip 0 ((h.inLen : K) - 1) (x i)) (Y := fun j => npClip 0 ((w.inLen : K) - 1) (y j)) (kx := kx) (ky := ky)
    (fun i _ => ⟨x i, x1 i, rfl, kx1 i, kx2 i⟩) (fun j _ => ⟨y j, y1 j, rfl, ky1 j, ky2 j⟩) hm.compiles.2 ht ho
  refine ⟨code, fun f i j => bilinear h.inLen w.inLen (v f) _ _ (kx i) (ky j), ?_, ?_, hcomp⟩
  · rw [linearCode, if_neg (by omega), if_neg (by omega), if_pos ⟨hh, hw⟩]; exact hcode
  · intro f i j _ _ _
    exact linearForward_eq e mode h w v f i j (x2 i) (y2 j) (by omega) (by omega) (kx1 i) (ky1 j) (kx2 i) (ky2 j)

/-- **C28, constant images.** The linear reference preserves constant images, whatever the coordinates. -/
theorem C28_linear_constant (e : K) (mode : CoordMode) (h w : RAxis K) (c : K) (f i j : Nat) {x y : K}
    (hx : coordPy e mode h i = some x) (hy : coordPy e mode w j = some y) (hh : 0 < h.inLen) (hw : 0 < w.inLen) :
    linearForward e mode h w (fun _ _ _ => c) f i j = some c := by
  obtain ⟨kx, e1, l1, _, _, b1⟩ := clip_index hh x
  obtain ⟨ky, e2, l2, _, _, b2⟩ := clip_index hw y
  rw [linearForward_eq e mode h w _ f i j hx hy hh hw e1 e2 l1 l2]
  congr 1
  simp only [bilinear, l1, l2, true_and, and_true, if_true]
  generalize npClip 0 ((h.inLen : K) - 1) x = X at *
  generalize npClip 0 ((w.inLen : K) - 1) y = Y at *
  by_cases h1 : kx + 1 < h.inLen <;> by_cases h2 : ky + 1 < w.inLen
  · simp only [h1, h2, if_true, and_self]; ring
  · have := b2 (by omega); subst this
    simp only [h1, h2, if_true, and_false, if_false]; ring
  · have := b1 (by omega); subst this
    simp only [h1, h2, if_true, false_and, if_false]; ring
  · have := b1 (by omega); subst this
    have := b2 (by omega); subst this
    simp only [h1, h2, if_false, and_self]; ring

end Verif.Layers

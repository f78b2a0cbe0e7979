import Verif.Layers.Resize
import Verif.Props.Move
import Mathlib.Tactic.Linarith
import Mathlib.Tactic.Ring
import Mathlib.Tactic.Positivity

/-!
# C27 and C28: resize layers
-/

set_option linter.unusedSectionVars false

namespace Verif.Layers
open Prog
variable {K : Type} [Field K] [LinearOrder K] [IsStrictOrderedRing K] [FloorRing K]

theorem Evals.liftOpt {α β : Type} {b : Buf} {m : Mem α} {o : Option β} {v : β} (h : o = some v) :
    Evals b m (liftOpt o) v := fun u => by subst h; rfl

/-- the modes in which the C text and the Python reference compute the same coordinate -/
def exactMode (mode : CoordMode) : Prop :=
  mode = .halfPixel ∨ mode = .pytorchHalfPixel ∨ mode = .asymmetric

theorem coord_exact {mode : CoordMode} (hm : exactMode mode) (e : K) (a : RAxis K) (c : Nat) :
    ∃ x, coordC mode a c = some x ∧ coordPy e mode a c = some x := by
  rcases hm with rfl | rfl | rfl
  · exact ⟨_, rfl, rfl⟩
  · by_cases h : a.outLen > 1
    · exact ⟨_, if_pos h, if_pos h⟩
    · exact ⟨_, if_neg h, if_neg h⟩
  · exact ⟨_, rfl, rfl⟩

theorem exactMode.compiles {mode : CoordMode} (hm : exactMode mode) :
    compiles1 mode = true ∧ compiles2 mode = true := by
  rcases hm with rfl | rfl | rfl <;> exact ⟨rfl, rfl⟩

theorem pyIndex_nat {n k : Nat} (h : k < n) : pyIndex n (k : Int) = some k := by
  simp [pyIndex, h]

/-! ## C27 Nearest -/

/-- The combinations for which every index is inside the input. -/
def nearestOK (mode : CoordMode) (nm : NearestMode) (h w : RAxis K) : Prop :=
  match mode with
  | .halfPixel | .pytorchHalfPixel => nm = .roundPreferFloor ∨ nm = .roundPreferCeil
  | .asymmetric => nm = .floor
  | .alignCorners => nm = .floor ∧ 1 < h.outLen ∧ 1 < w.outLen
  | _ => False

/-- A rounding mode picks an integer at distance at most 1/2. -/
theorem C27_round_nearest (nm : NearestMode) (hn : nm = .roundPreferFloor ∨ nm = .roundPreferCeil) (x : K) :
    |(nm.round x : K) - x| ≤ 1 / 2 := by
  rcases hn with rfl | rfl
  · simp only [NearestMode.round]
    obtain ⟨z, hz⟩ : ∃ z : Int, ⌈2 * x⌉ = z := ⟨_, rfl⟩
    rw [hz]
    have h1 : (z : K) - 1 < 2 * x := by have := Int.ceil_lt_add_one (2 * x); rw [hz] at this; linarith
    have h2 : 2 * x ≤ z := by have := Int.le_ceil (2 * x); rwa [hz] at this
    obtain ⟨q, hq⟩ : ∃ q : Int, q = ⌊(z : K) / 2⌋ := ⟨_, rfl⟩
    rw [← hq]
    have h3 : (q : K) ≤ z / 2 := by rw [hq]; exact Int.floor_le _
    have h4 : (z : K) / 2 < q + 1 := by rw [hq]; exact Int.lt_floor_add_one _
    have h5 : 2 * q ≤ z := by
      have : (2 * q : K) ≤ z := by linarith
      exact_mod_cast this
    have h6 : z < 2 * q + 2 := by
      have : (z : K) < 2 * q + 2 := by linarith
      exact_mod_cast this
    have h7 : z = 2 * q ∨ z = 2 * q + 1 := by omega
    rw [abs_le]
    rcases h7 with h7 | h7
    · have : (z : K) = 2 * q := by exact_mod_cast h7
      constructor <;> linarith
    · have : (z : K) = 2 * q + 1 := by exact_mod_cast h7
      constructor <;> linarith
  · simp only [NearestMode.round]
    obtain ⟨z, hz⟩ : ∃ z : Int, ⌊2 * x⌋ = z := ⟨_, rfl⟩
    rw [hz]
    have h1 : 2 * x < (z : K) + 1 := by have := Int.lt_floor_add_one (2 * x); rwa [hz] at this
    have h2 : (z : K) ≤ 2 * x := by have := Int.floor_le (2 * x); rwa [hz] at this
    obtain ⟨q, hq⟩ : ∃ q : Int, q = ⌈(z : K) / 2⌉ := ⟨_, rfl⟩
    rw [← hq]
    have h3 : (z : K) / 2 ≤ q := by rw [hq]; exact Int.le_ceil _
    have h4 : (q : K) < z / 2 + 1 := by rw [hq]; exact Int.ceil_lt_add_one _
    have h5 : z ≤ 2 * q := by
      have : (z : K) ≤ 2 * q := by linarith
      exact_mod_cast this
    have h6 : 2 * q < z + 2 := by
      have : (2 * q : K) < z + 2 := by linarith
      exact_mod_cast this
    have h7 : z = 2 * q ∨ z = 2 * q - 1 := by omega
    rw [abs_le]
    rcases h7 with h7 | h7
    · have : (z : K) = 2 * q := by exact_mod_cast h7
      constructor <;> linarith
    · have : (z : K) = 2 * q - 1 := by exact_mod_cast h7
      constructor <;> linarith

/-- the half-pixel coordinate is inside the input extended by half a pixel -/
theorem halfPixel_range {a : RAxis K} (ha : a.Accepted) {c : Nat} (hc : c < a.outLen) :
    -(1 / 2 : K) < (c + 1 / 2) / a.scale - 1 / 2 ∧ ((c : K) + 1 / 2) / a.scale - 1 / 2 < a.inLen - 1 / 2 := by
  obtain ⟨hs, ho⟩ := ha
  have h1 : (a.outLen : K) ≤ a.inLen * a.scale := by
    have := Int.floor_le ((a.inLen : K) * a.scale)
    rw [← ho] at this; exact_mod_cast this
  have h2 : ((c : K) + 1) ≤ a.outLen := by exact_mod_cast hc
  constructor
  · have : 0 < ((c : K) + 1 / 2) / a.scale := by positivity
    linarith
  · have : ((c : K) + 1 / 2) / a.scale < a.inLen := by
      rw [div_lt_iff₀ hs]; linarith
    linarith

theorem round_range {nm : NearestMode} (hn : nm = .roundPreferFloor ∨ nm = .roundPreferCeil) {x : K} {n : Nat}
    (h1 : -(1 / 2) < x) (h2 : x < n - 1 / 2) : 0 ≤ nm.round x ∧ nm.round x < n := by
  have h := abs_le.1 (C27_round_nearest nm hn x)
  constructor
  · have : (-1 : K) < nm.round x := by linarith [h.1]
    have : (-1 : Int) < nm.round x := by exact_mod_cast this
    omega
  · have : (nm.round x : K) < n := by linarith [h.2]
    exact_mod_cast this

/-- **Bounds.** For the combinations of `nearestOK`, the C code and the reference pick the same index, inside the
input. -/
theorem nearest_index {mode : CoordMode} {nm : NearestMode} {h w : RAxis K} (hok : nearestOK mode nm h w) (e : K)
    (a : RAxis K) (haw : a = h ∨ a = w) (ha : a.Accepted) {c : Nat} (hc : c < a.outLen) :
    ∃ x x', ∃ k : Nat, coordC mode a c = some x ∧ coordPy e mode a c = some x' ∧ nm.round x = k ∧ nm.round x' = k ∧
      k < a.inLen := by
  have fin : ∀ x : K, coordC mode a c = some x → coordPy e mode a c = some x → 0 ≤ nm.round x → nm.round x < a.inLen →
      ∃ x x', ∃ k : Nat, coordC mode a c = some x ∧ coordPy e mode a c = some x' ∧ nm.round x = k ∧ nm.round x' = k ∧
      k < a.inLen := by
    intro x h1 h2 h3 h4
    exact ⟨x, x, (nm.round x).toNat, h1, h2, (Int.toNat_of_nonneg h3).symm, (Int.toNat_of_nonneg h3).symm, by omega⟩
  have hs := ha.1
  have hfl : (a.outLen : K) ≤ a.inLen * a.scale := by
    have := Int.floor_le ((a.inLen : K) * a.scale)
    rw [← ha.2] at this; exact_mod_cast this
  have hc1 : ((c : K) + 1) ≤ a.outLen := by exact_mod_cast hc
  cases mode with
  | halfPixel =>
    obtain ⟨r1, r2⟩ := round_range hok (halfPixel_range ha hc).1 (halfPixel_range ha hc).2
    exact fin _ rfl rfl r1 r2
  | pytorchHalfPixel =>
    by_cases h1 : a.outLen > 1
    · obtain ⟨r1, r2⟩ := round_range hok (halfPixel_range ha hc).1 (halfPixel_range ha hc).2
      exact fin _ (by simp only [coordC, h1, if_true]) (by simp only [coordPy, h1, if_true]) r1 r2
    · have hp : 0 < a.inLen := by
        rcases Nat.eq_zero_or_pos a.inLen with h0 | h0
        · rw [h0] at hfl; simp at hfl; omega
        · exact h0
      have hp' : (1 : K) ≤ a.inLen := by exact_mod_cast hp
      obtain ⟨r1, r2⟩ := round_range (nm := nm) hok (x := (0 : K)) (n := a.inLen) (by norm_num) (by linarith)
      exact fin _ (by simp only [coordC, h1, if_false]) (by simp only [coordPy, h1, if_false]) r1 r2
  | asymmetric =>
    have hn : nm = .floor := hok
    subst hn
    refine fin _ rfl rfl ?_ ?_
    · simp only [NearestMode.round]; exact Int.floor_nonneg.2 (by positivity)
    · simp only [NearestMode.round]
      rw [Int.floor_lt, div_lt_iff₀ hs]
      simp only [Int.cast_natCast]
      linarith
  | alignCorners =>
    obtain ⟨rfl, h1, h2⟩ := hok
    have ho : 1 < a.outLen := by rcases haw with rfl | rfl <;> assumption
    have hp : 0 < a.inLen := by
      rcases Nat.eq_zero_or_pos a.inLen with h0 | h0
      · rw [h0] at hfl; simp at hfl; omega
      · exact h0
    have hne : a.outLen - 1 ≠ 0 := by omega
    have e1 : ((a.outLen : K) - 1) = ((a.outLen - 1 : Nat) : K) := by
      rw [Nat.cast_sub (by omega)]; simp
    have e2 : ((a.inLen : K) - 1) = ((a.inLen - 1 : Nat) : K) := by
      rw [Nat.cast_sub (by omega)]; simp
    have hne' : ((a.outLen : K) - 1) ≠ 0 := by rw [e1]; exact_mod_cast hne
    refine ⟨_, _, c * (a.inLen - 1) / (a.outLen - 1), by simp only [coordC, hne, if_false]; rfl,
      by simp only [coordPy, hne', if_false]; rfl, ?_, ?_, ?_⟩
    · simp [NearestMode.round]
    · simp only [NearestMode.round]
      rw [e1, e2, ← Nat.cast_mul, Int.floor_div_natCast, Int.floor_natCast]; rfl
    · calc c * (a.inLen - 1) / (a.outLen - 1) ≤ (a.outLen - 1) * (a.inLen - 1) / (a.outLen - 1) :=
            Nat.div_le_div_right (Nat.mul_le_mul_right _ (by omega))
        _ = a.inLen - 1 := Nat.mul_div_cancel_left _ (by omega)
        _ < a.inLen := by omega
  | halfPixelSymmetric => exact absurd hok (by simp [nearestOK])
  | tfCropAndResize => exact absurd hok (by simp [nearestOK])


theorem at3_int (H W f i j : Nat) : ((j : Int) + W * (i + H * f)) = (at3 H W f i j : Int) := by
  unfold at3; push_cast; ring

/-- **C27.** For every accepted size and scale and the combinations of coordinate transformation and nearest mode in
`nearestOK`, the generated code is C, never reads outside its input, and leaves at `(f, i, j)` the activated element that
the Python reference returns there, which is an element of the input. -/
theorem C27_nearest_partial (mode : CoordMode) (nm : NearestMode) (C road : Nat) (h w : RAxis K) (act : K → K) (e : K)
    (src : Buf) (v : Nat → Nat → Nat → K) (m : Mem K) (hs : src ≠ .temp) (hok : nearestOK mode nm h w)
    (hh : h.Accepted) (hw : w.Accepted) (hv : Holds m src (tensor3 C h.inLen w.inLen v))
    (ht : C * h.outLen * w.outLen ≤ m.size .temp) (ho : C * h.outLen * w.outLen ≤ m.size (.out road)) :
    ∃ (code : Prog K Unit) (r : Nat → Nat → Nat → K), nearestCode mode nm C (C * h.outLen * w.outLen) h w act src road = some code ∧
      (∀ f i j, f < C → i < h.outLen → j < w.outLen → nearestForward e mode nm h w v f i j = some (r f i j)) ∧
      (∀ f i j, f < C → i < h.outLen → j < w.outLen → ∃ a b, a < h.inLen ∧ b < w.inLen ∧ r f i j = v f a b) ∧
      Computes code m (.out road) (tensor3 C h.outLen w.outLen fun f i j => act (r f i j)) := by
  have hc : compiles2 mode = true := by
    cases mode <;> first | rfl | exact absurd hok (by simp [nearestOK])
  have ix : ∀ i, i < h.outLen → _ := fun i hi => nearest_index hok e h (Or.inl rfl) hh hi
  have iy : ∀ j, j < w.outLen → _ := fun j hj => nearest_index hok e w (Or.inr rfl) hw hj
  choose! cx px kx hx using ix
  choose! cy py ky hy using iy
  refine ⟨_, fun f i j => v f (kx i) (ky j), by rw [nearestCode, if_pos hc], ?_, ?_, ?_⟩
  · intro f i j _ hi hj
    obtain ⟨_, x2, _, x4, x5⟩ := hx i hi
    obtain ⟨_, y2, _, y4, y5⟩ := hy j hj
    simp only [nearestForward, x2, y2, Option.bind_eq_bind, Option.bind_some, x4, y4, pyIndex_nat x5, pyIndex_nat y5]
    rfl
  · intro f i j _ hi hj
    exact ⟨kx i, ky j, (hx i hi).2.2.2.2, (hy j hj).2.2.2.2, rfl⟩
  · refine kernel3 (h := id) rfl ht ho fun f i j hf hi hj ha => ?_
    obtain ⟨x1, _, x3, _, x5⟩ := hx i hi
    obtain ⟨y1, _, y3, _, y5⟩ := hy j hj
    refine Stores.bind (Evals.liftOpt x1) ?_
    refine Stores.bind (Evals.liftOpt y1) ?_
    dsimp only
    rw [x3, y3]
    exact Stores.bind (Evals.load3 hs hv hf x5 y5 (at3_int _ _ _ _ _)) (Stores.store rfl ha rfl)

/-- hypotheses met: doubling a `1 × 2 × 3` image with the default modes -/
example : nearestOK (K := ℚ) .halfPixel .roundPreferFloor ⟨2, 4, 2, 0, 0⟩ ⟨3, 6, 2, 0, 0⟩ ∧
    (⟨2, 4, 2, 0, 0⟩ : RAxis ℚ).Accepted ∧ (⟨3, 6, 2, 0, 0⟩ : RAxis ℚ).Accepted := by
  refine ⟨Or.inl rfl, ⟨by norm_num, ?_⟩, ⟨by norm_num, ?_⟩⟩ <;> · symm; rw [Int.floor_eq_iff]; norm_num

/-- Outside `nearestOK`: half_pixel with floor reads before the input when an image is enlarged, though the constructor
accepts it; the reference silently takes the last row. -/
theorem C27_fails_floor : (⟨2, 4, 2, 0, 0⟩ : RAxis ℚ).Accepted ∧
    (∀ (m : Mem ℚ) (act : ℚ → ℚ), ∃ code,
      nearestCode .halfPixel .floor 1 4 ⟨1, 1, 1, 0, 0⟩ ⟨2, 4, 2, 0, 0⟩ act (.out 0) 1 = some code ∧ code m = none) ∧
    nearestForward (K := ℚ) 0 .halfPixel .floor ⟨1, 1, 1, 0, 0⟩ ⟨2, 4, 2, 0, 0⟩ (fun _ _ b => b) 0 0 0 = some 1 := by
  have fl1 : ⌊((0 : ℚ) + 1 / 2) / 1 - 1 / 2⌋ = 0 := by rw [Int.floor_eq_iff]; norm_num
  have fl2 : ⌊((0 : ℚ) + 1 / 2) / 2 - 1 / 2⌋ = -1 := by rw [Int.floor_eq_iff]; norm_num
  refine ⟨⟨by norm_num, by symm; rw [Int.floor_eq_iff]; norm_num⟩, ?_, ?_⟩
  · intro m act
    refine ⟨_, rfl, ?_⟩
    refine andThen_none ?_
    simp only [loop3, forN, foldN, andThen, ret, liftOpt, coordC, Option.map_some, bind_eq, NearestMode.round, Nat.cast_zero,
      fl1, fl2]
    rw [load_oob (by left; norm_num)]
  · simp only [nearestForward, coordPy, Option.bind_eq_bind, Option.bind_some, NearestMode.round, Nat.cast_zero, fl1, fl2]
    simp [pyIndex]

/-- align_corners with a rounding mode: C divides integers, the reference does not. -/
theorem C27_fails_align_corners : (⟨2, 3, 3 / 2, 0, 0⟩ : RAxis ℚ).Accepted ∧
    coordC (K := ℚ) .alignCorners ⟨2, 3, 3 / 2, 0, 0⟩ 1 = some 0 ∧
    coordPy (K := ℚ) 0 .alignCorners ⟨2, 3, 3 / 2, 0, 0⟩ 1 = some (1 / 2) ∧
    NearestMode.roundPreferCeil.round (0 : ℚ) = 0 ∧ NearestMode.roundPreferCeil.round (1 / 2 : ℚ) = 1 := by
  refine ⟨⟨by norm_num, by symm; rw [Int.floor_eq_iff]; norm_num⟩, ?_, ?_, ?_, ?_⟩
  · simp [coordC]
  · simp only [coordPy]; norm_num
  · simp [NearestMode.round]
  · simp only [NearestMode.round]
    have : ⌊(2 * (1 / 2) : ℚ)⌋ = 1 := by norm_num
    rw [this, Int.ceil_eq_iff]; norm_num

/-- asymmetric with ceil picks a row after the last one: `IndexError` in the reference, out-of-bounds read in C. -/
theorem C27_fails_asymmetric : (⟨2, 3, 3 / 2, 0, 0⟩ : RAxis ℚ).Accepted ∧
    coordC (K := ℚ) .asymmetric ⟨2, 3, 3 / 2, 0, 0⟩ 2 = some (4 / 3) ∧ NearestMode.ceil.round (4 / 3 : ℚ) = 2 ∧
    pyIndex 2 2 = none := by
  refine ⟨⟨by norm_num, by symm; rw [Int.floor_eq_iff]; norm_num⟩, ?_, ?_, by simp [pyIndex]⟩
  · simp only [coordC]; norm_num
  · simp only [NearestMode.round]; rw [Int.ceil_eq_iff]; norm_num

/-- half_pixel_symmetric and tf_crop_and_resize are accepted by the constructor but the text generated for them is not C
(a variable declared twice in a block; a malformed `if`). -/
theorem C27_fails_not_C (nm : NearestMode) (C size : Nat) (h w : RAxis K) (act : K → K) (src : Buf) (road : Nat) :
    nearestCode .halfPixelSymmetric nm C size h w act src road = none ∧
    nearestCode .tfCropAndResize nm C size h w act src road = none := ⟨rfl, rfl⟩

end Verif.Layers

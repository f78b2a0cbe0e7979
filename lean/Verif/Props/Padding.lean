import Verif.Gen.Padding
import Verif.Props.Conv
import Mathlib.Tactic.Ring
import Mathlib.Tactic.Linarith

/-!
# C31: 'same' and 'valid' padding
-/

namespace Verif.Gen

/-- `⌈a / b⌉` for a positive divisor, specified by its defining inequalities -/
def IsCeilDiv (a b q : Int) : Prop := a ≤ q * b ∧ (q - 1) * b < a

theorem IsCeilDiv.unique {a b q q' : Int} (hb : 0 < b) (h : IsCeilDiv a b q) (h' : IsCeilDiv a b q') : q = q' := by
  obtain ⟨h1, h2⟩ := h
  obtain ⟨h3, h4⟩ := h'
  by_contra hne
  rcases lt_or_gt_of_ne hne with h | h
  · have : q * b ≤ (q' - 1) * b := mul_le_mul_of_nonneg_right (by omega) (by omega)
    omega
  · have : q' * b ≤ (q - 1) * b := mul_le_mul_of_nonneg_right (by omega) (by omega)
    omega

/-- one axis: with `p` cells of padding in total the number of windows is the ceiling -/
theorem padAlong_ceil {size k s p : Int} (hs : 0 < s) (hk : 0 < k) (h : padAlong size k s 1 = some p) :
    0 ≤ p ∧ IsCeilDiv size s ((size + p - k).fdiv s + 1) := by
  unfold padAlong at h
  rw [if_neg (by omega)] at h
  have hfil : k - (k - 1) * (1 - 1) = k := by ring
  rw [hfil, Int.fmod_eq_emod_of_nonneg _ (by omega)] at h
  rw [Int.fdiv_eq_ediv_of_nonneg _ (by omega)]
  have e1 := Int.emod_add_mul_ediv size s
  have e2 := Int.emod_nonneg size (by omega : s ≠ 0)
  have e3 := Int.emod_lt_of_pos size hs
  generalize size % s = r at *
  generalize size / s = q at *
  have hs2 : ∀ t, 0 ≤ t → t < s → ∀ z, (t + z * s) / s = z := by
    intro t h0 h1 z
    rw [Int.add_mul_ediv_right _ _ (by omega), Int.ediv_eq_zero_of_lt h0 h1, Int.zero_add]
  split at h
  · next h0 =>
    obtain rfl := (Option.some.inj h)
    subst h0
    refine ⟨by omega, ?_⟩
    have : (size + max (k - s) 0 - k) / s = q - 1 := by
      rcases Int.le_total (k - s) 0 with hle | hle
      · rw [max_eq_right hle, ← hs2 (s - k) (by omega) (by omega) (q - 1)]
        congr 1; rw [← e1]; ring
      · rw [max_eq_left hle, ← hs2 0 (by omega) (by omega) (q - 1)]
        congr 1; rw [← e1]; ring
    rw [this]
    constructor
    · rw [← e1]; apply le_of_eq; ring
    · rw [← e1]
      have : (q - 1 + 1 - 1) * s = s * q - s := by ring
      omega
  · next h0 =>
    obtain rfl := (Option.some.inj h)
    refine ⟨by omega, ?_⟩
    have : (size + max (k - r) 0 - k) / s = q := by
      rcases Int.le_total (k - r) 0 with hle | hle
      · rw [max_eq_right hle, ← hs2 (r - k) (by omega) (by omega) q]
        congr 1; rw [← e1]; ring
      · rw [max_eq_left hle, ← hs2 0 (by omega) (by omega) q]
        congr 1; rw [← e1]; ring
    rw [this]
    constructor
    · have : (q + 1) * s = s * q + s := by ring
      omega
    · have : (q + 1 - 1) * s = s * q := by ring
      omega

theorem padAlong_some {size k s d : Int} (hs : 0 < s) : ∃ p, padAlong size k s d = some p := by
  unfold padAlong
  rw [if_neg (by omega)]
  split <;> exact ⟨_, rfl⟩

/-- **C31.** With 'same' / SAME_UPPER (`lower = false`) or SAME_LOWER (`lower = true`) and no dilation, the pads are
non-negative, the two pads of an axis differ by at most one, the larger one being after the data (before it for
SAME_LOWER), and the layer's output size is `⌈input / stride⌉` on both axes.  Missing for the full claim: dilation,
where it fails (`C31_fails_dilation`). -/
theorem C31_same_partial (s : String) (inH inW kh kw st : Int) (hst : 0 < st) (hkh : 0 < kh) (hkw : 0 < kw)
    (hs : s = "same" ∨ s = "SAME_UPPER" ∨ s = "SAME_LOWER") :
    ∃ p, computePadding (.str s) inH inW kh kw st = some p ∧
      0 ≤ p.top ∧ 0 ≤ p.bottom ∧ 0 ≤ p.left ∧ 0 ≤ p.right ∧
      (if s = "SAME_LOWER" then (p.top = p.bottom ∨ p.top = p.bottom + 1) ∧ (p.left = p.right ∨ p.left = p.right + 1)
        else (p.bottom = p.top ∨ p.bottom = p.top + 1) ∧ (p.right = p.left ∨ p.right = p.left + 1)) ∧
      IsCeilDiv inH st (outSize inH p.top p.bottom kh st 1) ∧ IsCeilDiv inW st (outSize inW p.left p.right kw st 1) := by
  obtain ⟨ph, hph⟩ := padAlong_some (size := inH) (k := kh) (d := 1) hst
  obtain ⟨pw, hpw⟩ := padAlong_some (size := inW) (k := kw) (d := 1) hst
  obtain ⟨h1, h2⟩ := padAlong_ceil hst hkh hph
  obtain ⟨w1, w2⟩ := padAlong_ceil hst hkw hpw
  have half : ∀ p : Int, p.fdiv 2 = p / 2 := fun p => Int.fdiv_eq_ediv_of_nonneg _ (by omega)
  have hout : ∀ size a b k p : Int, a + b = p → outSize size a b k st 1 = (size + p - k).fdiv st + 1 := by
    intro size a b k p e
    unfold outSize
    rw [← e]; congr 2; ring
  rcases hs with rfl | rfl | rfl
  all_goals
    simp only [computePadding, hph, hpw, half]
    simp
    refine ⟨by omega, by omega, by omega, by omega, ⟨by omega, by omega⟩, ?_, ?_⟩
    · rw [hout inH _ _ kh ph (by ring)]; exact h2
    · rw [hout inW _ _ kw pw (by ring)]; exact w2

/-- 'valid' gives no padding whatever the other arguments. -/
theorem C31_valid (s : String) (inH inW kh kw st d : Int) (hs : s = "valid" ∨ s = "VALID") :
    computePadding (.str s) inH inW kh kw st d = some ⟨0, 0, 0, 0⟩ := by
  rcases hs with rfl | rfl <;> simp [computePadding]

/-- An explicit list `[top, left, bottom, right]` (the ONNX order) is used as it is. -/
theorem C31_list (t l b r inH inW kh kw st d : Int) :
    ∃ p, computePadding (.list [t, l, b, r]) inH inW kh kw st d = some p ∧
      p.top = t ∧ p.left = l ∧ p.bottom = b ∧ p.right = r := ⟨⟨r, l, b, t⟩, rfl, rfl, rfl, rfl, rfl⟩

/-- Consequence for convolutions: a layer imported with 'same' padding and output shape `⌈in / stride⌉` passes the
constructor's checks, and no other output shape does. -/
theorem C31_conv_accepted (s : String) (hs : s = "same" ∨ s = "SAME_UPPER" ∨ s = "SAME_LOWER")
    (filters inC inH inW outH outW kh kw st : Nat) (hst : 0 < st) (hkh : 0 < kh) (hkw : 0 < kw) :
    ∃ p, computePadding (.str s) inH inW kh kw st = some p ∧
      ((Layers.ConvP.Accepted ⟨filters, inC, inH, inW, outH, outW, kh, kw, st, 1, p.top.toNat, p.bottom.toNat,
        p.left.toNat, p.right.toNat⟩) ↔ IsCeilDiv inH st outH ∧ IsCeilDiv inW st outW) := by
  obtain ⟨p, e, ht, hb, hl, hr, -, h1, h2⟩ := C31_same_partial s inH inW kh kw st (by omega) (by omega) (by omega) hs
  refine ⟨p, e, ?_⟩
  unfold Layers.ConvP.Accepted
  dsimp only
  rw [Int.toNat_of_nonneg ht, Int.toNat_of_nonneg hb, Int.toNat_of_nonneg hl, Int.toNat_of_nonneg hr]
  have e1 : Int.fdiv ((inH : Int) + p.bottom + p.top - kh - ((kh : Int) - 1) * (((1 : Nat) : Int) - 1)) st + 1 =
      outSize inH p.top p.bottom kh st 1 := rfl
  have e2 : Int.fdiv ((inW : Int) + p.left + p.right - kw - ((kw : Int) - 1) * (((1 : Nat) : Int) - 1)) st + 1 =
      outSize inW p.left p.right kw st 1 := by unfold outSize; congr 2; push_cast; ring
  rw [e1, e2]
  have hst' : (0 : Int) < st := by omega
  constructor
  · rintro ⟨-, -, -, -, a, b⟩
    rw [a, b]; exact ⟨h1, h2⟩
  · rintro ⟨a, b⟩
    exact ⟨hst, by omega, hkh, hkw, a.unique hst' h1, b.unique hst' h2⟩

/-- hypotheses met: a 5×8 input, 3×3 kernel, stride 2 gives 3×4 outputs with pads 1,1 and 0,1 -/
example : computePadding (.str "same") 5 8 3 3 2 = some ⟨1, 0, 1, 1⟩ ∧ outSize 5 1 1 3 2 1 = 3 ∧ outSize 8 0 1 3 2 1 = 4 := by
  decide

/-- The claim with dilation. -/
def C31_statement : Prop := ∀ (inH inW kh kw st d : Int), 0 < st → 0 < kh → 0 < kw → 0 < d →
  ∀ p, computePadding (.str "same") inH inW kh kw st d = some p →
    IsCeilDiv inH st (outSize inH p.top p.bottom kh st d) ∧ IsCeilDiv inW st (outSize inW p.left p.right kw st d)

/-- It fails: the dilated kernel is computed with the wrong sign, so a 3×3 kernel of dilation 2 on an 8×8 input gets no
padding and the layer expects 4×4 outputs. -/
theorem C31_fails_dilation : ¬ C31_statement := by
  intro h
  have := (h 8 8 3 3 1 2 (by decide) (by decide) (by decide) (by decide) ⟨0, 0, 0, 0⟩ (by decide)).1
  unfold IsCeilDiv at this
  revert this
  decide

/-- The consequence: the layer with the output shape the model declares (8×8) is rejected. -/
theorem C31_fails_dilated_conv_rejected (filters inC : Nat) :
    computePadding (.str "same") 8 8 3 3 1 2 = some ⟨0, 0, 0, 0⟩ ∧
    ¬ Layers.ConvP.Accepted ⟨filters, inC, 8, 8, 8, 8, 3, 3, 1, 2, 0, 0, 0, 0⟩ := by
  refine ⟨by decide, ?_⟩
  rintro ⟨-, -, -, -, a, -⟩
  dsimp only at a
  revert a
  decide

/-- A string that is none of the five accepted ones is silently read as no padding. -/
theorem C31_other_string (s : String) (inH inW kh kw st d : Int) (hst : 0 < st)
    (hs : s ≠ "same" ∧ s ≠ "SAME_UPPER" ∧ s ≠ "SAME_LOWER") :
    computePadding (.str s) inH inW kh kw st d = some ⟨0, 0, 0, 0⟩ := by
  obtain ⟨ph, hph⟩ := padAlong_some (size := inH) (k := kh) (d := d) hst
  obtain ⟨pw, hpw⟩ := padAlong_some (size := inW) (k := kw) (d := d) hst
  unfold computePadding
  split
  · rename_i s' heq
    cases heq
    split
    · rfl
    · rw [hph, hpw]
      simp [hs]
  · cases ‹_›

end Verif.Gen

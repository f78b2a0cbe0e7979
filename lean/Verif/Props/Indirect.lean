import Verif.Layers.Indirect
import Verif.Props.Conv
import Mathlib.Order.Monotone.Basic
import Mathlib.Data.List.Perm.Basic
import Mathlib.Data.List.Nodup
import Mathlib.Tactic.Ring

/-!
# C76: the table of patches of the indirect gemm
-/

namespace Verif.Layers

/-- Specification: what the table points to for tap `(kh, kw)` of channel `ch` and pixel `(oh, ow)` of the output: the element of the image in C order, or nothing
where the tap falls on the padding. -/
def patchSpec (c : ConvP) : Nat × Nat × Nat × Nat × Nat → Option Nat
  | (ch, kh, kw, oh, ow) =>
    if c.padTop ≤ oh * c.stride + kh ∧ oh * c.stride + kh < c.padTop + c.inH ∧ c.padLeft ≤ ow * c.stride + kw ∧ ow * c.stride + kw < c.padLeft + c.inW then
      some ((ch * c.inH + (oh * c.stride + kh - c.padTop)) * c.inW + (ow * c.stride + kw - c.padLeft))
    else none

/-- every element of the image is in some window -/
def AllUsed (c : ConvP) : Prop :=
  (∀ i, i < c.inH → ∃ kh oh, kh < c.kh ∧ oh < c.outH ∧ oh * c.stride + kh = i + c.padTop) ∧
  ∀ j, j < c.inW → ∃ kw ow, kw < c.kw ∧ ow < c.outW ∧ ow * c.stride + kw = j + c.padLeft

/-- the windows are inside the padded image -/
def WindowsInside (c : ConvP) : Prop :=
  (∀ oh kh, oh < c.outH → kh < c.kh → oh * c.stride + kh < c.inH + c.padTop + c.padBottom) ∧
  ∀ ow kw, ow < c.outW → kw < c.kw → ow * c.stride + kw < c.inW + c.padLeft + c.padRight

theorem mem_positions (c : ConvP) (ch kh kw oh ow : Nat) :
    (ch, kh, kw, oh, ow) ∈ patchPositions c ↔ ch < c.inC ∧ kh < c.kh ∧ kw < c.kw ∧ oh < c.outH ∧ ow < c.outW := by
  simp only [patchPositions, List.mem_flatMap, List.mem_map, List.mem_range, Prod.mk.injEq]
  constructor
  · rintro ⟨a, ha, b, hb, d, hd, e, he, f, hf, rfl, rfl, rfl, rfl, rfl⟩
    exact ⟨ha, hb, hd, he, hf⟩
  · rintro ⟨ha, hb, hd, he, hf⟩
    exact ⟨_, ha, _, hb, _, hd, _, he, _, hf, rfl, rfl, rfl, rfl, rfl⟩

/-- **C76 without padding.** The table points, for every position, to the element of the image that the convolution reads there. -/
theorem C76_table_unpadded (c : ConvP) (h : c.padTop = 0 ∧ c.padBottom = 0 ∧ c.padLeft = 0 ∧ c.padRight = 0) (hin : WindowsInside c) :
    ppatches c = (patchPositions c).map (patchSpec c) := by
  obtain ⟨h1, h2, h3, h4⟩ := h
  unfold ppatches
  rw [if_neg (by omega)]
  refine List.map_congr_left fun p hp => ?_
  obtain ⟨ch, kh, kw, oh, ow⟩ := p
  obtain ⟨a1, a2, a3, a4, a5⟩ := (mem_positions ..).1 hp
  have b1 := hin.1 oh kh a4 a2
  have b2 := hin.2 ow kw a5 a3
  unfold patchSpec
  dsimp only
  rw [if_pos (by omega), h1, h3]
  congr 1
  simp only [patchIdx, Nat.sub_zero]
  ring

/-- an index in a larger image -/
def embed (n p n' : Nat) (f : Nat → Nat) (t : Nat) : Nat := t % n + p + n' * f (t / n)

theorem embed_strictMono {n p n' : Nat} (hn : 0 < n) (h : n + p ≤ n') {f : Nat → Nat} (hf : StrictMono f) : StrictMono (embed n p n' f) := by
  intro t t' ht
  unfold embed
  have m1 := Nat.mod_lt t hn
  have e1 := Nat.div_add_mod t n
  have e2 := Nat.div_add_mod t' n
  rcases Nat.lt_or_eq_of_le (Nat.div_le_div_right (c := n) ht.le) with hq | hq
  · have := hf hq
    have : n' * (f (t / n) + 1) ≤ n' * f (t' / n) := Nat.mul_le_mul_left _ this
    rw [Nat.mul_add] at this
    omega
  · rw [hq] at e1 ⊢
    omega

/-- the index in the padded image of element `t` of the image -/
def padIdx (c : ConvP) : Nat → Nat :=
  embed c.inW c.padLeft (c.inW + c.padLeft + c.padRight) (embed c.inH c.padTop (c.inH + c.padTop + c.padBottom) id)

theorem padIdx_at (c : ConvP) {ch i j : Nat} (hi : i < c.inH) (hj : j < c.inW) :
    padIdx c ((ch * c.inH + i) * c.inW + j) = (j + c.padLeft) + (c.inW + c.padLeft + c.padRight) * ((i + c.padTop) + (c.inH + c.padTop + c.padBottom) * ch) := by
  have hW : 0 < c.inW := by omega
  have hH : 0 < c.inH := by omega
  unfold padIdx embed
  have e1 : ((ch * c.inH + i) * c.inW + j) % c.inW = j := by
    rw [Nat.mul_comm, Nat.mul_add_mod, Nat.mod_eq_of_lt hj]
  have e2 : ((ch * c.inH + i) * c.inW + j) / c.inW = ch * c.inH + i := by
    rw [Nat.mul_comm, Nat.mul_add_div hW, Nat.div_eq_of_lt hj, Nat.add_zero]
  have e3 : (ch * c.inH + i) % c.inH = i := by
    rw [Nat.mul_comm, Nat.mul_add_mod, Nat.mod_eq_of_lt hi]
  have e4 : (ch * c.inH + i) / c.inH = ch := by
    rw [Nat.mul_comm, Nat.mul_add_div hH, Nat.div_eq_of_lt hi, Nat.add_zero]
  rw [e1, e2, e3, e4]
  rfl

theorem mem_padZeros (b a n i : Nat) (ha : a ≤ n) (hi : i < n) : i ∈ padZeros b a n ↔ i < b ∨ n - a ≤ i := by
  simp only [padZeros, List.mem_append, List.mem_range, List.mem_map]
  constructor
  · rintro (h | ⟨x, hx, rfl⟩)
    · exact .inl h
    · exact .inr (by omega)
  · rintro (h | h)
    · exact .inl h
    · exact .inr ⟨i - (n - a), by omega, by omega⟩

/-- positions in a `_ × hp × wp` image are determined by the index -/
theorem decode {hp wp ch i j ch' i' j' : Nat} (hi : i < hp) (hj : j < wp) (hi' : i' < hp) (hj' : j' < wp)
    (h : j + wp * (i + hp * ch) = j' + wp * (i' + hp * ch')) : j = j' ∧ i = i' ∧ ch = ch' := by
  have a1 : (j + wp * (i + hp * ch)) % wp = j := by rw [Nat.add_mul_mod_self_left, Nat.mod_eq_of_lt hj]
  have a2 : (j' + wp * (i' + hp * ch')) % wp = j' := by rw [Nat.add_mul_mod_self_left, Nat.mod_eq_of_lt hj']
  have b1 : (j + wp * (i + hp * ch)) / wp = i + hp * ch := by rw [Nat.add_mul_div_left _ _ (by omega), Nat.div_eq_of_lt hj, Nat.zero_add]
  have b2 : (j' + wp * (i' + hp * ch')) / wp = i' + hp * ch' := by rw [Nat.add_mul_div_left _ _ (by omega), Nat.div_eq_of_lt hj', Nat.zero_add]
  have e : i + hp * ch = i' + hp * ch' := by rw [← b1, ← b2, h]
  have c1 : (i + hp * ch) % hp = i := by rw [Nat.add_mul_mod_self_left, Nat.mod_eq_of_lt hi]
  have c2 : (i' + hp * ch') % hp = i' := by rw [Nat.add_mul_mod_self_left, Nat.mod_eq_of_lt hi']
  have d1 : (i + hp * ch) / hp = ch := by rw [Nat.add_mul_div_left _ _ (by omega), Nat.div_eq_of_lt hi, Nat.zero_add]
  have d2 : (i' + hp * ch') / hp = ch' := by rw [Nat.add_mul_div_left _ _ (by omega), Nat.div_eq_of_lt hi', Nat.zero_add]
  exact ⟨by rw [← a1, ← a2, h], by rw [← c1, ← c2, e], by rw [← d1, ← d2, e]⟩

/-- an index of the padded image is masked exactly if it is on the padding -/
theorem mem_zeroIdx (c : ConvP) {ch i j : Nat} (hch : ch < c.inC) (hi : i < c.inH + c.padTop + c.padBottom) (hj : j < c.inW + c.padLeft + c.padRight) :
    j + (c.inW + c.padLeft + c.padRight) * (i + (c.inH + c.padTop + c.padBottom) * ch) ∈ zeroIdx c ↔
      ¬ (c.padTop ≤ i ∧ i < c.padTop + c.inH ∧ c.padLeft ≤ j ∧ j < c.padLeft + c.inW) := by
  simp only [zeroIdx, List.mem_flatMap, List.mem_filterMap, List.mem_range]
  constructor
  · rintro ⟨ch', hch', i', hi', j', hj', h⟩
    split at h
    · rename_i hz
      obtain ⟨rfl, rfl, rfl⟩ := decode hi hj hi' hj' (Option.some.inj h).symm
      rw [mem_padZeros _ _ _ _ (by omega) hi, mem_padZeros _ _ _ _ (by omega) hj] at hz
      omega
    · cases h
  · intro h
    refine ⟨ch, hch, i, hi, j, hj, ?_⟩
    rw [if_pos]
    rw [mem_padZeros _ _ _ _ (by omega) hi, mem_padZeros _ _ _ _ (by omega) hj]
    omega

/-- the masked table -/
theorem masked_eq (c : ConvP) (hin : WindowsInside c) : maskedIdx c = (patchPositions c).map fun p => (patchSpec c p).map (padIdx c) := by
  unfold maskedIdx
  refine List.map_congr_left fun p hp => ?_
  obtain ⟨ch, kh, kw, oh, ow⟩ := p
  obtain ⟨a1, a2, a3, a4, a5⟩ := (mem_positions ..).1 hp
  have b1 := hin.1 oh kh a4 a2
  have b2 := hin.2 ow kw a5 a3
  have e : patchIdx c (c.inH + c.padTop + c.padBottom) (c.inW + c.padLeft + c.padRight) (ch, kh, kw, oh, ow) =
      (ow * c.stride + kw) + (c.inW + c.padLeft + c.padRight) * ((oh * c.stride + kh) + (c.inH + c.padTop + c.padBottom) * ch) := by
    simp only [patchIdx]; ring
  dsimp only
  rw [e]
  unfold patchSpec
  dsimp only
  by_cases h : c.padTop ≤ oh * c.stride + kh ∧ oh * c.stride + kh < c.padTop + c.inH ∧ c.padLeft ≤ ow * c.stride + kw ∧ ow * c.stride + kw < c.padLeft + c.inW
  · rw [if_neg (by rw [mem_zeroIdx c a1 b1 b2]; exact fun hh => hh h), if_pos h, Option.map_some, padIdx_at c (by omega) (by omega)]
    congr 1
    rw [Nat.sub_add_cancel h.1, Nat.sub_add_cancel h.2.2.1]
  · rw [if_pos ((mem_zeroIdx c a1 b1 b2).2 h), if_neg h]
    rfl

theorem spec_lt (c : ConvP) {ch kh kw oh ow t : Nat} (hch : ch < c.inC) (h : patchSpec c (ch, kh, kw, oh, ow) = some t) : t < c.inC * c.inH * c.inW := by
  unfold patchSpec at h
  dsimp only at h
  split at h
  · rename_i hh
    have ht := Option.some.inj h
    have h1 : ch * c.inH + (oh * c.stride + kh - c.padTop) + 1 ≤ c.inC * c.inH := by
      have : (ch + 1) * c.inH ≤ c.inC * c.inH := Nat.mul_le_mul_right _ hch
      rw [Nat.add_mul, Nat.one_mul] at this
      omega
    have h2 := Nat.mul_le_mul_right c.inW h1
    rw [Nat.add_mul, Nat.one_mul] at h2
    omega
  · cases h

/-- the distinct values of the masked table: every element of the image, if each is used -/
theorem distinct_perm (c : ConvP) (hin : WindowsInside c) (hu : AllUsed c) (hH : 0 < c.inH) (hW : 0 < c.inW) :
    ((maskedIdx c).filterMap id).dedup.Perm ((List.range (c.inC * c.inH * c.inW)).map (padIdx c)) := by
  have hmono : StrictMono (padIdx c) := embed_strictMono hW (by omega) (embed_strictMono hH (by omega) strictMono_id)
  refine (List.perm_ext_iff_of_nodup (List.nodup_dedup _) (List.nodup_range.map hmono.injective)).2 fun a => ?_
  rw [List.mem_dedup, masked_eq c hin]
  simp only [List.mem_filterMap, List.mem_map, id_eq, List.mem_range]
  constructor
  · rintro ⟨o, ⟨⟨ch, kh, kw, oh, ow⟩, hp, rfl⟩, h⟩
    obtain ⟨t, ht, rfl⟩ := Option.map_eq_some_iff.mp h
    exact ⟨t, spec_lt c ((mem_positions ..).1 hp).1 ht, rfl⟩
  · rintro ⟨t, ht, rfl⟩
    have q1 : t % c.inW < c.inW := Nat.mod_lt _ hW
    have q2 : t / c.inW % c.inH < c.inH := Nat.mod_lt _ hH
    have q3 : t / c.inW / c.inH < c.inC := by
      rw [Nat.div_lt_iff_lt_mul hH, Nat.div_lt_iff_lt_mul hW]; exact ht
    obtain ⟨kh, oh, g1, g2, g3⟩ := hu.1 _ q2
    obtain ⟨kw, ow, g4, g5, g6⟩ := hu.2 _ q1
    refine ⟨_, ⟨(t / c.inW / c.inH, kh, kw, oh, ow), (mem_positions ..).2 ⟨q3, g1, g4, g2, g5⟩, rfl⟩, ?_⟩
    have : patchSpec c (t / c.inW / c.inH, kh, kw, oh, ow) = some t := by
      unfold patchSpec
      dsimp only
      rw [if_pos (by omega), g3, g6, Nat.add_sub_cancel, Nat.add_sub_cancel]
      have e1 := Nat.div_add_mod (t / c.inW) c.inH
      have e2 := Nat.div_add_mod t c.inW
      rw [Nat.mul_comm (t / c.inW / c.inH), e1, Nat.mul_comm (t / c.inW), e2]
    rw [this]
    rfl

/-- **C76 with padding** (partial: every element of the image is in some window).  The table points, for every position, to the element of the image that the
convolution reads there, and to the zero where the tap falls on the padding. -/
theorem C76_table_partial (c : ConvP) (hin : WindowsInside c) (hu : AllUsed c) (hH : 0 < c.inH) (hW : 0 < c.inW) :
    ppatches c = (patchPositions c).map (patchSpec c) := by
  by_cases hpad : c.padRight ≠ 0 ∨ c.padLeft ≠ 0 ∨ c.padBottom ≠ 0 ∨ c.padTop ≠ 0
  swap
  · exact C76_table_unpadded c (by omega) hin
  have hmono : StrictMono (padIdx c) := embed_strictMono hW (by omega) (embed_strictMono hH (by omega) strictMono_id)
  have hperm := distinct_perm c hin hu hH hW
  have hnone : inverseRank (maskedIdx c) none = c.inC * c.inH * c.inW := by
    show ((maskedIdx c).filterMap id).dedup.length = _
    rw [hperm.length_eq]; simp
  have hsome : ∀ t, t < c.inC * c.inH * c.inW → inverseRank (maskedIdx c) (some (padIdx c t)) = t := by
    intro t ht
    show (((maskedIdx c).filterMap id).dedup.filter fun u => u < padIdx c t).length = _
    rw [(hperm.filter _).length_eq, List.filter_map, List.length_map]
    have e : (List.range (c.inC * c.inH * c.inW)).filter ((fun u => decide (u < padIdx c t)) ∘ padIdx c) =
        (List.range (c.inC * c.inH * c.inW)).filter fun s => decide (s < t) := by
      refine List.filter_congr fun s _ => ?_
      simp only [Function.comp_apply, hmono.lt_iff_lt]
    rw [e]
    have e2 : List.range (c.inC * c.inH * c.inW) = List.range t ++ (List.range (c.inC * c.inH * c.inW - t)).map (t + ·) := by
      rw [← List.range_add, Nat.add_sub_cancel' ht.le]
    rw [e2, List.filter_append, List.filter_eq_self.2 (by simp), List.filter_eq_nil_iff.2 (by simp), List.append_nil, List.length_range]
  unfold ppatches
  rw [if_pos hpad]
  rw [show (maskedIdx c).map (fun v => let r := inverseRank (maskedIdx c) v; if r = c.inC * c.inH * c.inW then none else some r) =
    ((patchPositions c).map fun p => (patchSpec c p).map (padIdx c)).map
      (fun v => let r := inverseRank (maskedIdx c) v; if r = c.inC * c.inH * c.inW then none else some r) by rw [← masked_eq c hin]]
  rw [List.map_map]
  refine List.map_congr_left fun p hp => ?_
  obtain ⟨ch, kh, kw, oh, ow⟩ := p
  simp only [Function.comp_apply]
  cases hs : patchSpec c (ch, kh, kw, oh, ow) with
  | none => simp [hnone]
  | some t =>
    have ht := spec_lt c ((mem_positions ..).1 hp).1 hs
    simp only [Option.map_some, hsome t ht]
    rw [if_neg (by omega)]

/-- accepted layers of dilation 1 whose output is not empty have their windows inside the padded image -/
theorem windowsInside_of_accepted (c : ConvP) (hacc : c.Accepted) (hdil : c.dil = 1) : WindowsInside c := by
  obtain ⟨h1, -, h3, h4, h5, h6⟩ := hacc
  rw [hdil] at h5 h6
  simp only [Nat.cast_one, sub_self, mul_zero, sub_zero] at h5 h6
  have hs : (0 : Int) < c.stride := by omega
  rw [Int.fdiv_eq_ediv_of_nonneg _ hs.le] at h5 h6
  constructor
  · intro oh kh ho hk
    have : (oh : Int) ≤ ((c.inH : Int) + c.padBottom + c.padTop - c.kh) / c.stride := by omega
    have := (Int.le_ediv_iff_mul_le hs).1 this
    have : ((oh * c.stride + kh : Nat) : Int) < ((c.inH + c.padTop + c.padBottom : Nat) : Int) := by push_cast; omega
    exact_mod_cast this
  · intro ow kw ho hk
    have : (ow : Int) ≤ ((c.inW : Int) + c.padLeft + c.padRight - c.kw) / c.stride := by omega
    have := (Int.le_ediv_iff_mul_le hs).1 this
    have : ((ow * c.stride + kw : Nat) : Int) < ((c.inW + c.padLeft + c.padRight : Nat) : Int) := by push_cast; omega
    exact_mod_cast this

/-- **C76 fails** where an element of the image is in no window: 1×1 taps, stride 2, padding 1, one channel of a 2×2 image.  Three positions are on the
padding and the last one reads element 3; the table points to elements 1, 1, 1 and 0. -/
theorem C76_fails_unused :
    ∃ c : ConvP, c.Accepted ∧ WindowsInside c ∧ (patchPositions c).map (patchSpec c) = [none, none, none, some 3] ∧
      ppatches c = [some 1, some 1, some 1, some 0] :=
  ⟨⟨1, 1, 2, 2, 2, 2, 1, 1, 2, 1, 1, 1, 1, 1⟩, by unfold ConvP.Accepted; decide, windowsInside_of_accepted _ (by unfold ConvP.Accepted; decide) rfl, by decide +kernel, by decide +kernel⟩

/-- **C76 for stride 1.**  For an accepted layer of dilation 1 and stride 1, whatever its paddings, every element is in some window and the table is the expected one. -/
theorem C76_table_stride_one (c : ConvP) (hacc : c.Accepted) (hdil : c.dil = 1) (hs : c.stride = 1) (hoH : 0 < c.outH) (hoW : 0 < c.outW)
    (hH : 0 < c.inH) (hW : 0 < c.inW) : ppatches c = (patchPositions c).map (patchSpec c) := by
  refine C76_table_partial c (windowsInside_of_accepted c hacc hdil) ?_ hH hW
  obtain ⟨-, -, h3, h4, h5, h6⟩ := hacc
  rw [hdil, hs] at h5 h6
  simp only [Nat.cast_one, sub_self, mul_zero, sub_zero, Int.fdiv_one] at h5 h6
  constructor
  · intro i hi
    rcases Nat.lt_or_ge (i + c.padTop) c.outH with h | h
    · exact ⟨0, i + c.padTop, by omega, h, by rw [hs]; omega⟩
    · exact ⟨i + c.padTop - (c.outH - 1), c.outH - 1, by omega, by omega, by rw [hs]; omega⟩
  · intro j hj
    rcases Nat.lt_or_ge (j + c.padLeft) c.outW with h | h
    · exact ⟨0, j + c.padLeft, by omega, h, by rw [hs]; omega⟩
    · exact ⟨j + c.padLeft - (c.outW - 1), c.outW - 1, by omega, by omega, by rw [hs]; omega⟩

/-- hypotheses met: two channels of a 4×3 image, 3×3 taps, stride 1, paddings 1: every element is used -/
example : (⟨5, 2, 4, 3, 4, 3, 3, 3, 1, 1, 1, 1, 1, 1⟩ : ConvP).Accepted ∧ AllUsed ⟨5, 2, 4, 3, 4, 3, 3, 3, 1, 1, 1, 1, 1, 1⟩ ∧
    ppatches ⟨5, 2, 4, 3, 4, 3, 3, 3, 1, 1, 1, 1, 1, 1⟩ = (patchPositions ⟨5, 2, 4, 3, 4, 3, 3, 3, 1, 1, 1, 1, 1, 1⟩).map
      (patchSpec ⟨5, 2, 4, 3, 4, 3, 3, 3, 1, 1, 1, 1, 1, 1⟩) := by
  have h1 : (⟨5, 2, 4, 3, 4, 3, 3, 3, 1, 1, 1, 1, 1, 1⟩ : ConvP).Accepted := by unfold ConvP.Accepted; decide
  have h2 : AllUsed ⟨5, 2, 4, 3, 4, 3, 3, 3, 1, 1, 1, 1, 1, 1⟩ := by
    refine ⟨fun i hi => ⟨1, i, by decide, hi, by simp⟩, fun j hj => ⟨1, j, by decide, hj, by simp⟩⟩
  exact ⟨h1, h2, C76_table_partial _ (windowsInside_of_accepted _ h1 rfl) h2 (by decide) (by decide)⟩

/-- the value behind an entry of the table: an element of the image, or the zero -/
def pointed {α : Type} [Zero α] (img : Nat → α) : Option Nat → α
  | some t => img t
  | none => 0

/-- the entry of `patchSpec` points to the value of the zero-padded image that the convolution reads -/
theorem pointed_spec {α : Type} [Zero α] (c : ConvP) (img : Nat → α) (ch kh kw oh ow : Nat) :
    pointed img (patchSpec c (ch, kh, kw, oh, ow)) =
      zeroExt c.inH c.inW (fun p a b => img ((p * c.inH + a) * c.inW + b)) ch ((oh : Int) * c.stride + kh - c.padTop) ((ow : Int) * c.stride + kw - c.padLeft) := by
  unfold patchSpec zeroExt
  have e1 : ((oh * c.stride : Nat) : Int) = (oh : Int) * c.stride := by push_cast; rfl
  have e2 : ((ow * c.stride : Nat) : Int) = (ow : Int) * c.stride := by push_cast; rfl
  rw [← e1, ← e2]
  dsimp only
  generalize oh * c.stride = a
  generalize ow * c.stride = b
  by_cases h : c.padTop ≤ a + kh ∧ a + kh < c.padTop + c.inH ∧ c.padLeft ≤ b + kw ∧ b + kw < c.padLeft + c.inW
  · rw [if_pos h, if_pos (by omega)]
    have t1 : ((a : Int) + kh - c.padTop).toNat = a + kh - c.padTop := by omega
    have t2 : ((b : Int) + kw - c.padLeft).toNat = b + kw - c.padLeft := by omega
    rw [t1, t2]
    rfl
  · rw [if_neg h, if_neg (by omega)]
    rfl

theorem getElem?_blocks {ρ β : Type} (w : Nat) (l : List ρ) (g : ρ → List β) (hg : ∀ r ∈ l, (g r).length = w) (i j : Nat) (hj : j < w) :
    (l.flatMap g)[i * w + j]? = l[i]?.bind fun r => (g r)[j]? := by
  induction l generalizing i with
  | nil => simp
  | cons r l ih =>
    have hr := hg r (by simp)
    rw [List.flatMap_cons]
    cases i with
    | zero => rw [Nat.zero_mul, Nat.zero_add, List.getElem?_append_left (by omega)]; rfl
    | succ i =>
      rw [List.getElem?_append_right (by rw [hr, Nat.succ_mul]; omega), hr, show (i + 1) * w + j - w = i * w + j by rw [Nat.succ_mul]; omega,
        ih (fun r h => hg r (List.mem_cons_of_mem _ h))]
      rfl

theorem position_at (c : ConvP) {ch kh kw oh ow : Nat} (h1 : ch < c.inC) (h2 : kh < c.kh) (h3 : kw < c.kw) (h4 : oh < c.outH) (h5 : ow < c.outW) :
    (patchPositions c)[((ch * c.kh + kh) * c.kw + kw) * (c.outH * c.outW) + (oh * c.outW + ow)]? = some (ch, kh, kw, oh, ow) := by
  have e : ((ch * c.kh + kh) * c.kw + kw) * (c.outH * c.outW) + (oh * c.outW + ow) =
      ch * (c.kh * (c.kw * (c.outH * c.outW))) + (kh * (c.kw * (c.outH * c.outW)) + (kw * (c.outH * c.outW) + (oh * c.outW + ow))) := by ring
  have step : ∀ {a b A B : Nat}, a < A → b < B → a * B + b < A * B := fun {a b A B} ha hb => by
    have := Nat.mul_le_mul_right B ha
    rw [Nat.succ_mul] at this
    omega
  have b1 := step h4 h5
  have b2 := step h3 b1
  have b3 := step h2 b2
  unfold patchPositions
  rw [e, getElem?_blocks _ _ _ (by simp [List.length_flatMap]) _ _ b3, List.getElem?_range h1, Option.bind_some,
    getElem?_blocks _ _ _ (by simp [List.length_flatMap]) _ _ b2, List.getElem?_range h2, Option.bind_some,
    getElem?_blocks _ _ _ (by simp [List.length_flatMap]) _ _ b1, List.getElem?_range h3, Option.bind_some,
    getElem?_blocks _ _ _ (by simp) _ _ h5, List.getElem?_range h4, Option.bind_some, List.getElem?_map, List.getElem?_range h5]
  rfl

/-- **C76, entry by entry** (partial: every element of the image is in some window).  Row `(ch, kh, kw)` and column `(oh, ow)` of the matrix of patches, both in
C order: the entry points to the element read there, or to the zero. -/
theorem C76_entry_partial (c : ConvP) (hin : WindowsInside c) (hu : AllUsed c) (hH : 0 < c.inH) (hW : 0 < c.inW) {ch kh kw oh ow : Nat}
    (h1 : ch < c.inC) (h2 : kh < c.kh) (h3 : kw < c.kw) (h4 : oh < c.outH) (h5 : ow < c.outW) :
    (ppatches c)[((ch * c.kh + kh) * c.kw + kw) * (c.outH * c.outW) + (oh * c.outW + ow)]? = some (patchSpec c (ch, kh, kw, oh, ow)) := by
  rw [C76_table_partial c hin hu hH hW, List.getElem?_map, position_at c h1 h2 h3 h4 h5]
  rfl

/-- **C76, the convolution through the table** (partial: as above).  The product of the matrix of the weights with what the entries of the table point to is the
convolution, for every filter `f` and pixel `(i, j)`. -/
theorem C76_product_partial {α : Type} [CommSemiring α] (c : ConvP) (hdil : c.dil = 1) (hin : WindowsInside c) (hu : AllUsed c) (hH : 0 < c.inH) (hW : 0 < c.inW)
    (act : α → α) (wt : Nat → Nat → Nat → Nat → α) (bias : Nat → α) (img : Nat → α) (f i j : Nat) (hi : i < c.outH) (hj : j < c.outW) :
    act ((∑ p ∈ Finset.range c.inC, ∑ h ∈ Finset.range c.kh, ∑ w ∈ Finset.range c.kw,
        wt f p h w * ((ppatches c)[((p * c.kh + h) * c.kw + w) * (c.outH * c.outW) + (i * c.outW + j)]?.map (pointed img)).getD 0) + bias f) =
      convSpec c act wt bias (fun p a b => img ((p * c.inH + a) * c.inW + b)) f i j := by
  unfold convSpec
  congr 2
  refine Finset.sum_congr rfl fun p hp => Finset.sum_congr rfl fun h hh => Finset.sum_congr rfl fun w hw => ?_
  rw [Finset.mem_range] at hp hh hw
  rw [hdil, Nat.cast_one, mul_one, mul_one, ← pointed_spec, C76_entry_partial c hin hu hH hW hp hh hw hi hj]
  rfl

/-- an element in no window: the table has fewer distinct values than the image has elements -/
theorem distinct_lt (c : ConvP) (hin : WindowsInside c) (hC : 0 < c.inC) (hH : 0 < c.inH) (hW : 0 < c.inW) (hu : ¬ AllUsed c) :
    ((maskedIdx c).filterMap id).dedup.length < c.inC * c.inH * c.inW := by
  have hmono : StrictMono (padIdx c) := embed_strictMono hW (by omega) (embed_strictMono hH (by omega) strictMono_id)
  -- an element of the first channel in no window
  obtain ⟨i, j, hi, hj, hno⟩ : ∃ i j, i < c.inH ∧ j < c.inW ∧ ∀ p ∈ patchPositions c, patchSpec c p ≠ some ((0 * c.inH + i) * c.inW + j) := by
    by_contra hall
    apply hu
    have hall : ∀ i j, i < c.inH → j < c.inW → ∃ p ∈ patchPositions c, patchSpec c p = some ((0 * c.inH + i) * c.inW + j) := by
      intro i j hi hj
      by_contra hh
      exact hall ⟨i, j, hi, hj, fun p hp he => hh ⟨p, hp, he⟩⟩
    have key : ∀ i j, i < c.inH → j < c.inW → (∃ kh oh, kh < c.kh ∧ oh < c.outH ∧ oh * c.stride + kh = i + c.padTop) ∧
        ∃ kw ow, kw < c.kw ∧ ow < c.outW ∧ ow * c.stride + kw = j + c.padLeft := by
      intro i j hi hj
      obtain ⟨⟨ch, kh, kw, oh, ow⟩, hp, he⟩ := hall i j hi hj
      obtain ⟨a1, a2, a3, a4, a5⟩ := (mem_positions ..).1 hp
      unfold patchSpec at he
      dsimp only at he
      split at he
      · rename_i hh
        have he := Option.some.inj he
        have g := congrArg (padIdx c) he
        rw [padIdx_at c (by omega) (by omega), padIdx_at c hi hj] at g
        obtain ⟨g1, g2, -⟩ := decode (hp := c.inH + c.padTop + c.padBottom) (wp := c.inW + c.padLeft + c.padRight)
          (by omega) (by omega) (by omega) (by omega) g
        exact ⟨⟨kh, oh, a2, a4, by omega⟩, kw, ow, a3, a5, by omega⟩
      · cases he
    exact ⟨fun i hi => (key i 0 hi hW).1, fun j hj => (key 0 j hH hj).2⟩
  have hsub : ((maskedIdx c).filterMap id).dedup ⊆ (List.range (c.inC * c.inH * c.inW)).map (padIdx c) := by
    intro a ha
    rw [List.mem_dedup, masked_eq c hin] at ha
    obtain ⟨o, ho, h⟩ := List.mem_filterMap.1 ha
    obtain ⟨⟨ch, kh, kw, oh, ow⟩, hp, rfl⟩ := List.mem_map.1 ho
    obtain ⟨t, ht, rfl⟩ := Option.map_eq_some_iff.mp h
    exact List.mem_map.2 ⟨t, List.mem_range.2 (spec_lt c ((mem_positions ..).1 hp).1 ht), rfl⟩
  have hsp := (List.nodup_dedup ((maskedIdx c).filterMap id)).subperm hsub
  have hle := hsp.length_le
  rw [List.length_map, List.length_range] at hle
  refine Nat.lt_of_le_of_ne hle fun heq => ?_
  have hperm := hsp.perm_of_length_le (by rw [List.length_map, List.length_range, heq])
  have ht : (0 * c.inH + i) * c.inW + j < c.inC * c.inH * c.inW := by
    have h1 : (0 * c.inH + i + 1) * c.inW ≤ c.inC * c.inH * c.inW := Nat.mul_le_mul_right _ (by
      have := Nat.mul_le_mul_right c.inH hC
      omega)
    rw [Nat.succ_mul] at h1
    omega
  have hm := hperm.mem_iff.2 (List.mem_map.2 ⟨_, List.mem_range.2 ht, rfl⟩)
  rw [List.mem_dedup, masked_eq c hin] at hm
  obtain ⟨o, ho, h⟩ := List.mem_filterMap.1 hm
  obtain ⟨p, hp, rfl⟩ := List.mem_map.1 ho
  obtain ⟨t, ht', e⟩ := Option.map_eq_some_iff.mp h
  rw [hmono.injective e] at ht'
  exact hno p hp ht'

/-- **C76, exactly when.**  Where some tap falls on the padding, the table is right if and only if every element of the image is in some window. -/
theorem C76_table_iff (c : ConvP) (hin : WindowsInside c) (hH : 0 < c.inH) (hW : 0 < c.inW) (hpad : ∃ p ∈ patchPositions c, patchSpec c p = none) :
    ppatches c = (patchPositions c).map (patchSpec c) ↔ AllUsed c := by
  refine ⟨fun h => ?_, fun h => C76_table_partial c hin h hH hW⟩
  by_contra hu
  obtain ⟨⟨ch, kh, kw, oh, ow⟩, hp, hn⟩ := hpad
  obtain ⟨a1, a2, a3, a4, a5⟩ := (mem_positions ..).1 hp
  have hlt := distinct_lt c hin (by omega) hH hW hu
  have b1 := hin.1 oh kh a4 a2
  have b2 := hin.2 ow kw a5 a3
  have hflag : c.padRight ≠ 0 ∨ c.padLeft ≠ 0 ∨ c.padBottom ≠ 0 ∨ c.padTop ≠ 0 := by
    by_contra hz
    unfold patchSpec at hn
    dsimp only at hn
    rw [if_pos (by omega)] at hn
    cases hn
  unfold ppatches at h
  rw [if_pos hflag] at h
  have e : (maskedIdx c).map (fun v => let r := inverseRank (maskedIdx c) v; if r = c.inC * c.inH * c.inW then none else some r) =
    ((patchPositions c).map fun p => (patchSpec c p).map (padIdx c)).map
      (fun v => let r := inverseRank (maskedIdx c) v; if r = c.inC * c.inH * c.inW then none else some r) := by rw [← masked_eq c hin]
  rw [e, List.map_map] at h
  have := List.map_inj_left.1 h _ hp
  simp only [Function.comp_apply, hn, Option.map_none, inverseRank] at this
  rw [if_neg (by omega)] at this
  cases this

/-! ## the forms `nt` and `tt` -/

theorem getElem?_rows {ρ κ β : Type} (f : ρ → κ → β) (cols : List κ) (j : Nat) (hj : j < cols.length) (rows : List ρ) (i : Nat) :
    (rows.flatMap fun r => cols.map (f r))[i * cols.length + j]? = rows[i]?.bind fun r => cols[j]?.map (f r) := by
  induction rows generalizing i with
  | nil => simp
  | cons r rows ih =>
    rw [List.flatMap_cons]
    cases i with
    | zero => rw [Nat.zero_mul, Nat.zero_add, List.getElem?_append_left (by simpa using hj)]; simp
    | succ i =>
      rw [List.getElem?_append_right (by rw [List.length_map, Nat.succ_mul]; omega), List.length_map,
        show (i + 1) * cols.length + j - cols.length = i * cols.length + j by rw [Nat.succ_mul]; omega, ih]
      rfl

theorem filterMap_range {ρ β : Type} (g : ρ → β) (rows : List ρ) : ((List.range rows.length).filterMap fun i => rows[i]?.map g) = rows.map g := by
  induction rows with
  | nil => rfl
  | cons r rows ih =>
    rw [List.length_cons, List.range_succ_eq_map, List.filterMap_cons, List.filterMap_map]
    simpa using ih

theorem flatMap_range {κ β : Type} (K : κ → List β) (cols : List κ) : ((List.range cols.length).flatMap fun j => (cols[j]?.map K).getD []) = cols.flatMap K := by
  induction cols with
  | nil => rfl
  | cons q cols ih =>
    rw [List.length_cons, List.range_succ_eq_map, List.flatMap_cons, List.flatMap_map, List.flatMap_cons]
    simpa using ih

/-- the transposition of a matrix given by rows is the matrix given by columns -/
theorem transposeFlat_rows {ρ κ β : Type} (f : ρ → κ → β) (rows : List ρ) (cols : List κ) :
    transposeFlat rows.length cols.length (rows.flatMap fun r => cols.map (f r)) = cols.flatMap fun q => rows.map fun r => f r q := by
  unfold transposeFlat
  rw [← flatMap_range (fun q => rows.map fun r => f r q) cols]
  refine List.flatMap_congr fun j hj => ?_
  have hj := List.mem_range.1 hj
  rw [List.getElem?_eq_getElem hj, Option.map_some, Option.getD_some, ← filterMap_range]
  refine List.filterMap_congr fun i _ => ?_
  rw [getElem?_rows f cols j hj, List.getElem?_eq_getElem hj]
  cases rows[i]? <;> rfl

/-- Specification: the positions in the order of the forms `nt` and `tt`: first the pixel of the output, then the tap. -/
def positionsByPixel (c : ConvP) : List (Nat × Nat × Nat × Nat × Nat) :=
  (List.range c.outH).flatMap fun oh => (List.range c.outW).flatMap fun ow =>
    (List.range c.inC).flatMap fun ch => (List.range c.kh).flatMap fun kh => (List.range c.kw).map fun kw => (ch, kh, kw, oh, ow)

/-- **C76 for the forms `nt` and `tt`** (partial: every element of the image is in some window): the table lists the same pointers with the pixels as rows. -/
theorem C76_transposed_partial (c : ConvP) (hin : WindowsInside c) (hu : AllUsed c) (hH : 0 < c.inH) (hW : 0 < c.inW) :
    ppatchesForm c true = (positionsByPixel c).map (patchSpec c) := by
  have e := transposeFlat_rows (fun (t : Nat × Nat × Nat) (q : Nat × Nat) => patchSpec c (t.1, t.2.1, t.2.2, q.1, q.2))
    ((List.range c.inC).flatMap fun ch => (List.range c.kh).flatMap fun kh => (List.range c.kw).map fun kw => (ch, kh, kw))
    ((List.range c.outH).flatMap fun oh => (List.range c.outW).map fun ow => (oh, ow))
  unfold ppatchesForm
  rw [if_pos rfl, C76_table_partial c hin hu hH hW]
  convert e using 2
  · simp [List.length_flatMap, Nat.mul_assoc]
  · simp [List.length_flatMap]
  · simp [patchPositions, List.map_flatMap, List.flatMap_assoc, List.flatMap_map, List.map_map, Function.comp_def]
  · simp [positionsByPixel, List.map_flatMap, List.flatMap_assoc, List.flatMap_map, List.map_map, Function.comp_def]

/-- a case of `C76_table_iff` on the wrong side: the layer of `C76_fails_unused` has a tap on the padding and an element in no window -/
example : (∃ p ∈ patchPositions ⟨1, 1, 2, 2, 2, 2, 1, 1, 2, 1, 1, 1, 1, 1⟩, patchSpec ⟨1, 1, 2, 2, 2, 2, 1, 1, 2, 1, 1, 1, 1, 1⟩ p = none) ∧
    ¬ AllUsed ⟨1, 1, 2, 2, 2, 2, 1, 1, 2, 1, 1, 1, 1, 1⟩ := by
  have h : ∃ p ∈ patchPositions ⟨1, 1, 2, 2, 2, 2, 1, 1, 2, 1, 1, 1, 1, 1⟩, patchSpec ⟨1, 1, 2, 2, 2, 2, 1, 1, 2, 1, 1, 1, 1, 1⟩ p = none :=
    ⟨(0, 0, 0, 0, 0), by decide, by decide⟩
  exact ⟨h, fun hu => absurd ((C76_table_iff _ (windowsInside_of_accepted _ (by unfold ConvP.Accepted; decide) rfl) (by decide) (by decide) h).2 hu) (by decide +kernel)⟩

end Verif.Layers

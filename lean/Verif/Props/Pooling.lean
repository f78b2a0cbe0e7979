import Verif.Layers.Pooling
import Verif.Props.Conv
import Mathlib.Algebra.BigOperators.Pi
import Mathlib.Order.Bounds.Basic
import Mathlib.Algebra.Order.Field.Rat

/-!
# C13: pooling
-/

namespace Verif.Layers
open Prog
variable {α : Type}

/-! ## Specification -/

/-- Position `(a, b)` of the image belongs to the window of output position `(i, j)`. -/
def InWindow (c : PoolP) (i j a b : Nat) : Prop :=
  (a < c.H ∧ i * c.stride ≤ a + c.padTop ∧ a + c.padTop < i * c.stride + c.pool) ∧
  (b < c.W ∧ j * c.stride ≤ b + c.padLeft ∧ b + c.padLeft < j * c.stride + c.pool)

instance (c : PoolP) (i j a b : Nat) : Decidable (InWindow c i j a b) := by
  unfold InWindow; infer_instance

/-- the elements in the window -/
def windowSet (c : PoolP) (x : Nat → Nat → Nat → α) (f i j : Nat) : Set α :=
  {v | ∃ a b, InWindow c i j a b ∧ v = x f a b}

/-- sum over the window -/
def windowSum [AddCommMonoid α] (c : PoolP) (x : Nat → Nat → Nat → α) (f i j : Nat) : α :=
  ∑ a ∈ Finset.range c.H, ∑ b ∈ Finset.range c.W, if InWindow c i j a b then x f a b else 0

/-- number of positions in the window -/
def windowCount (c : PoolP) (i j : Nat) : Nat :=
  ∑ a ∈ Finset.range c.H, ∑ b ∈ Finset.range c.W, if InWindow c i j a b then 1 else 0

/-! ## Maximum -/

/-- one step of the running maximum -/
def maxStep [LT α] [DecidableRel (α := α) (· < ·)] (g : Option α) (t : α) : α :=
  match g with
  | none => t
  | some v => if v > t then v else t

theorem iter_maxStep [LinearOrder α] (g : Nat → Option α) (t : α) (n : Nat) :
    let r := iter (fun k t => maxStep (g k) t) t n
    t ≤ r ∧ (∀ k v, k < n → g k = some v → v ≤ r) ∧ (r = t ∨ ∃ k, k < n ∧ g k = some r) := by
  induction n with
  | zero => exact ⟨le_refl _, fun k v h => absurd h (by omega), Or.inl rfl⟩
  | succ n ih =>
    obtain ⟨h1, h2, h3⟩ := ih
    simp only [iter]
    generalize iter (fun k t => maxStep (g k) t) t n = r at *
    unfold maxStep
    cases hg : g n with
    | none =>
      refine ⟨h1, fun k v hk hv => ?_, h3.imp id fun ⟨k, hk, e⟩ => ⟨k, by omega, e⟩⟩
      rcases Nat.lt_succ_iff_lt_or_eq.1 hk with h | h
      · exact h2 k v h hv
      · subst h; rw [hg] at hv; cases hv
    | some w =>
      dsimp only
      split
      · next hw =>
        refine ⟨h1.trans hw.le, fun k v hk hv => ?_, Or.inr ⟨n, by omega, hg⟩⟩
        rcases Nat.lt_succ_iff_lt_or_eq.1 hk with h | h
        · exact (h2 k v h hv).trans hw.le
        · subst h; rw [hg] at hv; cases hv; exact le_refl _
      · next hw =>
        refine ⟨h1, fun k v hk hv => ?_, h3.imp id fun ⟨k, hk, e⟩ => ⟨k, by omega, e⟩⟩
        rcases Nat.lt_succ_iff_lt_or_eq.1 hk with h | h
        · exact h2 k v h hv
        · subst h; rw [hg] at hv; cases hv; exact not_lt.mp hw

theorem iter_maxStep2 [LinearOrder α] (g : Nat → Nat → Option α) (t : α) (n k : Nat) :
    let r := iter (fun h t => iter (fun w t => maxStep (g h w) t) t k) t n
    t ≤ r ∧ (∀ h w v, h < n → w < k → g h w = some v → v ≤ r) ∧
      (r = t ∨ ∃ h w, h < n ∧ w < k ∧ g h w = some r) := by
  induction n with
  | zero => exact ⟨le_refl _, fun h w v hh => absurd hh (by omega), Or.inl rfl⟩
  | succ n ih =>
    obtain ⟨h1, h2, h3⟩ := ih
    simp only [iter]
    generalize iter (fun h t => iter (fun w t => maxStep (g h w) t) t k) t n = r at *
    obtain ⟨g1, g2, g3⟩ := iter_maxStep (g n) r k
    refine ⟨h1.trans g1, fun h w v hh hw hv => ?_, ?_⟩
    · rcases Nat.lt_succ_iff_lt_or_eq.1 hh with h' | h'
      · exact (h2 h w v h' hw hv).trans g1
      · subst h'; exact g2 w v hw hv
    · rcases g3 with e | ⟨w, hw, e⟩
      · rw [e]
        exact h3.imp id fun ⟨h, w, hh, hw, e⟩ => ⟨h, w, by omega, hw, e⟩
      · exact Or.inr ⟨n, w, by omega, hw, e⟩

/-- the layer with top and left paddings exchanged -/
def PoolP.swapPads (c : PoolP) : PoolP := { c with padTop := c.padLeft, padLeft := c.padTop }

/-- The generated code leaves the activated maxima of the windows of the layer with exchanged paddings. -/
theorem maxPool_swapped [LinearOrder α] (c : PoolP) (size road : Nat) (ninf : α) (act : α → α) (src : Buf)
    (x : Nat → Nat → Nat → α) (r : Nat → Nat → Nat → α) (m : Mem α)
    (hinf : ∀ f a b, f < c.C → a < c.H → b < c.W → ninf < x f a b)
    (hr : ∀ f i j, f < c.C → i < c.Ho → j < c.Wo → IsGreatest (windowSet c.swapPads x f i j) (r f i j))
    (hsrc : src ≠ .temp) (hx : Holds m src (tensor3 c.C c.H c.W x))
    (hsize : size = c.C * c.Ho * c.Wo)
    (ht : size ≤ m.size .temp) (ho : size ≤ m.size (.out road)) :
    Computes (maxPoolCode c size ninf act src road) m (.out road)
      (tensor3 c.C c.Ho c.Wo fun f i j => act (r f i j)) := by
  refine kernel3 (h := id) hsize ht ho fun f i j hf hi hj ha => ?_
  let g : Nat → Nat → Option α := fun h w =>
    let ii : Int := (i : Int) * c.stride + h - c.padLeft
    let jj : Int := (j : Int) * c.stride + w - c.padTop
    if ii ≥ 0 ∧ ii < c.H ∧ jj ≥ 0 ∧ jj < c.W then some (x f ii.toNat jj.toNat) else none
  have hev : Evals .temp m (foldN c.pool ninf fun h mx => foldN c.pool mx fun w mx =>
      let ii : Int := (i : Int) * c.stride + h - c.padLeft
      let jj : Int := (j : Int) * c.stride + w - c.padTop
      if ii ≥ 0 ∧ ii < c.H ∧ jj ≥ 0 ∧ jj < c.W then do
        let x ← load src (jj + c.W * (ii + c.H * f))
        (if x > mx then load src (jj + c.W * (ii + c.H * f)) else pure mx : Prog α α)
      else pure mx)
      (iter (fun h t => iter (fun w t => maxStep (g h w) t) t c.pool) ninf c.pool) := by
    refine Evals.foldN_iter fun h acc hh => Evals.foldN_iter fun w acc hw => ?_
    simp only [g, maxStep]
    generalize (i : Int) * c.stride + h - c.padLeft = ii
    generalize (j : Int) * c.stride + w - c.padTop = jj
    by_cases hc : ii ≥ 0 ∧ ii < c.H ∧ jj ≥ 0 ∧ jj < c.W
    · rw [if_pos hc, if_pos hc]
      obtain ⟨h1, h2, h3, h4⟩ := hc
      have hl : Evals .temp m (load src (jj + c.W * (ii + c.H * f))) (x f ii.toNat jj.toNat) := by
        refine Evals.load3 hsrc hx hf (by omega) (by omega) ?_
        unfold at3; push_cast [Int.toNat_of_nonneg h1, Int.toNat_of_nonneg h3]; ring
      exact hl.bind (Evals.ite (fun _ => hl) (fun _ => Evals.pure _ _ _))
    · rw [if_neg hc, if_neg hc]
      exact Evals.pure _ _ _
  refine Stores.bind hev (Stores.store rfl ha ?_)
  congr 1
  obtain ⟨q1, q2, q3⟩ := iter_maxStep2 g ninf c.pool c.pool
  generalize iter (fun h t => iter (fun w t => maxStep (g h w) t) t c.pool) ninf c.pool = v at *
  obtain ⟨⟨a, b, ⟨⟨w1, w2, w3⟩, ⟨w4, w5, w6⟩⟩, rv⟩, rub⟩ := hr f i j hf hi hj
  -- every window element is seen by the loop
  have hseen : ∀ a b, InWindow c.swapPads i j a b → x f a b ≤ v := by
    intro a b ⟨⟨w1, w2, w3⟩, ⟨w4, w5, w6⟩⟩
    simp only [PoolP.swapPads] at w1 w2 w3 w4 w5 w6
    refine q2 (a + c.padLeft - i * c.stride) (b + c.padTop - j * c.stride) _ (by omega) (by omega) ?_
    simp only [g]
    have e1 : (i : Int) * c.stride + ((a + c.padLeft - i * c.stride : Nat) : Int) - c.padLeft = a := by
      push_cast [Nat.cast_sub w2]; omega
    have e2 : (j : Int) * c.stride + ((b + c.padTop - j * c.stride : Nat) : Int) - c.padTop = b := by
      push_cast [Nat.cast_sub w5]; omega
    rw [e1, e2, if_pos (by omega)]
    simp
  apply le_antisymm
  · rcases q3 with e | ⟨h, w, hh, hw, e⟩
    · rw [e, rv]; exact (hinf f a b hf w1 w4).le
    · simp only [g] at e
      generalize hii : (i : Int) * c.stride + h - c.padLeft = ii at e
      generalize hjj : (j : Int) * c.stride + w - c.padTop = jj at e
      split at e
      · next hc =>
        injection e with e
        rw [← e]
        apply rub
        have hs1 : ((i * c.stride : Nat) : Int) = (i : Int) * c.stride := by push_cast; rfl
        have hs2 : ((j * c.stride : Nat) : Int) = (j : Int) * c.stride := by push_cast; rfl
        refine ⟨ii.toNat, jj.toNat, ?_, rfl⟩
        simp only [InWindow, PoolP.swapPads]
        exact ⟨⟨by omega, by omega, by omega⟩, ⟨by omega, by omega, by omega⟩⟩
      · cases e
  · rw [rv]; exact hseen a b ⟨⟨w1, w2, w3⟩, ⟨w4, w5, w6⟩⟩

theorem PoolP.swapPads_eq (c : PoolP) (h : c.padTop = c.padLeft) : c.swapPads = c := by
  cases c; simp only [PoolP.swapPads] at *; subst h; rfl

/-- **C13, code of max pooling** (partial: `pad_top = pad_left`, because the generated code exchanges
them). In every output position the generated code leaves the activated maximum of the window. -/
theorem C13_max_code_partial [LinearOrder α] (c : PoolP) (size road : Nat) (ninf : α) (act : α → α) (src : Buf)
    (x : Nat → Nat → Nat → α) (r : Nat → Nat → Nat → α) (m : Mem α)
    (hpad : c.padTop = c.padLeft)
    (hinf : ∀ f a b, f < c.C → a < c.H → b < c.W → ninf < x f a b)
    (hr : ∀ f i j, f < c.C → i < c.Ho → j < c.Wo → IsGreatest (windowSet c x f i j) (r f i j))
    (hsrc : src ≠ .temp) (hx : Holds m src (tensor3 c.C c.H c.W x))
    (hsize : size = c.C * c.Ho * c.Wo)
    (ht : size ≤ m.size .temp) (ho : size ≤ m.size (.out road)) :
    Computes (maxPoolCode c size ninf act src road) m (.out road)
      (tensor3 c.C c.Ho c.Wo fun f i j => act (r f i j)) :=
  maxPool_swapped c size road ninf act src x r m hinf (by rw [c.swapPads_eq hpad]; exact hr) hsrc hx hsize ht ho

/-! ## Average -/

theorem reindex1 {R : Type} [AddCommMonoid R] (s p n H : Nat) (F : Nat → R) :
    ∑ h ∈ Finset.range n, (if (s : Int) + h - p ≥ 0 ∧ (s : Int) + h - p < H then F ((s : Int) + h - p).toNat else 0) =
    ∑ a ∈ Finset.range H, (if s ≤ a + p ∧ a + p < s + n then F a else 0) := by
  rw [← Finset.sum_filter, ← Finset.sum_filter]
  refine Finset.sum_nbij' (fun h => ((s : Int) + h - p).toNat) (fun a => a + p - s) ?_ ?_ ?_ ?_ ?_
  · intro h; simp only [Finset.mem_filter, Finset.mem_range]; intro ⟨h1, h2, h3⟩; omega
  · intro h; simp only [Finset.mem_filter, Finset.mem_range]; intro ⟨h1, h2, h3⟩; omega
  · intro h; simp only [Finset.mem_filter, Finset.mem_range]; intro ⟨h1, h2, h3⟩; omega
  · intro h; simp only [Finset.mem_filter, Finset.mem_range]; intro ⟨h1, h2, h3⟩; omega
  · intro h _; rfl

/-- the window loop visits exactly the window -/
theorem reindex2 {R : Type} [AddCommMonoid R] (c : PoolP) (i j : Nat) (F : Nat → Nat → R) :
    ∑ h ∈ Finset.range c.pool, ∑ w ∈ Finset.range c.pool,
      (if (i : Int) * c.stride + h - c.padLeft ≥ 0 ∧ (i : Int) * c.stride + h - c.padLeft < c.H ∧
          (j : Int) * c.stride + w - c.padTop ≥ 0 ∧ (j : Int) * c.stride + w - c.padTop < c.W then
        F ((i : Int) * c.stride + h - c.padLeft).toNat ((j : Int) * c.stride + w - c.padTop).toNat else 0) =
    ∑ a ∈ Finset.range c.H, ∑ b ∈ Finset.range c.W, (if InWindow c.swapPads i j a b then F a b else 0) := by
  have h1 := fun a => reindex1 (j * c.stride) c.padTop c.pool c.W (F a)
  have h2 := reindex1 (i * c.stride) c.padLeft c.pool c.H fun a =>
    ∑ b ∈ Finset.range c.W, (if j * c.stride ≤ b + c.padTop ∧ b + c.padTop < j * c.stride + c.pool then F a b else 0)
  push_cast at h1 h2
  refine Eq.trans ?_ (h2.trans ?_)
  · apply Finset.sum_congr rfl; intro h hh
    rw [← h1]
    by_cases q : (i : Int) * c.stride + h - c.padLeft ≥ 0 ∧ (i : Int) * c.stride + h - c.padLeft < c.H
    · rw [if_pos q]
      apply Finset.sum_congr rfl; intro w hw
      exact if_congr ⟨fun r => r.2.2, fun r => ⟨q.1, q.2, r⟩⟩ rfl rfl
    · rw [if_neg q]
      apply Finset.sum_eq_zero; intro w hw
      exact if_neg fun r => q ⟨r.1, r.2.1⟩
  · apply Finset.sum_congr rfl; intro a ha
    by_cases q : i * c.stride ≤ a + c.padLeft ∧ a + c.padLeft < i * c.stride + c.pool
    · rw [if_pos q]
      apply Finset.sum_congr rfl; intro b hb
      simp only [Finset.mem_range] at ha hb
      refine if_congr ?_ rfl rfl
      simp only [InWindow, PoolP.swapPads]; omega
    · rw [if_neg q]
      symm
      apply Finset.sum_eq_zero; intro b hb
      rw [if_neg]
      simp only [InWindow, PoolP.swapPads]; omega

/-- a window with a position has a non-zero count -/
theorem windowCount_pos (c : PoolP) (i j : Nat) (h : ∃ a b, InWindow c i j a b) : windowCount c i j ≠ 0 := by
  obtain ⟨a, b, hw⟩ := h
  have ha : a ∈ Finset.range c.H := by simpa using hw.1.1
  have hb : b ∈ Finset.range c.W := by simpa using hw.2.1
  unfold windowCount
  intro h0
  have h1 := (Finset.sum_eq_zero_iff.1 h0) a ha
  have h2 := (Finset.sum_eq_zero_iff.1 h1) b hb
  simp [hw] at h2

/-- The generated code leaves the activated averages of the windows of the layer with exchanged paddings. -/
theorem avgPool_swapped [AddCommMonoid α] [Div α] [NatCast α] (c : PoolP) (size road : Nat) (act : α → α) (src : Buf)
    (x : Nat → Nat → Nat → α) (m : Mem α)
    (hne : ∀ i j, i < c.Ho → j < c.Wo → ∃ a b, InWindow c.swapPads i j a b)
    (hsrc : src ≠ .temp) (hx : Holds m src (tensor3 c.C c.H c.W x))
    (hsize : size = c.C * c.Ho * c.Wo)
    (ht : size ≤ m.size .temp) (ho : size ≤ m.size (.out road)) :
    Computes (avgPoolCode c size act src road) m (.out road)
      (tensor3 c.C c.Ho c.Wo fun f i j =>
        act (windowSum c.swapPads x f i j / (windowCount c.swapPads i j : α))) := by
  refine kernel3 (h := id) hsize ht ho fun f i j hf hi hj ha => ?_
  have hsum : ∑ h ∈ Finset.range c.pool, ∑ w ∈ Finset.range c.pool,
      (if (i : Int) * c.stride + h - c.padLeft ≥ 0 ∧ (i : Int) * c.stride + h - c.padLeft < c.H ∧
          (j : Int) * c.stride + w - c.padTop ≥ 0 ∧ (j : Int) * c.stride + w - c.padTop < c.W then
        (x f ((i : Int) * c.stride + h - c.padLeft).toNat ((j : Int) * c.stride + w - c.padTop).toNat, 1)
       else (0 : α × Nat)) = (windowSum c.swapPads x f i j, windowCount c.swapPads i j) := by
    rw [reindex2 c i j fun a b => ((x f a b, 1) : α × Nat)]
    apply Prod.ext
    · simp only [Prod.fst_sum, windowSum]
      apply Finset.sum_congr rfl; intro a _
      apply Finset.sum_congr rfl; intro b _
      by_cases q : InWindow c.swapPads i j a b <;> simp [q]
    · simp only [Prod.snd_sum, windowCount]
      apply Finset.sum_congr rfl; intro a _
      apply Finset.sum_congr rfl; intro b _
      by_cases q : InWindow c.swapPads i j a b <;> simp [q]
  refine Stores.bind (v := (windowSum c.swapPads x f i j, windowCount c.swapPads i j)) ?_
    (Stores.bind (v := windowSum c.swapPads x f i j / (windowCount c.swapPads i j : α)) ?_
      (Stores.store rfl ha rfl))
  · rw [← hsum, ← zero_add (∑ h ∈ _, _)]
    refine Evals.foldN_sum fun h acc hh => Evals.foldN_sum fun w acc hw => ?_
    dsimp only
    generalize (i : Int) * c.stride + h - c.padLeft = ii
    generalize (j : Int) * c.stride + w - c.padTop = jj
    by_cases hc : ii ≥ 0 ∧ ii < c.H ∧ jj ≥ 0 ∧ jj < c.W
    · rw [if_pos hc, if_pos hc]
      obtain ⟨h1, h2, h3, h4⟩ := hc
      have hl : Evals .temp m (load src (jj + c.W * (ii + c.H * f))) (x f ii.toNat jj.toNat) := by
        refine Evals.load3 hsrc hx hf (by omega) (by omega) ?_
        unfold at3; push_cast [Int.toNat_of_nonneg h1, Int.toNat_of_nonneg h3]; ring
      exact hl.bind (Evals.pure _ _ _)
    · rw [if_neg hc, if_neg hc, add_zero]
      exact Evals.pure _ _ _
  · intro u
    have := windowCount_pos c.swapPads i j (hne i j hi hj)
    simp [divCount, this]

/-- An accepted layer whose paddings are smaller than the pool has no empty window. -/
theorem window_nonempty (c : PoolP) (hacc : c.Accepted) (hH : 1 ≤ c.H) (hW : 1 ≤ c.W)
    (h1 : c.padTop < c.pool) (h2 : c.padLeft < c.pool) (h3 : c.padBottom < c.pool) (h4 : c.padRight < c.pool)
    (i j : Nat) (hi : i < c.Ho) (hj : j < c.Wo) : ∃ a b, InWindow c i j a b := by
  obtain ⟨a1, a2, a3, a4⟩ := hacc
  have key : ∀ (n o pb pt i : Nat), 1 ≤ n → pt < c.pool → pb < c.pool → i < o →
      (o : Int) = Int.fdiv ((n : Int) + pb + pt - c.pool) c.stride + 1 →
      ∃ a, a < n ∧ i * c.stride ≤ a + pt ∧ a + pt < i * c.stride + c.pool := by
    intro n o pb pt i hn hpt hpb hi ho
    have hs : (0 : Int) < c.stride := by omega
    have hle : (i : Int) ≤ Int.fdiv ((n : Int) + pb + pt - c.pool) c.stride := by omega
    rw [Int.fdiv_eq_ediv_of_nonneg _ hs.le, Int.le_ediv_iff_mul_le hs] at hle
    have hle' : i * c.stride + c.pool ≤ n + pb + pt := by
      zify; omega
    refine ⟨i * c.stride - pt, ?_, ?_, ?_⟩ <;> omega
  obtain ⟨a, ha⟩ := key c.H c.Ho c.padBottom c.padTop i hH h1 h3 hi a3
  obtain ⟨b, hb⟩ := key c.W c.Wo c.padRight c.padLeft j hW h2 h4 hj (by rw [a4]; congr 2; ring)
  exact ⟨a, b, ha, hb⟩

/-- **C13, code of average pooling** (partial: `pad_top = pad_left`). In every output position the generated
code leaves the activated average of the window, over the positions inside the image. -/
theorem C13_avg_code_partial [AddCommMonoid α] [Div α] [NatCast α] (c : PoolP) (size road : Nat) (act : α → α)
    (src : Buf) (x : Nat → Nat → Nat → α) (m : Mem α)
    (hacc : c.Accepted) (hH : 1 ≤ c.H) (hW : 1 ≤ c.W)
    (hpad : c.padTop = c.padLeft) (h1 : c.padTop < c.pool) (h3 : c.padBottom < c.pool) (h4 : c.padRight < c.pool)
    (hsrc : src ≠ .temp) (hx : Holds m src (tensor3 c.C c.H c.W x))
    (hsize : size = c.C * c.Ho * c.Wo)
    (ht : size ≤ m.size .temp) (ho : size ≤ m.size (.out road)) :
    Computes (avgPoolCode c size act src road) m (.out road)
      (tensor3 c.C c.Ho c.Wo fun f i j => act (windowSum c x f i j / (windowCount c i j : α))) := by
  have h := avgPool_swapped c size road act src x m (by
    rw [c.swapPads_eq hpad]
    intro i j hi hj
    exact window_nonempty c hacc hH hW h1 (by omega) h3 h4 i j hi hj) hsrc hx hsize ht ho
  rwa [c.swapPads_eq hpad] at h

/-! ## The Python reference -/

theorem mem_slice {lo hi n a : Nat} : a ∈ slice lo hi n ↔ a < n ∧ lo ≤ a ∧ a < hi := by
  simp [slice]

theorem amax_greatest [LinearOrder α] (l : List α) (hl : l ≠ []) :
    ∃ r, Np.amax l = some r ∧ IsGreatest {v | v ∈ l} r := by
  have key : ∀ (vs : List α) (v : α), IsGreatest {w | w ∈ v :: vs} (vs.foldl max v) := by
    intro vs
    induction vs with
    | nil => intro v; simp [IsGreatest, upperBounds]
    | cons w vs ih =>
      intro v
      obtain ⟨h1, h2⟩ := ih (max v w)
      simp only [List.foldl_cons]
      constructor
      · simp only [List.mem_cons, Set.mem_ofPred_eq] at h1 ⊢
        rcases h1 with h | h
        · rcases max_choice v w with e | e <;> rw [e] at h ⊢ <;> simp [h]
        · simp [h]
      · intro z hz
        have hm := h2 (show max v w ∈ {w' | w' ∈ max v w :: vs} by simp)
        simp only [List.mem_cons, Set.mem_ofPred_eq] at hz
        rcases hz with rfl | rfl | h
        · exact (le_max_left _ _).trans hm
        · exact (le_max_right _ _).trans hm
        · exact h2 (by simp [h])
  cases l with
  | nil => exact absurd rfl hl
  | cons v vs => exact ⟨_, rfl, key vs v⟩

theorem mem_poolSlice [Zero α] (c : PoolP) (x : Nat → Nat → Nat → α) (f i j : Nat) (v : α) :
    v ∈ poolSlice c x f i j ↔ ∃ a b,
      (a < (poolPadded c x).H ∧ i * c.stride ≤ a ∧ a < i * c.stride + c.pool) ∧
      (b < (poolPadded c x).W ∧ j * c.stride ≤ b ∧ b < j * c.stride + c.pool) ∧ (poolPadded c x).v f a b = v := by
  simp only [poolSlice, List.mem_flatMap, List.mem_map, mem_slice]
  constructor
  · rintro ⟨a, ha, b, hb, e⟩; exact ⟨a, b, ha, hb, e⟩
  · rintro ⟨a, b, ha, hb, e⟩; exact ⟨a, ha, b, hb, e⟩

/-- **C13, Python max pooling** (partial): if the top and left paddings are zero, or all four paddings are
non-zero and the input is non-negative, the Python reference computes the maximum of the window. -/
theorem C13_max_forward_partial [Zero α] [LinearOrder α] (c : PoolP) (x : Nat → Nat → Nat → α)
    (hacc : c.Accepted) (hH : 1 ≤ c.H) (hW : 1 ≤ c.W)
    (h1 : c.padTop < c.pool) (h2 : c.padLeft < c.pool) (h3 : c.padBottom < c.pool) (h4 : c.padRight < c.pool)
    (hp : (c.padTop = 0 ∧ c.padLeft = 0) ∨
      ((c.padRight ≠ 0 ∧ c.padLeft ≠ 0 ∧ c.padTop ≠ 0 ∧ c.padBottom ≠ 0) ∧
        ∀ f a b, f < c.C → a < c.H → b < c.W → 0 ≤ x f a b))
    (f i j : Nat) (hf : f < c.C) (hi : i < c.Ho) (hj : j < c.Wo) :
    ∃ r, maxPoolForward c x f i j = some r ∧ IsGreatest (windowSet c x f i j) r := by
  obtain ⟨a, b, hw⟩ := window_nonempty c hacc hH hW h1 h2 h3 h4 i j hi hj
  have hin : ∀ a b, InWindow c i j a b → x f a b ∈ poolSlice c x f i j := by
    intro a b ⟨⟨w1, w2, w3⟩, ⟨w4, w5, w6⟩⟩
    rw [mem_poolSlice]
    rcases hp with ⟨p1, p2⟩ | ⟨p, -⟩
    · refine ⟨a, b, ?_⟩
      rw [poolPadded, if_neg (by omega)]
      dsimp only
      exact ⟨⟨w1, by omega, by omega⟩, ⟨w4, by omega, by omega⟩, rfl⟩
    · refine ⟨a + c.padTop, b + c.padLeft, ?_⟩
      rw [poolPadded, if_pos p]
      dsimp only
      refine ⟨⟨by omega, by omega, by omega⟩, ⟨by omega, by omega, by omega⟩, ?_⟩
      rw [if_pos (by omega)]; congr 1 <;> omega
  have hne : poolSlice c x f i j ≠ [] := List.ne_nil_of_mem (hin a b hw)
  obtain ⟨r, e, g1, g2⟩ := amax_greatest _ hne
  refine ⟨r, e, ?_, ?_⟩
  · simp only [Set.mem_ofPred_eq, mem_poolSlice] at g1
    obtain ⟨a', b', ha, hb, e'⟩ := g1
    rcases hp with ⟨p1, p2⟩ | ⟨p, hpos⟩
    · rw [poolPadded, if_neg (by omega)] at ha hb e'
      dsimp only at ha hb e'
      exact ⟨a', b', ⟨⟨ha.1, by omega, by omega⟩, ⟨hb.1, by omega, by omega⟩⟩, e'.symm⟩
    · rw [poolPadded, if_pos p] at ha hb e'
      dsimp only at ha hb e'
      split at e'
      · next q =>
        exact ⟨a' - c.padTop, b' - c.padLeft, ⟨⟨by omega, by omega, by omega⟩, ⟨by omega, by omega, by omega⟩⟩, e'.symm⟩
      · refine ⟨a, b, hw, le_antisymm ?_ (g2 (hin a b hw))⟩
        rw [← e']; exact hpos f a b hf hw.1.1 hw.2.1
  · rintro v ⟨a', b', hw', rfl⟩
    exact g2 (hin a' b' hw')

theorem sum_slice {R : Type} [AddCommMonoid R] (lo hi n : Nat) (F : Nat → R) :
    ((slice lo hi n).map F).sum = ∑ a ∈ Finset.range n, if lo ≤ a ∧ a < hi then F a else 0 := by
  unfold slice
  induction n with
  | zero => simp
  | succ n ih =>
    rw [List.range_succ, List.filter_append, List.map_append, List.sum_append, ih, Finset.sum_range_succ]
    congr 1
    by_cases h : lo ≤ n ∧ n < hi
    · rw [List.filter_cons_of_pos (by simpa using h), if_pos h]; simp
    · rw [List.filter_cons_of_neg (by simpa using h), if_neg h]; simp

/-- **C13, Python average pooling** (partial: top and left paddings zero): the Python reference computes the
average of the window over the positions inside the image. -/
theorem C13_avg_forward_partial [AddCommMonoid α] [Div α] [NatCast α] (c : PoolP) (x : Nat → Nat → Nat → α)
    (hacc : c.Accepted) (hH : 1 ≤ c.H) (hW : 1 ≤ c.W)
    (h3 : c.padBottom < c.pool) (h4 : c.padRight < c.pool) (hp : c.padTop = 0 ∧ c.padLeft = 0)
    (f i j : Nat) (hi : i < c.Ho) (hj : j < c.Wo) :
    avgPoolForward c x f i j = some (windowSum c x f i j / (windowCount c i j : α)) := by
  have hpool : 1 ≤ c.pool := hacc.2.1
  have hpp : poolPadded c x = ⟨c.C, c.H, c.W, x⟩ := by rw [poolPadded, if_neg (by omega)]
  have hsum : (poolSlice c x f i j).sum = windowSum c x f i j := by
    rw [poolSlice, hpp]
    simp only [List.flatMap, List.sum_flatten, List.map_map, Function.comp_def]
    simp only [sum_slice, windowSum]
    apply Finset.sum_congr rfl; intro a ha
    simp only [Finset.mem_range] at ha
    by_cases q : i * c.stride ≤ a ∧ a < i * c.stride + c.pool
    · rw [if_pos q]
      apply Finset.sum_congr rfl; intro b hb
      simp only [Finset.mem_range] at hb
      refine if_congr ?_ rfl rfl
      simp only [InWindow]; omega
    · rw [if_neg q]; symm
      apply Finset.sum_eq_zero; intro b hb
      rw [if_neg]; simp only [InWindow]; omega
  have hlen : (poolSlice c x f i j).length = windowCount c i j := by
    rw [poolSlice, hpp]
    simp only [List.length_flatMap, List.length_map, windowCount]
    have hl : (slice (j * c.stride) (j * c.stride + c.pool) c.W).length =
        ∑ b ∈ Finset.range c.W, if j * c.stride ≤ b ∧ b < j * c.stride + c.pool then 1 else 0 := by
      rw [← sum_slice]; simp
    rw [hl, sum_slice]
    apply Finset.sum_congr rfl; intro a ha
    simp only [Finset.mem_range] at ha
    by_cases q : i * c.stride ≤ a ∧ a < i * c.stride + c.pool
    · rw [if_pos q]
      apply Finset.sum_congr rfl; intro b hb
      simp only [Finset.mem_range] at hb
      refine if_congr ?_ rfl rfl
      simp only [InWindow]; omega
    · rw [if_neg q]; symm
      apply Finset.sum_eq_zero; intro b hb
      rw [if_neg]; simp only [InWindow]; omega
  have hne := windowCount_pos c i j
    (window_nonempty c hacc hH hW (by omega) (by omega) h3 h4 i j hi hj)
  unfold avgPoolForward
  rw [← hsum, ← hlen]
  cases hps : poolSlice c x f i j with
  | nil => rw [hps] at hlen; simp at hlen; omega
  | cons v vs => rfl

/-- **C13, max pooling** (partial: equal top and left paddings, and the cases where the Python reference pads
correctly). The generated code leaves the activated result of the Python reference. -/
theorem C13_max_partial [Zero α] [LinearOrder α] (c : PoolP) (size road : Nat) (ninf : α) (act : α → α) (src : Buf)
    (x : Nat → Nat → Nat → α) (m : Mem α)
    (hacc : c.Accepted) (hH : 1 ≤ c.H) (hW : 1 ≤ c.W)
    (hpad : c.padTop = c.padLeft) (h1 : c.padTop < c.pool) (h3 : c.padBottom < c.pool) (h4 : c.padRight < c.pool)
    (hp : (c.padTop = 0 ∧ c.padLeft = 0) ∨
      ((c.padRight ≠ 0 ∧ c.padLeft ≠ 0 ∧ c.padTop ≠ 0 ∧ c.padBottom ≠ 0) ∧
        ∀ f a b, f < c.C → a < c.H → b < c.W → 0 ≤ x f a b))
    (hinf : ∀ f a b, f < c.C → a < c.H → b < c.W → ninf < x f a b)
    (hsrc : src ≠ .temp) (hx : Holds m src (tensor3 c.C c.H c.W x))
    (hsize : size = c.C * c.Ho * c.Wo)
    (ht : size ≤ m.size .temp) (ho : size ≤ m.size (.out road)) :
    ∃ r : Nat → Nat → Nat → α,
      (∀ f i j, f < c.C → i < c.Ho → j < c.Wo → maxPoolForward c x f i j = some (r f i j)) ∧
      Computes (maxPoolCode c size ninf act src road) m (.out road)
        (tensor3 c.C c.Ho c.Wo fun f i j => act (r f i j)) := by
  have hfw := C13_max_forward_partial c x hacc hH hW h1 (by omega) h3 h4 hp
  refine ⟨fun f i j => (maxPoolForward c x f i j).getD ninf, fun f i j hf hi hj => ?_,
    C13_max_code_partial c size road ninf act src x _ m hpad hinf (fun f i j hf hi hj => ?_) hsrc hx hsize ht ho⟩
  · obtain ⟨r, e, -⟩ := hfw f i j hf hi hj
    simp [e]
  · obtain ⟨r, e, g⟩ := hfw f i j hf hi hj
    simpa [e] using g

/-- **C13, average pooling** (partial: top and left paddings zero). The generated code leaves the activated
result of the Python reference. -/
theorem C13_avg_partial [AddCommMonoid α] [Div α] [NatCast α] (c : PoolP) (size road : Nat) (act : α → α)
    (src : Buf) (x : Nat → Nat → Nat → α) (m : Mem α)
    (hacc : c.Accepted) (hH : 1 ≤ c.H) (hW : 1 ≤ c.W)
    (hp : c.padTop = 0 ∧ c.padLeft = 0) (h3 : c.padBottom < c.pool) (h4 : c.padRight < c.pool)
    (hsrc : src ≠ .temp) (hx : Holds m src (tensor3 c.C c.H c.W x))
    (hsize : size = c.C * c.Ho * c.Wo)
    (ht : size ≤ m.size .temp) (ho : size ≤ m.size (.out road)) :
    ∃ r : Nat → Nat → Nat → α,
      (∀ f i j, f < c.C → i < c.Ho → j < c.Wo → avgPoolForward c x f i j = some (r f i j)) ∧
      Computes (avgPoolCode c size act src road) m (.out road)
        (tensor3 c.C c.Ho c.Wo fun f i j => act (r f i j)) :=
  have hpool : 1 ≤ c.pool := hacc.2.1
  ⟨fun f i j => windowSum c x f i j / (windowCount c i j : α),
    fun f i j _ hi hj => C13_avg_forward_partial c x hacc hH hW h3 h4 hp f i j hi hj,
    C13_avg_code_partial c size road act src x m hacc hH hW (by omega) (by omega) h3 h4 hsrc hx hsize ht ho⟩

/-! ## Where the code and the reference disagree -/

/-- **C13 fails** when the top and left paddings differ: this accepted max-pooling layer (1×2 image `[0, 1]`,
2×2 windows, top padding 1) leaves `0`; the maximum of its only window is `1`. -/
theorem C13_fails_swapped_pads :
    ∃ (c : PoolP) (x : Nat → Nat → Nat → Int), c.Accepted ∧ IsGreatest (windowSet c x 0 0 0) 1 ∧
      ∀ (m : Mem Int) (src : Buf) (road : Nat), src ≠ .temp → Holds m src (tensor3 c.C c.H c.W x) →
        1 ≤ m.size .temp → 1 ≤ m.size (.out road) →
        Computes (maxPoolCode c 1 (-1000) id src road) m (.out road) [0] := by
  refine ⟨⟨1, 1, 2, 1, 1, 1, 2, 1, 0, 0, 0⟩, fun _ _ j => j, ⟨by decide, by decide, by decide, by decide⟩, ?_, ?_⟩
  · refine ⟨⟨0, 1, by decide, rfl⟩, ?_⟩
    rintro v ⟨a, b, ⟨-, ⟨hb, -⟩⟩, rfl⟩
    dsimp only at hb ⊢
    omega
  · intro m src road hsrc hx ht ho
    refine maxPool_swapped ⟨1, 1, 2, 1, 1, 1, 2, 1, 0, 0, 0⟩ 1 road (-1000) id src _ (fun _ _ _ => 0) m
      (fun f a b _ _ _ => by omega) ?_ hsrc hx rfl ht ho
    intro f i j hf hi hj
    dsimp only at hf hi hj
    obtain rfl : i = 0 := by omega
    obtain rfl : j = 0 := by omega
    refine ⟨⟨0, 0, by decide, rfl⟩, ?_⟩
    rintro v ⟨a, b, ⟨-, ⟨hb, hb1, hb2⟩⟩, rfl⟩
    simp only [PoolP.swapPads] at hb hb1 hb2 ⊢
    omega

/-- **C13 fails**, max pooling with four non-zero paddings and negative inputs: on this accepted layer (1×1
image `[-1]`, 2×2 windows, paddings 1) the generated code leaves the maximum `-1` everywhere and the Python
reference computes `0`. -/
theorem C13_fails_negative :
    ∃ (c : PoolP) (x : Nat → Nat → Nat → Int), c.Accepted ∧ maxPoolForward c x 0 0 0 = some 0 ∧
      ∀ (m : Mem Int) (src : Buf) (road : Nat), src ≠ .temp → Holds m src (tensor3 c.C c.H c.W x) →
        4 ≤ m.size .temp → 4 ≤ m.size (.out road) →
        Computes (maxPoolCode c 4 (-1000) id src road) m (.out road) [-1, -1, -1, -1] := by
  refine ⟨⟨1, 1, 1, 2, 2, 1, 2, 1, 1, 1, 1⟩, fun _ _ _ => -1, ⟨by decide, by decide, by decide, by decide⟩,
    by decide, ?_⟩
  intro m src road hsrc hx ht ho
  refine C13_max_code_partial ⟨1, 1, 1, 2, 2, 1, 2, 1, 1, 1, 1⟩ 4 road (-1000) id src _ (fun _ _ _ => -1) m rfl
    (fun f a b _ _ _ => by omega) ?_ hsrc hx rfl ht ho
  intro f i j hf hi hj
  dsimp only at hf hi hj
  refine ⟨⟨0, 0, ⟨⟨by decide, ?_, ?_⟩, ⟨by decide, ?_, ?_⟩⟩, rfl⟩, ?_⟩
  · dsimp only; omega
  · dsimp only; omega
  · dsimp only; omega
  · dsimp only; omega
  · rintro v ⟨a, b, -, rfl⟩; exact le_refl _

/-- **C13 fails**, average pooling with four non-zero paddings: on this accepted layer (1×1 image `[4]`, 2×2
windows, paddings 1) the generated code leaves the average `4` over the image and the Python reference
computes `1`, counting the padding. -/
theorem C13_fails_average :
    ∃ (c : PoolP) (x : Nat → Nat → Nat → Int), c.Accepted ∧ avgPoolForward c x 0 0 0 = some 1 ∧
      ∀ (m : Mem Int) (src : Buf) (road : Nat), src ≠ .temp → Holds m src (tensor3 c.C c.H c.W x) →
        4 ≤ m.size .temp → 4 ≤ m.size (.out road) →
        Computes (avgPoolCode c 4 id src road) m (.out road) [4, 4, 4, 4] := by
  refine ⟨⟨1, 1, 1, 2, 2, 1, 2, 1, 1, 1, 1⟩, fun _ _ _ => 4, ⟨by decide, by decide, by decide, by decide⟩,
    by decide, ?_⟩
  intro m src road hsrc hx ht ho
  have h := C13_avg_code_partial ⟨1, 1, 1, 2, 2, 1, 2, 1, 1, 1, 1⟩ 4 road id src _ m
    ⟨by decide, by decide, by decide, by decide⟩ (by decide) (by decide) rfl (by decide) (by decide) (by decide)
    hsrc hx rfl ht ho
  refine Eq.mp (congrArg (Computes _ _ _) ?_) h
  decide

/-- **C13 fails** when some but not all paddings are zero: on this accepted layer (2×2 image with rows `0 0` and `5 5`, 2×2 windows, top and left
padding 1) Python ignores the padding and takes the window of the unpadded image. -/
theorem C13_fails_ignored_padding :
    ∃ (c : PoolP) (x : Nat → Nat → Nat → Int), c.Accepted ∧
      IsGreatest (windowSet c x 0 0 0) 0 ∧ maxPoolForward c x 0 0 0 = some 5 := by
  refine ⟨⟨1, 2, 2, 2, 2, 1, 2, 1, 0, 1, 0⟩, fun _ i _ => if i = 0 then 0 else 5,
    ⟨by decide, by decide, by decide, by decide⟩, ⟨⟨0, 0, by decide, rfl⟩, ?_⟩, by decide⟩
  rintro v ⟨a, b, ⟨⟨ha, ha1, ha2⟩, -⟩, rfl⟩
  dsimp only at ha ha1 ha2 ⊢
  obtain rfl : a = 0 := by omega
  simp

/-- hypotheses of C13 satisfiable: 3×3 windows, stride 2, paddings 1, on a 2-channel 5×5 image, in place -/
example (m : Mem Int) (x : Nat → Nat → Nat → Int) (hpos : ∀ f a b, 0 ≤ x f a b)
    (hx : Holds m (.out 0) (tensor3 2 5 5 x)) (ht : 18 ≤ m.size .temp) (ho : 18 ≤ m.size (.out 0)) :
    ∃ r : Nat → Nat → Nat → Int,
      (∀ f i j, f < 2 → i < 3 → j < 3 → maxPoolForward ⟨2, 5, 5, 3, 3, 2, 3, 1, 1, 1, 1⟩ x f i j = some (r f i j)) ∧
      Computes (maxPoolCode ⟨2, 5, 5, 3, 3, 2, 3, 1, 1, 1, 1⟩ 18 (-1) id (.out 0) 0) m (.out 0)
        (tensor3 2 3 3 fun f i j => r f i j) :=
  C13_max_partial ⟨2, 5, 5, 3, 3, 2, 3, 1, 1, 1, 1⟩ 18 0 (-1) id (.out 0) x m
    ⟨by decide, by decide, by decide, by decide⟩ (by decide) (by decide) rfl (by decide) (by decide) (by decide)
    (Or.inr ⟨by decide, fun f a b _ _ _ => hpos f a b⟩)
    (fun f a b _ _ _ => by have := hpos f a b; omega) (by simp) hx rfl ht ho

/-- ... and for the average: 2×2 windows, stride 2, on a 2-channel 5×4 image padded to 6 rows at the bottom -/
example (m : Mem Rat) (x : Nat → Nat → Nat → Rat)
    (hx : Holds m (.out 0) (tensor3 2 5 4 x)) (ht : 12 ≤ m.size .temp) (ho : 12 ≤ m.size (.out 0)) :
    ∃ r : Nat → Nat → Nat → Rat,
      (∀ f i j, f < 2 → i < 3 → j < 2 → avgPoolForward ⟨2, 5, 4, 3, 2, 2, 2, 0, 1, 0, 0⟩ x f i j = some (r f i j)) ∧
      Computes (avgPoolCode ⟨2, 5, 4, 3, 2, 2, 2, 0, 1, 0, 0⟩ 12 id (.out 0) 0) m (.out 0)
        (tensor3 2 3 2 fun f i j => r f i j) :=
  C13_avg_partial ⟨2, 5, 4, 3, 2, 2, 2, 0, 1, 0, 0⟩ 12 0 id (.out 0) x m
    ⟨by decide, by decide, by decide, by decide⟩ (by decide) (by decide) ⟨rfl, rfl⟩ (by decide) (by decide)
    (by simp) hx rfl ht ho

end Verif.Layers

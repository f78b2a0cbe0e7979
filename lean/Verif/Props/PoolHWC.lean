import Verif.Layers.PoolHWC
import Verif.Props.Pooling
import Verif.Props.Direct

/-!
# C75: the version `channels_last` of the pooling layers
-/

namespace Verif
open Prog
variable {α β : Type}

/-- The code `p` replaces the value `t` of every cell `base + k` of a row whose contents are known by `f k t`. -/
def RowMap (b : Buf) (m : Mem α) (base n : Nat) (p : Prog α Unit) (f : Nat → α → α) : Prop :=
  ∀ r w, p (m.upd b (overRow base n r w)) = some ((), m.upd b (overRow base n (fun k => f k (r k)) w))

theorem RowMap.congr {b : Buf} {m : Mem α} {base n : Nat} {p : Prog α Unit} {f f' : Nat → α → α}
    (e : ∀ k t, f k t = f' k t) (h : RowMap b m base n p f) : RowMap b m base n p f' := by
  have : f = f' := by funext k t; exact e k t
  rw [← this]; exact h

theorem RowMap.forN {b : Buf} {m : Mem α} {base n N : Nat} {body : Nat → Prog α Unit} {f : Nat → Nat → α → α}
    (h : ∀ i, i < N → RowMap b m base n (body i) (f i)) :
    RowMap b m base n (Prog.forN N body) fun k t => iter (fun i t => f i k t) t N := fun r w =>
  row_loops fun p r' hp => h p hp r' w

theorem RowMap.forRange {b : Buf} {m : Mem α} {base n : Nat} {lo hi : Int} {body : Int → Prog α Unit} {f : Int → Nat → α → α}
    (h : ∀ z, lo ≤ z → z < hi → RowMap b m base n (body z) (f z)) :
    RowMap b m base n (Layers.forRange lo hi body) fun k t => iter (fun i t => f (lo + i) k t) t (hi - lo).toNat :=
  RowMap.forN fun i hi' => h _ (by omega) (by omega)

theorem RowAdd.toMap [Add α] {b : Buf} {m : Mem α} {base n : Nat} {p : Prog α Unit} {g : Nat → α}
    (h : RowAdd b m base n p g) : RowMap b m base n p fun k t => t + g k := h

/-- initialisation of a row followed by updates of it -/
theorem Writes.rowMap {b : Buf} {m : Mem α} {base n : Nat} {p q : Prog α Unit} {r : Nat → α} {f : Nat → α → α}
    (hp : Writes b m p (rowW base n r)) (hq : RowMap b m base n q f) :
    Writes b m (p >>= fun _ => q) (rowW base n fun k => f k (r k)) := fun u => by
  refine (andThen_run (hp u)).trans ?_
  rw [Mem.upd_upd, Mem.upd_upd, overW_rowW, overW_rowW, hq]

theorem rowW_congr {base n : Nat} {r r' : Nat → α} (h : ∀ k, k < n → r k = r' k) : rowW base n r = rowW base n r' := by
  funext a
  by_cases ha : base ≤ a ∧ a < base + n
  · obtain ⟨k, rfl⟩ : ∃ k, a = base + k := ⟨a - base, by omega⟩
    rw [rowW_at (by omega), rowW_at (by omega), h k (by omega)]
  · rw [rowW_none (by omega), rowW_none (by omega)]

namespace Layers

/-- the layer as the code reads it: `pad_left` above the rows too -/
def PoolP.leftPads (c : PoolP) : PoolP := { c with padTop := c.padLeft }

theorem poolLow_eq (c : PoolP) (o : Nat) : poolLow c o = max (-((o : Int) * c.stride - c.padLeft)) 0 := by
  unfold poolLow; split <;> omega

theorem poolHigh_eq (c : PoolP) (n o : Nat) : poolHigh c n o = min (c.pool : Int) (n - ((o : Int) * c.stride - c.padLeft)) := by
  unfold poolHigh; split <;> omega

/-- the address `in_ptr + k` -/
theorem hwc_load {m : Mem α} {c : PoolP} {src : Buf} {x : Nat → Nat → Nat → α} (hsrc : src ≠ .temp)
    (hx : Holds m src (tensor3 c.H c.W c.C fun i j f => x f i j)) {ih iw : Int} {k : Nat} (h1 : 0 ≤ ih ∧ ih < c.H) (h2 : 0 ≤ iw ∧ iw < c.W)
    (hk : k < c.C) : Evals .temp m (load src ((ih * c.W + iw) * c.C + k)) (x k ih.toNat iw.toNat) := by
  refine Evals.load3 hsrc hx (f := ih.toNat) (i := iw.toNat) (j := k) (by omega) (by omega) hk ?_
  unfold at3
  push_cast [Int.toNat_of_nonneg h1.1, Int.toNat_of_nonneg h2.1]
  ring

/-- a maximum over the taps of a window -/
theorem iter_max_window [LinearOrder α] (g : Nat → Nat → α) (t : α) (n k : Nat) :
    let r := iter (fun h t => iter (fun w t => max (g h w) t) t k) t n
    t ≤ r ∧ (∀ h w, h < n → w < k → g h w ≤ r) ∧ (r = t ∨ ∃ h w, h < n ∧ w < k ∧ g h w = r) := by
  have e : ∀ v t : α, max v t = maxStep (some v) t := by
    intro v t
    unfold maxStep
    dsimp only
    split
    · next h => exact max_eq_left h.le
    · next h => exact max_eq_right (not_lt.mp h)
  simp only [e]
  obtain ⟨h1, h2, h3⟩ := iter_maxStep2 (fun h w => some (g h w)) t n k
  refine ⟨h1, fun h w hh hw => h2 h w _ hh hw rfl, h3.imp id fun ⟨h, w, hh, hw, e⟩ => ⟨h, w, hh, hw, Option.some.inj e⟩⟩

set_option maxHeartbeats 1000000 in
/-- The code of the version `channels_last` leaves the maxima of the windows of the layer whose top padding is `pad_left`. -/
theorem maxHWC_left [LinearOrder α] (c : PoolP) (size road : Nat) (ninf : α) (src : Buf)
    (x : Nat → Nat → Nat → α) (r : Nat → Nat → Nat → α) (m : Mem α)
    (hinf : ∀ f a b, f < c.C → a < c.H → b < c.W → ninf < x f a b)
    (hr : ∀ f i j, f < c.C → i < c.Ho → j < c.Wo → IsGreatest (windowSet c.leftPads x f i j) (r f i j))
    (hsrc : src ≠ .temp) (hx : Holds m src (tensor3 c.H c.W c.C fun i j f => x f i j))
    (hsize : size = c.C * c.Ho * c.Wo) (ht : size ≤ m.size .temp) (ho : size ≤ m.size (.out road)) :
    Computes (maxPoolHWCCode c size ninf src road) m (.out road) (tensor3 c.Ho c.Wo c.C fun i j f => r f i j) := by
  have hsz' : c.Ho * c.Wo * c.C = size := by rw [hsize]; ring
  have hres : tensor3 c.Ho c.Wo c.C (fun i j f => r f i j) = (tensor3 c.Ho c.Wo c.C fun i j f => r f i j).map id := by simp
  rw [hres]
  refine computes_of_temp id (by rw [tensor3_length, hsize]; ring) ho ?_
  refine rows_holds (by omega) fun oh ow hoh how hrow => ?_
  have ho' : ∀ k : Nat, (((oh * c.Wo + ow) * c.C : Nat) : Int) + k = ((at3 c.Wo c.C oh ow 0 + k : Nat) : Int) := by
    intro k; unfold at3; push_cast; ring
  let sh : Int := (oh : Int) * c.stride - c.padLeft
  let sw : Int := (ow : Int) * c.stride - c.padLeft
  let g : Nat → Int → Int → α := fun k kh kw => x k (sh + kh).toNat (sw + kw).toNat
  have hmap : RowMap .temp m (at3 c.Wo c.C oh ow 0) c.C (poolWindow c (maxUpd src) oh ow) fun k t =>
      iter (fun h t => iter (fun w t => max (g k (poolLow c oh + h) (poolLow c ow + w)) t) t
        (poolHigh c c.W ow - poolLow c ow).toNat) t (poolHigh c c.H oh - poolLow c oh).toNat := by
    unfold poolWindow
    refine RowMap.forRange (f := fun kh k t => iter (fun w t => max (g k kh (poolLow c ow + w)) t) t (poolHigh c c.W ow - poolLow c ow).toNat) fun kh h1 h2 =>
      RowMap.forRange (f := fun kw k t => max (g k kh kw) t) fun kw h3 h4 => ?_
    rw [poolLow_eq] at h1 h3
    rw [poolHigh_eq] at h2 h4
    have g1 : 0 ≤ sh + kh ∧ sh + kh < c.H := by omega
    have g2 : 0 ≤ sw + kw ∧ sw + kw < c.W := by omega
    intro r w
    refine row_loop (step := fun k t => max (g k kh kw) t) ?_
    intro k u t hk hu
    have hld : Evals .temp m (load src ((((oh : Int) * c.stride + kh - c.padLeft) * c.W + ((ow : Int) * c.stride + kw - c.padLeft)) * c.C + k)) (g k kh kw) := by
      have := hwc_load hsrc hx g1 g2 hk
      have e1 : (oh : Int) * c.stride + kh - c.padLeft = sh + kh := by simp only [sh]; ring
      have e2 : (ow : Int) * c.stride + kw - c.padLeft = sw + kw := by simp only [sw]; ring
      rw [e1, e2]
      exact this
    have hlt : load .temp ((((oh * c.Wo + ow) * c.C : Nat) : Int) + k) (m.upd .temp u) = some (t, m.upd .temp u) := by
      rw [ho' k, load_nat (by simp; omega), Mem.upd_val_same, hu]; rfl
    unfold maxUpd
    have hv : (do
        let x ← load src ((((oh : Int) * c.stride + kh - c.padLeft) * c.W + ((ow : Int) * c.stride + kw - c.padLeft)) * c.C + k)
        let t ← load .temp ((((oh * c.Wo + ow) * c.C : Nat) : Int) + k)
        (if x > t then load src ((((oh : Int) * c.stride + kh - c.padLeft) * c.W + ((ow : Int) * c.stride + kw - c.padLeft)) * c.C + k)
          else load .temp ((((oh * c.Wo + ow) * c.C : Nat) : Int) + k) : Prog α α) : Prog α α) (m.upd .temp u)
        = some (max (g k kh kw) t, m.upd .temp u) := by
      refine (andThen_run (hld u)).trans ?_
      refine (andThen_run hlt).trans ?_
      split
      · next h => rw [hld u, max_eq_left h.le]
      · next h => rw [hlt, max_eq_right (not_lt.mp h)]
    refine (andThen_run hv).trans ?_
    rw [ho' k]
    exact store_upd (by omega)
  have hw := Writes.rowMap (b := .temp) (m := m) (r := fun _ => ninf)
    (p := forN c.C fun k => store .temp ((((oh * c.Wo + ow) * c.C : Nat) : Int) + k) ninf)
    (Writes.row fun k hk => Stores.store (ho' k) (by omega) rfl) hmap
  refine Eq.mp ?_ hw
  refine congrArg (Writes _ _ _) (rowW_congr fun k hk => ?_)
  obtain ⟨q1, q2, q3⟩ := iter_max_window (fun h w => g k (poolLow c oh + h) (poolLow c ow + w)) ninf
    (poolHigh c c.H oh - poolLow c oh).toNat (poolHigh c c.W ow - poolLow c ow).toNat
  obtain ⟨⟨a, b, hw0, rv⟩, rub⟩ := hr k oh ow hk hoh how
  generalize iter (fun h t => iter (fun w t => max (g k (poolLow c oh + h) (poolLow c ow + w)) t) t
    (poolHigh c c.W ow - poolLow c ow).toNat) ninf (poolHigh c c.H oh - poolLow c oh).toNat = v at *
  rw [poolLow_eq, poolHigh_eq, poolLow_eq, poolHigh_eq] at q2 q3
  have hs1 : ((oh * c.stride : Nat) : Int) = (oh : Int) * c.stride := by push_cast; rfl
  have hs2 : ((ow * c.stride : Nat) : Int) = (ow : Int) * c.stride := by push_cast; rfl
  refine le_antisymm ?_ ?_
  · rcases q3 with e | ⟨h, w, hh, hw, e⟩
    · rw [e, rv]; exact (hinf k a b hk hw0.1.1 hw0.2.1).le
    · rw [← e]
      refine rub ⟨_, _, ?_, rfl⟩
      simp only [InWindow, PoolP.leftPads]
      exact ⟨⟨by omega, by omega, by omega⟩, ⟨by omega, by omega, by omega⟩⟩
  · rw [rv]
    obtain ⟨⟨w1, w2, w3⟩, ⟨w4, w5, w6⟩⟩ := hw0
    simp only [PoolP.leftPads] at w1 w2 w3 w4 w5 w6
    have := q2 (a - sh - max (-sh) 0).toNat (b - sw - max (-sw) 0).toNat (by omega) (by omega)
    simp only [g] at this
    have e1 : (sh + (max (-((oh : Int) * c.stride - c.padLeft)) 0 + ((a - sh - max (-sh) 0).toNat : Int))).toNat = a := by omega
    have e2 : (sw + (max (-((ow : Int) * c.stride - c.padLeft)) 0 + ((b - sw - max (-sw) 0).toNat : Int))).toNat = b := by omega
    rwa [e1, e2] at this

/-! ## Average -/

/-- the sum over the taps of the loops is the sum over the window -/
theorem leftPads_sum [AddCommMonoid α] (c : PoolP) (x : Nat → Nat → Nat → α) (k oh ow : Nat) :
    (∑ t ∈ Finset.range (poolHigh c c.H oh - poolLow c oh).toNat, ∑ t' ∈ Finset.range (poolHigh c c.W ow - poolLow c ow).toNat,
      x k (((oh : Int) * c.stride - c.padLeft) + (poolLow c oh + t)).toNat (((ow : Int) * c.stride - c.padLeft) + (poolLow c ow + t')).toNat) =
    windowSum c.leftPads x k oh ow := by
  have hr : ∑ h ∈ Finset.range c.pool, ∑ w ∈ Finset.range c.pool,
      (if (oh : Int) * c.stride + h - c.padLeft ≥ 0 ∧ (oh : Int) * c.stride + h - c.padLeft < c.H ∧
          (ow : Int) * c.stride + w - c.padLeft ≥ 0 ∧ (ow : Int) * c.stride + w - c.padLeft < c.W then
        x k ((oh : Int) * c.stride + h - c.padLeft).toNat ((ow : Int) * c.stride + w - c.padLeft).toNat else 0) =
      ∑ a ∈ Finset.range c.H, ∑ b ∈ Finset.range c.W, (if InWindow c.leftPads.swapPads oh ow a b then x k a b else 0) :=
    reindex2 c.leftPads oh ow (x k)
  have hsw : c.leftPads.swapPads = c.leftPads := PoolP.swapPads_eq _ rfl
  rw [hsw] at hr
  unfold windowSum
  refine Eq.trans ?_ hr
  let sh : Int := (oh : Int) * c.stride - c.padLeft
  let sw : Int := (ow : Int) * c.stride - c.padLeft
  rw [sum_window sh c.H c.pool (poolLow c oh) (poolHigh c c.H oh) (poolLow_eq c oh) (poolHigh_eq c _ oh) (fun kh =>
    ∑ t' ∈ Finset.range (poolHigh c c.W ow - poolLow c ow).toNat, x k (sh + kh).toNat (sw + (poolLow c ow + t')).toNat)]
  refine Finset.sum_congr rfl fun h _ => ?_
  rw [sum_window sw c.W c.pool (poolLow c ow) (poolHigh c c.W ow) (poolLow_eq c ow) (poolHigh_eq c _ ow) (fun kw => x k (sh + h).toNat (sw + kw).toNat)]
  have e1 : (oh : Int) * c.stride + h - c.padLeft = sh + h := by simp only [sh]; ring
  rw [e1]
  by_cases q : 0 ≤ sh + h ∧ sh + h < c.H
  · rw [if_pos q]
    refine Finset.sum_congr rfl fun w _ => ?_
    have e2 : (ow : Int) * c.stride + w - c.padLeft = sw + w := by simp only [sw]; ring
    rw [e2]
    exact if_congr ⟨fun r => ⟨q.1, q.2, r.1, r.2⟩, fun r => r.2.2⟩ rfl rfl
  · rw [if_neg q]
    refine (Finset.sum_eq_zero fun w _ => if_neg fun r => q ⟨r.1, r.2.1⟩).symm

/-- The code of the version `channels_last` leaves the sums of the windows of the layer whose top padding is `pad_left`, divided by
the area of the pool. -/
theorem avgHWC_left [Field α] (c : PoolP) (size road : Nat) (src : Buf) (x : Nat → Nat → Nat → α) (m : Mem α)
    (hpool : 1 ≤ c.pool) (hsrc : src ≠ .temp) (hx : Holds m src (tensor3 c.H c.W c.C fun i j f => x f i j))
    (hsize : size = c.C * c.Ho * c.Wo) (ht : size ≤ m.size .temp) (ho : size ≤ m.size (.out road)) :
    Computes (avgPoolHWCCode c size src road) m (.out road)
      (tensor3 c.Ho c.Wo c.C fun i j f => windowSum c.leftPads x f i j / ((c.pool * c.pool : Nat) : α)) := by
  have hsz' : c.Ho * c.Wo * c.C = size := by rw [hsize]; ring
  have hres : tensor3 c.Ho c.Wo c.C (fun i j f => windowSum c.leftPads x f i j / ((c.pool * c.pool : Nat) : α)) =
      (tensor3 c.Ho c.Wo c.C fun i j f => (0 + windowSum c.leftPads x f i j) * (1 / ((c.pool * c.pool : Nat) : α))).map id := by
    rw [List.map_id]
    refine tensor3_congr fun i j f _ _ _ => ?_
    rw [zero_add, mul_one_div]
  rw [hres]
  have hne : c.pool * c.pool ≠ 0 := by
    have := Nat.mul_pos hpool hpool; omega
  have hdiv : divCount (1 : α) (c.pool * c.pool) m = some (1 / ((c.pool * c.pool : Nat) : α), m) := by
    unfold divCount; rw [if_neg hne]
  unfold avgPoolHWCCode
  have hbody := computes_of_temp (m := m) (k := road) (n := size) (id : α → α)
    (c := forN c.Ho fun oh => forN c.Wo fun ow => do
      forN c.C fun k => store .temp ((((oh * c.Wo + ow) * c.C : Nat) : Int) + k) (0 : α)
      poolWindow c (sumUpd src) oh ow
      forN c.C fun k => do
        let t ← load .temp ((((oh * c.Wo + ow) * c.C : Nat) : Int) + k)
        store .temp ((((oh * c.Wo + ow) * c.C : Nat) : Int) + k) (t * (1 / ((c.pool * c.pool : Nat) : α))))
    (t := tensor3 c.Ho c.Wo c.C fun i j f => (0 + windowSum c.leftPads x f i j) * (1 / ((c.pool * c.pool : Nat) : α)))
    (by rw [tensor3_length, hsize]; ring) ho ?_
  · obtain ⟨m', e, h1, h2⟩ := hbody
    exact ⟨m', (andThen_run hdiv).trans e, h1, h2⟩
  · refine rows_holds (by omega) fun oh ow hoh how hrow => ?_
    have ho' : ∀ k : Nat, (((oh * c.Wo + ow) * c.C : Nat) : Int) + k = ((at3 c.Wo c.C oh ow 0 + k : Nat) : Int) := by
      intro k; unfold at3; push_cast; ring
    let sh : Int := (oh : Int) * c.stride - c.padLeft
    let sw : Int := (ow : Int) * c.stride - c.padLeft
    have hmap : RowMap .temp m (at3 c.Wo c.C oh ow 0) c.C (poolWindow c (sumUpd src) oh ow) fun k t => t + windowSum c.leftPads x k oh ow := by
      refine RowMap.congr (fun k t => ?_) (RowAdd.toMap (g := fun k => ∑ t ∈ Finset.range (poolHigh c c.H oh - poolLow c oh).toNat,
        ∑ t' ∈ Finset.range (poolHigh c c.W ow - poolLow c ow).toNat, x k (sh + (poolLow c oh + t)).toNat (sw + (poolLow c ow + t')).toNat) ?_)
      · rw [← leftPads_sum c x k oh ow]
      · unfold poolWindow
        refine RowAdd.forRange (g := fun kh k => ∑ t' ∈ Finset.range (poolHigh c c.W ow - poolLow c ow).toNat, x k (sh + kh).toNat (sw + (poolLow c ow + t')).toNat)
          fun kh h1 h2 => RowAdd.forRange (g := fun kw k => x k (sh + kh).toNat (sw + kw).toNat) fun kw h3 h4 => ?_
        rw [poolLow_eq] at h1 h3
        rw [poolHigh_eq] at h2 h4
        have g1 : 0 ≤ sh + kh ∧ sh + kh < c.H := by omega
        have g2 : 0 ≤ sw + kw ∧ sw + kw < c.W := by omega
        refine RowAdd.leaf ho' ho' hrow fun k hk => ?_
        have := hwc_load hsrc hx g1 g2 hk
        have e1 : (oh : Int) * c.stride + kh - c.padLeft = sh + kh := by simp only [sh]; ring
        have e2 : (ow : Int) * c.stride + kw - c.padLeft = sw + kw := by simp only [sw]; ring
        rw [e1, e2]
        exact this
    have hfin : RowMap .temp m (at3 c.Wo c.C oh ow 0) c.C (forN c.C fun k => do
        let t ← load .temp ((((oh * c.Wo + ow) * c.C : Nat) : Int) + k)
        store .temp ((((oh * c.Wo + ow) * c.C : Nat) : Int) + k) (t * (1 / ((c.pool * c.pool : Nat) : α))))
        fun _ t => t * (1 / ((c.pool * c.pool : Nat) : α)) := by
      intro r w
      refine row_loop (step := fun _ t => t * (1 / ((c.pool * c.pool : Nat) : α))) ?_
      intro k u t hk hu
      have hlt : load .temp ((((oh * c.Wo + ow) * c.C : Nat) : Int) + k) (m.upd .temp u) = some (t, m.upd .temp u) := by
        rw [ho' k, load_nat (by simp; omega), Mem.upd_val_same, hu]; rfl
      refine (andThen_run hlt).trans ?_
      rw [ho' k]
      exact store_upd (by omega)
    have hinit : Writes .temp m (forN c.C fun k => store .temp ((((oh * c.Wo + ow) * c.C : Nat) : Int) + k) (0 : α))
        (rowW (at3 c.Wo c.C oh ow 0) c.C fun _ => 0) :=
      Writes.row fun k hk => Stores.store (ho' k) (by omega) rfl
    intro u
    have h1 := hinit u
    rw [Mem.upd_upd, overW_rowW] at h1
    refine (andThen_run h1).trans ?_
    refine (andThen_run (hmap _ u)).trans ?_
    rw [Mem.upd_upd, overW_rowW]
    exact hfin _ u

theorem PoolP.leftPads_eq (c : PoolP) (h : c.padTop = c.padLeft) : c.leftPads = c := by
  cases c; simp only [PoolP.leftPads] at *; subst h; rfl

/-! ## The properties -/

/-- **C75, max pooling `channels_last`** (partial: `pad_top = pad_left`, because `pad_top` is not used).  On a feature map stored
channels-last, the code leaves, channels-last, the maximum of every window. -/
theorem C75_max_code_partial [LinearOrder α] (c : PoolP) (size road : Nat) (ninf : α) (src : Buf)
    (x : Nat → Nat → Nat → α) (r : Nat → Nat → Nat → α) (m : Mem α) (hpad : c.padTop = c.padLeft)
    (hinf : ∀ f a b, f < c.C → a < c.H → b < c.W → ninf < x f a b)
    (hr : ∀ f i j, f < c.C → i < c.Ho → j < c.Wo → IsGreatest (windowSet c x f i j) (r f i j))
    (hsrc : src ≠ .temp) (hx : Holds m src (tensor3 c.H c.W c.C fun i j f => x f i j))
    (hsize : size = c.C * c.Ho * c.Wo) (ht : size ≤ m.size .temp) (ho : size ≤ m.size (.out road)) :
    Computes (maxPoolHWCCode c size ninf src road) m (.out road) (tensor3 c.Ho c.Wo c.C fun i j f => r f i j) :=
  maxHWC_left c size road ninf src x r m hinf (by rw [c.leftPads_eq hpad]; exact hr) hsrc hx hsize ht ho

/-- **C75, max pooling `channels_last` and Python** (partial: the cases in which the default version agrees too, `C13_max_partial`). -/
theorem C75_max_partial [Zero α] [LinearOrder α] (c : PoolP) (size road : Nat) (ninf : α) (src : Buf)
    (x : Nat → Nat → Nat → α) (m : Mem α)
    (hacc : c.Accepted) (hH : 1 ≤ c.H) (hW : 1 ≤ c.W)
    (hpad : c.padTop = c.padLeft) (h1 : c.padTop < c.pool) (h3 : c.padBottom < c.pool) (h4 : c.padRight < c.pool)
    (hp : (c.padTop = 0 ∧ c.padLeft = 0) ∨
      ((c.padRight ≠ 0 ∧ c.padLeft ≠ 0 ∧ c.padTop ≠ 0 ∧ c.padBottom ≠ 0) ∧
        ∀ f a b, f < c.C → a < c.H → b < c.W → 0 ≤ x f a b))
    (hinf : ∀ f a b, f < c.C → a < c.H → b < c.W → ninf < x f a b)
    (hsrc : src ≠ .temp) (hx : Holds m src (tensor3 c.H c.W c.C fun i j f => x f i j))
    (hsize : size = c.C * c.Ho * c.Wo) (ht : size ≤ m.size .temp) (ho : size ≤ m.size (.out road)) :
    ∃ r : Nat → Nat → Nat → α,
      (∀ f i j, f < c.C → i < c.Ho → j < c.Wo → maxPoolForward c x f i j = some (r f i j)) ∧
      Computes (maxPoolHWCCode c size ninf src road) m (.out road) (tensor3 c.Ho c.Wo c.C fun i j f => r f i j) := by
  have hfw := C13_max_forward_partial c x hacc hH hW h1 (by omega) h3 h4 hp
  refine ⟨fun f i j => (maxPoolForward c x f i j).getD ninf, fun f i j hf hi hj => ?_,
    C75_max_code_partial c size road ninf src x _ m hpad hinf (fun f i j hf hi hj => ?_) hsrc hx hsize ht ho⟩
  · obtain ⟨r, e, -⟩ := hfw f i j hf hi hj
    simp [e]
  · obtain ⟨r, e, g⟩ := hfw f i j hf hi hj
    simpa [e] using g

/-- **C75, average pooling `channels_last`** (partial: `pad_top = pad_left`).  The code leaves, channels-last, the sum of every window
divided by the area of the pool, even where the window is not inside the image. -/
theorem C75_avg_code_partial [Field α] (c : PoolP) (size road : Nat) (src : Buf) (x : Nat → Nat → Nat → α) (m : Mem α)
    (hpool : 1 ≤ c.pool) (hpad : c.padTop = c.padLeft) (hsrc : src ≠ .temp)
    (hx : Holds m src (tensor3 c.H c.W c.C fun i j f => x f i j))
    (hsize : size = c.C * c.Ho * c.Wo) (ht : size ≤ m.size .temp) (ho : size ≤ m.size (.out road)) :
    Computes (avgPoolHWCCode c size src road) m (.out road)
      (tensor3 c.Ho c.Wo c.C fun i j f => windowSum c x f i j / ((c.pool * c.pool : Nat) : α)) := by
  have h := avgHWC_left c size road src x m hpool hsrc hx hsize ht ho
  rwa [c.leftPads_eq hpad] at h

/-- a sum over a padded axis -/
theorem sum_padded {R : Type} [AddCommMonoid R] (lo hi n pt pb : Nat) (F : Nat → R) :
    (∑ a ∈ Finset.range (n + pt + pb), if lo ≤ a ∧ a < hi then (if pt ≤ a ∧ a < pt + n then F (a - pt) else 0) else 0) =
      ∑ a ∈ Finset.range n, if lo ≤ a + pt ∧ a + pt < hi then F a else 0 := by
  have e : n + pt + pb = pt + (n + pb) := by omega
  rw [e, Finset.sum_range_add, Finset.sum_range_add]
  have z1 : (∑ a ∈ Finset.range pt, if lo ≤ a ∧ a < hi then (if pt ≤ a ∧ a < pt + n then F (a - pt) else 0) else 0) = 0 := by
    refine Finset.sum_eq_zero fun a ha => ?_
    have := Finset.mem_range.1 ha
    rw [if_neg (c := pt ≤ a ∧ a < pt + n) (by omega)]; simp
  have z2 : (∑ a ∈ Finset.range pb, if lo ≤ pt + (n + a) ∧ pt + (n + a) < hi then (if pt ≤ pt + (n + a) ∧ pt + (n + a) < pt + n then F (pt + (n + a) - pt) else 0) else 0) = 0 := by
    refine Finset.sum_eq_zero fun a ha => ?_
    rw [if_neg (c := pt ≤ pt + (n + a) ∧ pt + (n + a) < pt + n) (by omega)]; simp
  rw [z1, z2, zero_add, add_zero]
  refine Finset.sum_congr rfl fun a ha => ?_
  have := Finset.mem_range.1 ha
  rw [if_pos (c := pt ≤ pt + a ∧ pt + a < pt + n) (by omega), Nat.add_comm pt a, Nat.add_sub_cancel]

theorem slice_length {lo k n : Nat} (h : lo + k ≤ n) : (slice lo (lo + k) n).length = k := by
  have e : (slice lo (lo + k) n).length = ∑ a ∈ Finset.range n, if lo ≤ a ∧ a < lo + k then 1 else 0 := by
    rw [← sum_slice]; simp
  rw [e, ← Finset.sum_filter]
  have : (Finset.range n).filter (fun a => lo ≤ a ∧ a < lo + k) = Finset.Ico lo (lo + k) := by
    ext a; simp only [Finset.mem_filter, Finset.mem_range, Finset.mem_Ico]; omega
  rw [this]; simp

/-- the windows of an accepted layer end inside the padded image -/
theorem accepted_inside (c : PoolP) (hacc : c.Accepted) {i j : Nat} (hi : i < c.Ho) (hj : j < c.Wo) :
    i * c.stride + c.pool ≤ c.H + c.padTop + c.padBottom ∧ j * c.stride + c.pool ≤ c.W + c.padLeft + c.padRight := by
  obtain ⟨a1, a2, a3, a4⟩ := hacc
  have hs : (0 : Int) < c.stride := by omega
  have key : ∀ (i o : Nat) (z : Int), i < o → (o : Int) = Int.fdiv z c.stride + 1 → ((i * c.stride : Nat) : Int) ≤ z := by
    intro i o z hi ho
    have hle : (i : Int) ≤ Int.fdiv z c.stride := by omega
    rw [Int.fdiv_eq_ediv_of_nonneg _ hs.le, Int.le_ediv_iff_mul_le hs] at hle
    push_cast; exact hle
  have k1 := key i _ _ hi a3
  have k2 := key j _ _ hj a4
  constructor <;> omega

/-- **C75, the Python reference of the average** (partial: the four paddings are all zero or all non-zero): the sum of the window
divided by the area of the pool, which is what the version `channels_last` leaves (`C75_avg_code_partial`). -/
theorem C75_avg_forward_partial [Field α] (c : PoolP) (x : Nat → Nat → Nat → α) (hacc : c.Accepted)
    (hp : (c.padRight = 0 ∧ c.padLeft = 0 ∧ c.padTop = 0 ∧ c.padBottom = 0) ∨
      (c.padRight ≠ 0 ∧ c.padLeft ≠ 0 ∧ c.padTop ≠ 0 ∧ c.padBottom ≠ 0))
    (f i j : Nat) (hi : i < c.Ho) (hj : j < c.Wo) :
    avgPoolForward c x f i j = some (windowSum c x f i j / ((c.pool * c.pool : Nat) : α)) := by
  obtain ⟨b1, b2⟩ := accepted_inside c hacc hi hj
  have hH : (poolPadded c x).H = c.H + c.padTop + c.padBottom ∧ (poolPadded c x).W = c.W + c.padLeft + c.padRight := by
    unfold poolPadded
    split
    · exact ⟨rfl, rfl⟩
    · next h =>
      have : c.padRight = 0 ∧ c.padLeft = 0 ∧ c.padTop = 0 ∧ c.padBottom = 0 := hp.resolve_right h
      exact ⟨by dsimp only; omega, by dsimp only; omega⟩
  have hv : ∀ a b, a < c.H + c.padTop + c.padBottom → b < c.W + c.padLeft + c.padRight → (poolPadded c x).v f a b =
      if c.padTop ≤ a ∧ a < c.padTop + c.H then (if c.padLeft ≤ b ∧ b < c.padLeft + c.W then x f (a - c.padTop) (b - c.padLeft) else 0) else 0 := by
    intro a b ha hb
    unfold poolPadded
    split
    · dsimp only
      by_cases q : c.padTop ≤ a ∧ a < c.padTop + c.H <;> by_cases q' : c.padLeft ≤ b ∧ b < c.padLeft + c.W <;> simp [q, q', ← and_assoc]
    · next h =>
      obtain ⟨e1, e2, e3, e4⟩ : c.padRight = 0 ∧ c.padLeft = 0 ∧ c.padTop = 0 ∧ c.padBottom = 0 := hp.resolve_right h
      dsimp only
      rw [if_pos (by omega), if_pos (by omega), e2, e3]; rfl
  have hsum : (poolSlice c x f i j).sum = windowSum c x f i j := by
    rw [poolSlice]
    simp only [List.flatMap, List.sum_flatten, List.map_map, Function.comp_def]
    simp only [sum_slice, hH.1, hH.2, windowSum]
    have h2 := sum_padded (i * c.stride) (i * c.stride + c.pool) c.H c.padTop c.padBottom fun a =>
      ∑ b ∈ Finset.range c.W, if j * c.stride ≤ b + c.padLeft ∧ b + c.padLeft < j * c.stride + c.pool then x f a b else 0
    refine Eq.trans (Finset.sum_congr rfl fun a ha => ?_) (h2.trans (Finset.sum_congr rfl fun a ha => ?_))
    · have ha := Finset.mem_range.1 ha
      refine if_congr Iff.rfl ?_ rfl
      by_cases q : c.padTop ≤ a ∧ a < c.padTop + c.H
      · rw [if_pos q, ← sum_padded (j * c.stride) (j * c.stride + c.pool) c.W c.padLeft c.padRight]
        refine Finset.sum_congr rfl fun b hb => ?_
        rw [hv a b ha (Finset.mem_range.1 hb), if_pos q]
      · rw [if_neg q]
        refine Finset.sum_eq_zero fun b hb => ?_
        rw [hv a b ha (Finset.mem_range.1 hb), if_neg q]; simp
    · have ha := Finset.mem_range.1 ha
      by_cases q : i * c.stride ≤ a + c.padTop ∧ a + c.padTop < i * c.stride + c.pool
      · rw [if_pos q]
        refine Finset.sum_congr rfl fun b hb => ?_
        have hb := Finset.mem_range.1 hb
        refine if_congr ?_ rfl rfl
        simp only [InWindow]; omega
      · rw [if_neg q]; symm
        refine Finset.sum_eq_zero fun b _ => if_neg ?_
        simp only [InWindow]; omega
  have hlen : (poolSlice c x f i j).length = c.pool * c.pool := by
    rw [poolSlice]
    simp only [List.length_flatMap, List.length_map, hH.1, hH.2]
    rw [slice_length b2]
    simp only [List.map_const', List.sum_replicate, smul_eq_mul]
    rw [slice_length b1]
  have hpos : 0 < c.pool * c.pool := Nat.mul_pos hacc.2.1 hacc.2.1
  unfold avgPoolForward
  rw [← hsum, ← hlen]
  cases hps : poolSlice c x f i j with
  | nil => rw [hps] at hlen; simp only [List.length_nil] at hlen; omega
  | cons v vs => rfl

/-- **C75, average pooling `channels_last` and Python** (partial: `pad_top = pad_left`, and the four paddings all zero or all
non-zero). -/
theorem C75_avg_partial [Field α] (c : PoolP) (size road : Nat) (src : Buf) (x : Nat → Nat → Nat → α) (m : Mem α)
    (hacc : c.Accepted) (hpad : c.padTop = c.padLeft)
    (hp : (c.padRight = 0 ∧ c.padLeft = 0 ∧ c.padTop = 0 ∧ c.padBottom = 0) ∨
      (c.padRight ≠ 0 ∧ c.padLeft ≠ 0 ∧ c.padTop ≠ 0 ∧ c.padBottom ≠ 0))
    (hsrc : src ≠ .temp) (hx : Holds m src (tensor3 c.H c.W c.C fun i j f => x f i j))
    (hsize : size = c.C * c.Ho * c.Wo) (ht : size ≤ m.size .temp) (ho : size ≤ m.size (.out road)) :
    ∃ r : Nat → Nat → Nat → α,
      (∀ f i j, f < c.C → i < c.Ho → j < c.Wo → avgPoolForward c x f i j = some (r f i j)) ∧
      Computes (avgPoolHWCCode c size src road) m (.out road) (tensor3 c.Ho c.Wo c.C fun i j f => r f i j) :=
  ⟨_, fun f i j _ hi hj => C75_avg_forward_partial c x hacc hp f i j hi hj,
    C75_avg_code_partial c size road src x m hacc.2.1 hpad hsrc hx hsize ht ho⟩

/-- **C75, the two versions of the average.**  With `pad_top = pad_left` and no empty window, the default version leaves the quotient by the number of positions
inside the image and the version `channels_last` the quotient by the area of the pool: at one position they agree exactly if the window is
inside the image, or its sum is zero. -/
theorem C75_avg_versions_agree_iff [Field α] [CharZero α] (c : PoolP) (x : Nat → Nat → Nat → α) (hpool : 1 ≤ c.pool) (f i j : Nat)
    (hne : ∃ a b, InWindow c i j a b) :
    windowSum c x f i j / (windowCount c i j : α) = windowSum c x f i j / ((c.pool * c.pool : Nat) : α) ↔
      windowCount c i j = c.pool * c.pool ∨ windowSum c x f i j = 0 := by
  have h1 : ((windowCount c i j : Nat) : α) ≠ 0 := by exact_mod_cast windowCount_pos c i j hne
  have h2 : ((c.pool * c.pool : Nat) : α) ≠ 0 := by
    have := Nat.mul_pos hpool hpool
    exact_mod_cast (by omega : c.pool * c.pool ≠ 0)
  rw [div_eq_div_iff h1 h2]
  constructor
  · intro h
    by_cases hz : windowSum c x f i j = 0
    · exact .inr hz
    · exact .inl (by exact_mod_cast (mul_left_cancel₀ hz h).symm)
  · rintro (h | h) <;> simp [h]

/-! ## Where the code differs -/

/-- **C75 fails** for a top padding different from the left one: on this accepted layer (rows `0`, `5`, `1`; 2×2 windows, stride 2, top
padding 1) the maxima of the windows are `0` and `5`, and the code leaves `5` and `1`. -/
theorem C75_fails_top_padding :
    ∃ (c : PoolP) (x : Nat → Nat → Nat → Int), c.Accepted ∧ IsGreatest (windowSet c x 0 0 0) 0 ∧ IsGreatest (windowSet c x 0 1 0) 5 ∧
      ∀ (m : Mem Int) (src : Buf) (road : Nat), src ≠ .temp → Holds m src (tensor3 c.H c.W c.C fun i j f => x f i j) →
        2 ≤ m.size .temp → 2 ≤ m.size (.out road) →
        Computes (maxPoolHWCCode c 2 (-1000) src road) m (.out road) [5, 1] := by
  let v : Nat → Int := fun i => if i = 0 then 0 else if i = 1 then 5 else 1
  refine ⟨⟨1, 3, 2, 2, 1, 2, 2, 1, 0, 0, 0⟩, fun _ i _ => v i, ⟨by decide, by decide, by decide, by decide⟩, ?_, ?_, ?_⟩
  · refine ⟨⟨0, 0, by decide, rfl⟩, ?_⟩
    rintro w ⟨a, b, ⟨⟨ha, ha1, ha2⟩, -⟩, rfl⟩
    dsimp only at ha ha1 ha2 ⊢
    obtain rfl : a = 0 := by omega
    decide
  · refine ⟨⟨1, 0, by decide, rfl⟩, ?_⟩
    rintro w ⟨a, b, -, rfl⟩
    simp only [v]
    split <;> [decide; split <;> decide]
  · intro m src road hsrc hx ht ho
    refine maxHWC_left ⟨1, 3, 2, 2, 1, 2, 2, 1, 0, 0, 0⟩ 2 road (-1000) src _ (fun _ i _ => if i = 0 then 5 else 1) m
      (fun f a b _ _ _ => by simp only [v]; split <;> [decide; split <;> decide]) ?_ hsrc hx rfl ht ho
    intro f i j hf hi hj
    dsimp only at hf hi hj
    obtain rfl : j = 0 := by omega
    obtain rfl | rfl : i = 0 ∨ i = 1 := by omega
    · refine ⟨⟨1, 0, by decide, rfl⟩, ?_⟩
      rintro w ⟨a, b, -, rfl⟩
      simp only [v, if_true]
      split <;> [decide; split <;> decide]
    · refine ⟨⟨2, 0, by decide, rfl⟩, ?_⟩
      rintro w ⟨a, b, ⟨⟨ha, ha1, ha2⟩, -⟩, rfl⟩
      simp only [PoolP.leftPads] at ha ha1 ha2 ⊢
      obtain rfl : a = 2 := by omega
      decide

/-- **C75, the two versions differ**: on this accepted layer (1×1 image `[4]`, 2×2 windows, paddings 1) the version `channels_last` leaves
`1`, as the Python reference; the default version leaves `4`. -/
theorem C75_versions_differ :
    ∃ (c : PoolP) (x : Nat → Nat → Nat → Rat), c.Accepted ∧ avgPoolForward c x 0 0 0 = some 1 ∧
      ∀ (m : Mem Rat) (src : Buf) (road : Nat), src ≠ .temp → Holds m src (tensor3 c.H c.W c.C fun i j f => x f i j) →
        4 ≤ m.size .temp → 4 ≤ m.size (.out road) →
        Computes (avgPoolHWCCode c 4 src road) m (.out road) [1, 1, 1, 1] ∧ Computes (avgPoolCode c 4 id src road) m (.out road) [4, 4, 4, 4] := by
  have hw : ∀ i j, i < 2 → j < 2 → windowSum (⟨1, 1, 1, 2, 2, 1, 2, 1, 1, 1, 1⟩ : PoolP) (fun _ _ _ => (4 : Rat)) 0 i j = 4 ∧
      windowCount (⟨1, 1, 1, 2, 2, 1, 2, 1, 1, 1, 1⟩ : PoolP) i j = 1 := by
    intro i j hi hj
    obtain rfl | rfl : i = 0 ∨ i = 1 := by omega
    all_goals
      obtain rfl | rfl : j = 0 ∨ j = 1 := by omega
      all_goals exact ⟨by simp [windowSum, InWindow], by decide⟩
  have hacc : PoolP.Accepted ⟨1, 1, 1, 2, 2, 1, 2, 1, 1, 1, 1⟩ := ⟨by decide, by decide, by decide, by decide⟩
  refine ⟨⟨1, 1, 1, 2, 2, 1, 2, 1, 1, 1, 1⟩, fun _ _ _ => 4, hacc, ?_, fun m src road hsrc hx ht ho => ⟨?_, ?_⟩⟩
  · rw [C75_avg_forward_partial _ _ hacc (.inr (by decide)) 0 0 0 (by decide) (by decide), (hw 0 0 (by omega) (by omega)).1]
    norm_num
  · have h := C75_avg_code_partial _ 4 road src (fun _ _ _ => (4 : Rat)) m hacc.2.1 rfl hsrc hx rfl ht ho
    refine Eq.mp (congrArg (Computes _ _ _) ?_) h
    rw [show ([1, 1, 1, 1] : List Rat) = tensor3 2 2 1 fun _ _ _ => 1 from rfl]
    refine tensor3_congr fun i j f hi hj hf => ?_
    have hf : f < 1 := hf
    obtain rfl : f = 0 := by omega
    rw [(hw i j hi hj).1]; norm_num
  · have h := C13_avg_code_partial _ 4 road id src (fun _ _ _ => (4 : Rat)) m hacc (by decide) (by decide) rfl (by decide) (by decide) (by decide) hsrc hx rfl ht ho
    refine Eq.mp (congrArg (Computes _ _ _) ?_) h
    rw [show ([4, 4, 4, 4] : List Rat) = tensor3 1 2 2 fun _ _ _ => 4 from rfl]
    refine tensor3_congr fun f i j hf hi hj => ?_
    have hf : f < 1 := hf
    obtain rfl : f = 0 := by omega
    rw [(hw i j hi hj).1, (hw i j hi hj).2]; norm_num

/-- hypotheses met: 3×3 windows, stride 2, paddings 1, on a 2-channel 5×5 image, in place -/
example (m : Mem Rat) (x : Nat → Nat → Nat → Rat) (hpos : ∀ f a b, 0 ≤ x f a b)
    (hx : Holds m (.out 0) (tensor3 5 5 2 fun i j f => x f i j)) (ht : 18 ≤ m.size .temp) (ho : 18 ≤ m.size (.out 0)) :
    (∃ r : Nat → Nat → Nat → Rat,
      (∀ f i j, f < 2 → i < 3 → j < 3 → maxPoolForward ⟨2, 5, 5, 3, 3, 2, 3, 1, 1, 1, 1⟩ x f i j = some (r f i j)) ∧
      Computes (maxPoolHWCCode ⟨2, 5, 5, 3, 3, 2, 3, 1, 1, 1, 1⟩ 18 (-1) (.out 0) 0) m (.out 0) (tensor3 3 3 2 fun i j f => r f i j)) ∧
    ∃ r : Nat → Nat → Nat → Rat,
      (∀ f i j, f < 2 → i < 3 → j < 3 → avgPoolForward ⟨2, 5, 5, 3, 3, 2, 3, 1, 1, 1, 1⟩ x f i j = some (r f i j)) ∧
      Computes (avgPoolHWCCode ⟨2, 5, 5, 3, 3, 2, 3, 1, 1, 1, 1⟩ 18 (.out 0) 0) m (.out 0) (tensor3 3 3 2 fun i j f => r f i j) :=
  ⟨C75_max_partial ⟨2, 5, 5, 3, 3, 2, 3, 1, 1, 1, 1⟩ 18 0 (-1) (.out 0) x m
    ⟨by decide, by decide, by decide, by decide⟩ (by decide) (by decide) rfl (by decide) (by decide) (by decide)
    (Or.inr ⟨by decide, fun f a b _ _ _ => hpos f a b⟩)
    (fun f a b _ _ _ => by have := hpos f a b; linarith) (by simp) hx rfl ht ho,
   C75_avg_partial ⟨2, 5, 5, 3, 3, 2, 3, 1, 1, 1, 1⟩ 18 0 (.out 0) x m
    ⟨by decide, by decide, by decide, by decide⟩ rfl (.inr (by decide)) (by simp) hx rfl ht ho⟩

end Layers
end Verif

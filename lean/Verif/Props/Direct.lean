import Verif.Layers.Direct
import Verif.Props.Conv

/-!
# C50, C51: the blocked and the depth-wise convolution codes
-/

namespace Verif
open Prog
variable {α : Type}

theorem rowW_some {base n a : Nat} {r : Nat → α} {v : α} (h : rowW base n r a = some v) :
    ∃ k, k < n ∧ a = base + k ∧ v = r k := by
  by_cases ha : base ≤ a ∧ a < base + n
  · refine ⟨a - base, by omega, by omega, ?_⟩
    have e : a = base + (a - base) := by omega
    rw [e, rowW_at (by omega)] at h
    exact (Option.some.inj h).symm
  · rw [rowW_none (by omega)] at h; cases h

theorem tensor5_length (A B C D E : Nat) (v : Nat → Nat → Nat → Nat → Nat → α) :
    (tensor5 A B C D E v).length = A * (B * (C * D * E)) := by
  unfold tensor5
  exact flatMap_length_const _ _ _ (fun i => tensor4_length _ _ _ _ _)

/-- the address of an element of an array of rank five -/
theorem at5_lt {A B C D E a b c d e : Nat} (ha : a < A) (hb : b < B) (hc : c < C) (hd : d < D) (he : e < E) :
    e + E * (d + D * (c + C * (b + B * a))) < A * (B * (C * D * E)) := by
  have h1 := pair_lt he (pair_lt hd (pair_lt hc (pair_lt hb ha)))
  calc _ < _ := h1
    _ = _ := by ring

theorem at4_lt {B C D E b c d e : Nat} (hb : b < B) (hc : c < C) (hd : d < D) (he : e < E) :
    e + E * (d + D * (c + C * b)) < B * (C * D * E) := by
  have h1 := pair_lt he (pair_lt hd (pair_lt hc hb))
  calc _ < _ := h1
    _ = _ := by ring

theorem tensor5_get (A B C D E : Nat) (v : Nat → Nat → Nat → Nat → Nat → α) {a b c d e : Nat} (ha : a < A) (hb : b < B)
    (hc : c < C) (hd : d < D) (he : e < E)
    (h : e + E * (d + D * (c + C * (b + B * a))) < (tensor5 A B C D E v).length) :
    (tensor5 A B C D E v)[e + E * (d + D * (c + C * (b + B * a)))] = v a b c d e := by
  have hlt : e + E * (d + D * (c + C * b)) < B * (C * D * E) := at4_lt hb hc hd he
  have eq : e + E * (d + D * (c + C * (b + B * a))) = a * (B * (C * D * E)) + (e + E * (d + D * (c + C * b))) := by ring
  have h' : a * (B * (C * D * E)) + (e + E * (d + D * (c + C * b))) <
      ((List.range A).flatMap fun a => tensor4 B C D E (v a)).length := by rw [← eq]; exact h
  have := flatMap_get_const A (B * (C * D * E)) (fun a => tensor4 B C D E (v a)) (fun i => tensor4_length _ _ _ _ _)
    ha hlt h'
  simp only [eq]
  refine this.trans ?_
  exact tensor4_get B C D E (v a) hb hc hd he (by rw [tensor4_length]; exact hlt)

theorem Evals.load5 {b b' : Buf} {m : Mem α} {A B C D E a b0 c d e : Nat} {v : Nat → Nat → Nat → Nat → Nat → α} {z : Int}
    (hne : b' ≠ b) (h : Holds m b' (tensor5 A B C D E v)) (ha : a < A) (hb : b0 < B) (hc : c < C) (hd : d < D) (he : e < E)
    (hz : z = ((e + E * (d + D * (c + C * (b0 + B * a))) : Nat) : Int)) : Evals b m (Prog.load b' z) (v a b0 c d e) := by
  have hlt : e + E * (d + D * (c + C * (b0 + B * a))) < (tensor5 A B C D E v).length := by
    rw [tensor5_length]; exact at5_lt ha hb hc hd he
  refine Evals.load' hne hz (Nat.lt_of_lt_of_le hlt h.1) ?_
  rw [h.2 _ hlt, tensor5_get A B C D E v ha hb hc hd he hlt]

namespace Layers

theorem RowAdd.forRange [AddCommMonoid α] {b : Buf} {m : Mem α} {base n : Nat} {lo hi : Int} {body : Int → Prog α Unit}
    {g : Int → Nat → α} (h : ∀ z, lo ≤ z → z < hi → RowAdd b m base n (body z) (g z)) :
    RowAdd b m base n (forRange lo hi body) fun k => ∑ t ∈ Finset.range (hi - lo).toNat, g (lo + t) k :=
  RowAdd.forN fun i hi' => h _ (by omega) (by omega)

theorem RowAdd.congr [Add α] {b : Buf} {m : Mem α} {base n : Nat} {p : Prog α Unit} {g g' : Nat → α}
    (e : ∀ k, g k = g' k) (h : RowAdd b m base n p g) : RowAdd b m base n p g' := by
  have : g = g' := funext e
  rw [← this]; exact h

/-- the kernel positions whose input position `s + h` is inside, as a clipped range -/
theorem sum_window {M : Type} [AddCommMonoid M] (s : Int) (H KH : Nat) (lo hi : Int) (hlo : lo = max (-s) 0)
    (hhi : hi = min (KH : Int) (H - s)) (F : Int → M) :
    ∑ t ∈ Finset.range (hi - lo).toNat, F (lo + t) =
      ∑ h ∈ Finset.range KH, if 0 ≤ s + h ∧ s + h < H then F h else 0 := by
  rw [← Finset.sum_filter]
  have hset : (Finset.range KH).filter (fun h : Nat => 0 ≤ s + h ∧ s + h < H) =
      Finset.Ico lo.toNat (lo.toNat + (hi - lo).toNat) := by
    ext h
    simp only [Finset.mem_filter, Finset.mem_range, Finset.mem_Ico]
    omega
  rw [hset, Finset.sum_Ico_eq_sum_range]
  have : lo.toNat + (hi - lo).toNat - lo.toNat = (hi - lo).toNat := by omega
  rw [this]
  refine Finset.sum_congr rfl fun t _ => ?_
  congr 1
  have : 0 ≤ lo := by omega
  push_cast [Int.toNat_of_nonneg this]
  rfl

/-- loops writing the output feature map in HWC order, block of channels by block of channels -/
theorem blocks_holds {m : Mem α} {b : Buf} {nb bk H W : Nat} {body : Nat → Nat → Nat → Prog α Unit}
    {v : Nat → Nat → Nat → α} (hsz : H * W * (nb * bk) ≤ m.size b)
    (h : ∀ q i j, q < nb → i < H → j < W → at3 W (nb * bk) i j (q * bk) + bk ≤ m.size b →
      Writes b m (body q i j) (rowW (at3 W (nb * bk) i j (q * bk)) bk fun k => v i j (q * bk + k))) :
    ∃ m', loop3 nb H W body m = some ((), m') ∧ Holds m' b (tensor3 H W (nb * bk) v) ∧ OnlyChanges [b] m m' := by
  have hk : ∀ q k, q < nb → k < bk → q * bk + k < nb * bk := by
    intro q k hq hk
    calc q * bk + k < q * bk + bk := by omega
      _ = (q + 1) * bk := by ring
      _ ≤ nb * bk := Nat.mul_le_mul_right _ hq
  have hat : ∀ i j q k, at3 W (nb * bk) i j (q * bk) + k = at3 W (nb * bk) i j (q * bk + k) := by
    intro i j q k; unfold at3; ring
  have hbase : ∀ q i j, q < nb → i < H → j < W → at3 W (nb * bk) i j (q * bk) + bk ≤ m.size b := by
    intro q i j hq hi hj
    rcases Nat.eq_zero_or_pos bk with h0 | h0
    · subst h0
      simp only [at3, Nat.mul_zero, Nat.zero_mul]
      omega
    · have := at3_lt hi hj (hk q (bk - 1) hq (by omega))
      have e := hat i j q (bk - 1)
      omega
  obtain ⟨W', e, hs, -⟩ := loop3_writes (fun q i j hq hi hj => h q i j hq hi hj (hbase q i j hq hi hj)) (by
    intro q i j q' i' j' a x x' hq hi hj hq' hi' hj' h1 h2
    obtain ⟨k, k1, k2, -⟩ := rowW_some h1
    obtain ⟨k', k1', k2', -⟩ := rowW_some h2
    rw [hat] at k2 k2'
    obtain ⟨a1, a2, a3⟩ := at3_inj hj (hk q k hq k1) hj' (hk q' k' hq' k1') (k2.symm.trans k2')
    refine ⟨?_, a1, a2⟩
    have e1 := pair_div (A := bk) (a := k) (b := q) k1
    have e2 := pair_div (A := bk) (a := k') (b := q') k1'
    rw [← e1, ← e2]
    congr 1
    rw [Nat.add_comm, Nat.mul_comm, a3, Nat.add_comm, Nat.mul_comm])
  refine ⟨_, e, holds_tensor3.2 ⟨hsz, fun i j f hi hj hf => ?_⟩, OnlyChanges.upd m (by simp) _⟩
  have hbk : 0 < bk := by
    rcases Nat.eq_zero_or_pos bk with h0 | h0
    · subst h0; simp at hf
    · exact h0
  have hq : f / bk < nb := Nat.div_lt_of_lt_mul (by rw [Nat.mul_comm]; exact hf)
  have hf' : f = f / bk * bk + f % bk := by rw [Nat.mul_comm]; exact (Nat.div_add_mod f bk).symm
  have hm : f % bk < bk := Nat.mod_lt _ hbk
  rw [Mem.upd_val_same, hs (f / bk) i j _ (v i j f) hq hi hj ?_]
  · rfl
  · have e2 : at3 W (nb * bk) i j f = at3 W (nb * bk) i j (f / bk * bk) + f % bk := by rw [hat, ← hf']
    rw [e2, rowW_at hm, ← hf']

/-- **C50.** The blocked direct convolution code, on a feature map stored channels-last and on the weights of the
layer's layout, leaves the convolution, channels-last, without out-of-bounds access: for every kernel, stride, padding
(equal on top and left, as asserted), number of channels, and block size dividing the number of filters. -/
theorem C50_block_code [CommSemiring α] (c : ConvP) (bk size idx road : Nat) (act : α → α) (src : Buf)
    (wt : Nat → Nat → Nat → Nat → α) (bias : Nat → α) (x : Nat → Nat → Nat → α) (m : Mem α) (lay : List α)
    (hsrc : src ≠ .temp) (hdil : c.dil = 1) (hpad : c.padLeft = c.padTop) (hC : 0 < c.inC) (hF : bk ≤ c.filters)
    (hbk : 0 < bk)
    (hx : Holds m src (tensor3 c.inH c.inW c.inC fun i j p => x p i j))
    (hlay : blockLayout c bk wt = some lay) (hw : Holds m (.par .weights idx) lay)
    (hb : Holds m (.par .biases idx) (tensor c.filters bias))
    (hsize : size = c.filters * c.outH * c.outW)
    (ht : size ≤ m.size .temp) (ho : size ≤ m.size (.out road)) :
    Computes (directBlockCode c bk size idx act src road) m (.out road)
      (tensor3 c.outH c.outW c.filters fun i j f => convSpec c act wt bias x f i j) := by
  have hnb1 : max (c.filters / bk) 1 = c.filters / bk := Nat.max_eq_left (Nat.div_pos hF hbk)
  unfold blockLayout at hlay
  rw [hnb1] at hlay
  split at hlay
  swap
  · cases hlay
  next hfil =>
  obtain ⟨nb, hnb⟩ : ∃ nb, nb = c.filters / bk := ⟨_, rfl⟩
  rw [← hnb] at hlay hfil
  have hlay := (Option.some.inj hlay).symm
  subst hlay
  have hsz' : c.outH * c.outW * (nb * bk) = size := by rw [hsize, ← hfil]; ring
  have hcc : c.inC / c.inC = 1 := Nat.div_self hC
  let pre : Nat → Nat → Nat → α := fun i j f =>
    (∑ p ∈ Finset.range c.inC, ∑ h ∈ Finset.range c.kh, ∑ w ∈ Finset.range c.kw,
    wt f p h w * zeroExt c.inH c.inW x p ((i : Int) * c.stride + h * c.dil - c.padTop)
      ((j : Int) * c.stride + w * c.dil - c.padLeft)) + bias f
  have hres : tensor3 c.outH c.outW c.filters (fun i j f => convSpec c act wt bias x f i j) =
      (tensor3 c.outH c.outW c.filters pre).map act := by
    rw [tensor3_map]; rfl
  rw [hres]
  refine computes_of_temp act (by rw [tensor3_length, hsize]; ring) ho ?_
  have hgoal := blocks_holds (m := m) (b := .temp) (nb := nb) (bk := bk) (H := c.outH) (W := c.outW) (v := pre)
    (body := ?_) (by omega) ?_
  · rw [← hfil] at hgoal
    rw [← hnb]
    exact hgoal
  · intro b oh ow hb' hoh how hrow
    have ho' : ∀ k : Nat, (((oh * c.outW * c.filters + ow * c.filters + b * bk : Nat) : Int) + k) =
        ((at3 c.outW (nb * bk) oh ow (b * bk) + k : Nat) : Int) := by
      intro k; rw [hfil]; unfold at3; push_cast; ring
    have hbk' : ∀ k, k < bk → b * bk + k < c.filters := by
      intro k hk
      rw [hfil]
      calc b * bk + k < b * bk + bk := by omega
        _ = (b + 1) * bk := by ring
        _ ≤ nb * bk := Nat.mul_le_mul_right _ hb'
    have hinit : Writes .temp m (forN bk fun k => do
        let bias ← load (.par .biases idx) ((b * bk + k : Nat) : Int)
        store .temp (((oh * c.outW * c.filters + ow * c.filters + b * bk : Nat) : Int) + k) bias)
        (rowW (at3 c.outW (nb * bk) oh ow (b * bk)) bk fun k => bias (b * bk + k)) :=
      Writes.row fun k hk => Stores.bind (Evals.load1 (by simp) hb (hbk' k hk) rfl)
        (Stores.store (ho' k) (by omega) rfl)
    have heq : (fun k => pre oh ow (b * bk + k)) = fun k => bias (b * bk + k) + ∑ p ∈ Finset.range c.inC,
        ∑ h ∈ Finset.range c.kh, ∑ w ∈ Finset.range c.kw,
          wt (b * bk + k) p h w * zeroExt c.inH c.inW x p ((oh : Int) * c.stride + h * c.dil - c.padTop)
          ((ow : Int) * c.stride + w * c.dil - c.padLeft) := by
      funext k; simp only [pre]; rw [add_comm]
    rw [heq]
    refine Writes.rowAdd hinit ?_
    dsimp only
    rw [hcc]
    have hs : ∀ (o : Nat), (if (c.padLeft : Int) - o * c.stride > 0 then (c.padLeft : Int) - o * c.stride else 0) =
        max (-((o : Int) * c.stride - c.padLeft)) 0 := by
      intro o; generalize (o : Int) * c.stride = q; split <;> omega
    have he : ∀ (o K H : Nat), (if (K : Int) < H + c.padLeft - o * c.stride then (K : Int)
        else H + c.padLeft - o * c.stride) = min (K : Int) (H - ((o : Int) * c.stride - c.padLeft)) := by
      intro o K H; generalize (o : Int) * c.stride = q; split <;> omega
    rw [hs, hs, he, he]
    let sh : Int := (oh : Int) * c.stride - c.padLeft
    let sw : Int := (ow : Int) * c.stride - c.padLeft
    let term : Int → Int → Nat → Nat → α := fun kh kw ch k =>
      x ch (sh + kh).toNat (sw + kw).toNat * wt (b * bk + k) ch kh.toNat kw.toNat
    refine RowAdd.congr ?_ (RowAdd.forN (g := fun _ k =>
        ∑ t ∈ Finset.range (min (c.kh : Int) (c.inH - sh) - max (-sh) 0).toNat,
        ∑ t' ∈ Finset.range (min (c.kw : Int) (c.inW - sw) - max (-sw) 0).toNat,
        ∑ ch ∈ Finset.range c.inC, term (max (-sh) 0 + t) (max (-sw) 0 + t') ch k) fun bc hbc =>
      RowAdd.forRange (g := fun kh k =>
        ∑ t' ∈ Finset.range (min (c.kw : Int) (c.inW - sw) - max (-sw) 0).toNat,
        ∑ ch ∈ Finset.range c.inC, term kh (max (-sw) 0 + t') ch k) fun kh h1 h2 =>
      RowAdd.forRange (g := fun kw k => ∑ ch ∈ Finset.range c.inC, term kh kw ch k) fun kw h3 h4 =>
      RowAdd.forN (g := term kh kw) fun ch hch => ?_)
    · intro k
      rw [Finset.sum_range_one]
      rw [sum_window sh c.inH c.kh _ _ rfl rfl (fun kh =>
        ∑ t' ∈ Finset.range (min (c.kw : Int) (c.inW - sw) - max (-sw) 0).toNat,
        ∑ ch ∈ Finset.range c.inC, term kh (max (-sw) 0 + t') ch k)]
      rw [Finset.sum_comm (s := Finset.range c.inC)]
      refine Finset.sum_congr rfl fun h hh => ?_
      rw [sum_window sw c.inW c.kw _ _ rfl rfl (fun kw => ∑ ch ∈ Finset.range c.inC, term h kw ch k)]
      rw [Finset.sum_comm (s := Finset.range c.inC)]
      have e1 : (oh : Int) * c.stride + h * c.dil - c.padTop = sh + h := by
        rw [hdil, ← hpad]; simp only [sh]; push_cast; ring
      rw [e1]
      by_cases c1 : 0 ≤ sh + h ∧ sh + h < c.inH
      · rw [if_pos c1]
        refine Finset.sum_congr rfl fun w hw' => ?_
        have e2 : (ow : Int) * c.stride + w * c.dil - c.padLeft = sw + w := by
          rw [hdil]; simp only [sw]; push_cast; ring
        rw [e2]
        by_cases c2 : 0 ≤ sw + w ∧ sw + w < c.inW
        · rw [if_pos c2]
          refine Finset.sum_congr rfl fun p _ => ?_
          simp only [term, zeroExt, Int.toNat_natCast]
          rw [if_pos ⟨c1.1, c1.2, c2⟩, mul_comm]
        · rw [if_neg c2]
          refine (Finset.sum_eq_zero fun p _ => ?_).symm
          simp only [zeroExt]
          rw [if_neg (by tauto), mul_zero]
      · rw [if_neg c1]
        refine (Finset.sum_eq_zero fun w _ => Finset.sum_eq_zero fun p _ => ?_).symm
        simp only [zeroExt]
        rw [if_neg (by tauto), mul_zero]
    · have hbc0 : bc = 0 := by omega
      subst hbc0
      have g1 : 0 ≤ sh + kh ∧ sh + kh < c.inH := by omega
      have g2 : 0 ≤ sw + kw ∧ sw + kw < c.inW := by omega
      have g3 : 0 ≤ kh ∧ kh < c.kh := by omega
      have g4 : 0 ≤ kw ∧ kw < c.kw := by omega
      refine RowAdd.bind (v := x ch (sh + kh).toNat (sw + kw).toNat)
        (Evals.load3 hsrc hx (f := (sh + kh).toNat) (i := (sw + kw).toNat) (j := ch) (by omega) (by omega) hch ?_) ?_
      · unfold at3
        push_cast [Int.toNat_of_nonneg g1.1, Int.toNat_of_nonneg g2.1]
        simp only [sh, sw]; ring
      · refine RowAdd.leaf ho' ho' hrow fun k hk => ?_
        refine Evals.bind (v := wt (b * bk + k) ch kh.toNat kw.toNat) ?_ (Evals.pure _ _ _)
        refine Evals.load5 (by simp) hw (a := b) (b0 := kh.toNat) (c := kw.toNat) (d := ch) (e := k) hb' (by omega)
          (by omega) hch hk ?_
        push_cast [Int.toNat_of_nonneg g3.1, Int.toNat_of_nonneg g4.1]
        ring

/-- one row of output channels per position -/
theorem rows_holds {m : Mem α} {b : Buf} {K H W : Nat} {body : Nat → Nat → Prog α Unit}
    {v : Nat → Nat → Nat → α} (hsz : H * W * K ≤ m.size b)
    (h : ∀ i j, i < H → j < W → at3 W K i j 0 + K ≤ m.size b →
      Writes b m (body i j) (rowW (at3 W K i j 0) K fun k => v i j k)) :
    ∃ m', forN H (fun i => forN W fun j => body i j) m = some ((), m') ∧ Holds m' b (tensor3 H W K v) ∧
      OnlyChanges [b] m m' := by
  have := blocks_holds (m := m) (b := b) (nb := 1) (bk := K) (H := H) (W := W) (body := fun _ i j => body i j) (v := v)
    (by rw [Nat.one_mul]; exact hsz) (by
      intro q i j hq hi hj hs
      have : q = 0 := by omega
      subst this
      simp only [Nat.one_mul, Nat.zero_mul, Nat.zero_add] at hs ⊢
      exact h i j hi hj hs)
  rw [Nat.one_mul] at this
  exact this

/-- The depth-wise convolution: filter `k` on channel `k`. -/
def depthwiseSpec [AddCommMonoid α] [Mul α] (c : ConvP) (act : α → α) (wt : Nat → Nat → Nat → α)
    (bias : Nat → α) (x : Nat → Nat → Nat → α) (k i j : Nat) : α :=
  act ((∑ h ∈ Finset.range c.kh, ∑ w ∈ Finset.range c.kw,
    wt k h w * zeroExt c.inH c.inW x k ((i : Int) * c.stride + h - c.padTop)
      ((j : Int) * c.stride + w - c.padLeft)) + bias k)

/-- **C51.** The depth-wise code leaves the depth-wise convolution, channels-last, for every kernel, stride and
padding. -/
theorem C51_depthwise_code [CommSemiring α] (c : ConvP) (size idx road : Nat) (act : α → α) (src : Buf)
    (wt : Nat → Nat → Nat → α) (bias : Nat → α) (x : Nat → Nat → Nat → α) (m : Mem α)
    (hsrc : src ≠ .temp) (hpad : c.padLeft = c.padTop)
    (hx : Holds m src (tensor3 c.inH c.inW c.filters fun i j p => x p i j))
    (hw : Holds m (.par .weights idx) (dwLayout c wt))
    (hb : Holds m (.par .biases idx) (tensor c.filters bias))
    (hsize : size = c.filters * c.outH * c.outW)
    (ht : size ≤ m.size .temp) (ho : size ≤ m.size (.out road)) :
    Computes (depthwiseCode c size idx act src road) m (.out road)
      (tensor3 c.outH c.outW c.filters fun i j f => depthwiseSpec c act wt bias x f i j) := by
  have hsz' : c.outH * c.outW * c.filters = size := by rw [hsize]; ring
  let pre : Nat → Nat → Nat → α := fun i j k =>
    (∑ h ∈ Finset.range c.kh, ∑ w ∈ Finset.range c.kw,
    wt k h w * zeroExt c.inH c.inW x k ((i : Int) * c.stride + h - c.padTop)
      ((j : Int) * c.stride + w - c.padLeft)) + bias k
  have hres : tensor3 c.outH c.outW c.filters (fun i j f => depthwiseSpec c act wt bias x f i j) =
      (tensor3 c.outH c.outW c.filters pre).map act := by
    rw [tensor3_map]; rfl
  rw [hres]
  refine computes_of_temp act (by rw [tensor3_length, hsize]; ring) ho ?_
  refine rows_holds (by omega) fun oh ow hoh how hrow => ?_
  have ho' : ∀ k : Nat, (((oh * c.outW * c.filters + ow * c.filters : Nat) : Int) + k) =
      ((at3 c.outW c.filters oh ow 0 + k : Nat) : Int) := by
    intro k; unfold at3; push_cast; ring
  have heq : (fun k => pre oh ow k) = fun k => bias k + ∑ h ∈ Finset.range c.kh, ∑ w ∈ Finset.range c.kw,
        wt k h w * zeroExt c.inH c.inW x k ((oh : Int) * c.stride + h - c.padTop)
        ((ow : Int) * c.stride + w - c.padLeft) := by
    funext k; simp only [pre]; rw [add_comm]
  rw [heq]
  refine Writes.rowAdd (r := fun k => bias k) ?_ ?_
  · exact Writes.row fun k hk => Stores.bind (Evals.load1 (by simp) hb hk rfl) (Stores.store (ho' k) (by omega) rfl)
  · dsimp only
    let sh : Int := (oh : Int) * c.stride - c.padLeft
    let sw : Int := (ow : Int) * c.stride - c.padLeft
    have hs : ∀ q : Int, (if 0 > -q then 0 else -q) = max (-q) 0 := by intro q; split <;> omega
    have he : ∀ (K H : Nat) (q : Int), (if (K : Int) < H - q then (K : Int) else H - q) = min (K : Int) (H - q) := by
      intro K H q; split <;> omega
    rw [hs, hs, he, he]
    let term : Int → Int → Nat → α := fun kh kw k => x k (sh + kh).toNat (sw + kw).toNat * wt k kh.toNat kw.toNat
    refine RowAdd.congr ?_ (RowAdd.forRange (g := fun kh k =>
        ∑ t' ∈ Finset.range (min (c.kw : Int) (c.inW - sw) - max (-sw) 0).toNat, term kh (max (-sw) 0 + t') k) fun kh h1 h2 =>
      RowAdd.forRange (g := fun kw k => term kh kw k) fun kw h3 h4 => ?_)
    · intro k
      rw [sum_window sh c.inH c.kh _ _ rfl rfl (fun kh =>
        ∑ t' ∈ Finset.range (min (c.kw : Int) (c.inW - sw) - max (-sw) 0).toNat, term kh (max (-sw) 0 + t') k)]
      refine Finset.sum_congr rfl fun h hh => ?_
      rw [sum_window sw c.inW c.kw _ _ rfl rfl (fun kw => term h kw k)]
      have e1 : (oh : Int) * c.stride + h - c.padTop = sh + h := by
        rw [← hpad]; simp only [sh]; ring
      rw [e1]
      by_cases c1 : 0 ≤ sh + h ∧ sh + h < c.inH
      · rw [if_pos c1]
        refine Finset.sum_congr rfl fun w hw' => ?_
        have e2 : (ow : Int) * c.stride + w - c.padLeft = sw + w := by simp only [sw]; ring
        rw [e2]
        by_cases c2 : 0 ≤ sw + w ∧ sw + w < c.inW
        · rw [if_pos c2]
          simp only [term, zeroExt, Int.toNat_natCast]
          rw [if_pos ⟨c1.1, c1.2, c2⟩, mul_comm]
        · rw [if_neg c2]
          simp only [zeroExt]
          rw [if_neg (by tauto), mul_zero]
      · rw [if_neg c1]
        refine (Finset.sum_eq_zero fun w _ => ?_).symm
        simp only [zeroExt]
        rw [if_neg (by tauto), mul_zero]
    · have g1 : 0 ≤ sh + kh ∧ sh + kh < c.inH := by omega
      have g2 : 0 ≤ sw + kw ∧ sw + kw < c.inW := by omega
      have g3 : 0 ≤ kh ∧ kh < c.kh := by omega
      have g4 : 0 ≤ kw ∧ kw < c.kw := by omega
      refine RowAdd.leaf ho' ho' hrow fun k hk => ?_
      refine Evals.bind (v := x k (sh + kh).toNat (sw + kw).toNat)
        (Evals.load3 hsrc hx (f := (sh + kh).toNat) (i := (sw + kw).toNat) (j := k) (by omega) (by omega) hk ?_) ?_
      · unfold at3
        push_cast [Int.toNat_of_nonneg g1.1, Int.toNat_of_nonneg g2.1]
        simp only [sh, sw]; ring
      · refine Evals.bind (v := wt k kh.toNat kw.toNat) ?_ (Evals.pure _ _ _)
        refine Evals.load3 (by simp) hw (f := kh.toNat) (i := kw.toNat) (j := k) (by omega) (by omega) hk ?_
        unfold at3
        push_cast [Int.toNat_of_nonneg g3.1, Int.toNat_of_nonneg g4.1]
        ring

/-- **C50**, with the reference: for an accepted layer of one group, the block code leaves, channels-last, the tensor of
the Python reference. -/
theorem C50_block [CommSemiring α] (c : ConvP) (bk size idx road : Nat) (act : α → α) (src : Buf)
    (wt : Nat → Nat → Nat → Nat → α) (bias : Nat → α) (x : Nat → Nat → Nat → α) (m : Mem α) (lay : List α)
    (hacc : c.Accepted) (hsrc : src ≠ .temp) (hdil : c.dil = 1) (hpad : c.padLeft = c.padTop) (hC : 0 < c.inC)
    (hF : 0 < c.filters) (hbk : bk = blockK c.filters c.kw)
    (hx : Holds m src (tensor3 c.inH c.inW c.inC fun i j p => x p i j))
    (hlay : blockLayout c bk wt = some lay) (hw : Holds m (.par .weights idx) lay)
    (hb : Holds m (.par .biases idx) (tensor c.filters bias))
    (hsize : size = c.filters * c.outH * c.outW)
    (ht : size ≤ m.size .temp) (ho : size ≤ m.size (.out road)) :
    ∃ r, convForward c act wt bias x = some r ∧ r.C = c.filters ∧ r.H = c.outH ∧ r.W = c.outW ∧
      Computes (directBlockCode c bk size idx act src road) m (.out road) (tensor3 r.H r.W r.C fun i j f => r.v f i j) := by
  obtain ⟨r, e, h1, h2, h3, hf⟩ := C11_conv_forward_partial c act wt bias x hacc hdil
  refine ⟨r, e, h1, h2, h3, ?_⟩
  have h := C50_block_code c bk size idx road act src wt bias x m lay hsrc hdil hpad hC
    (by rw [hbk]; unfold blockK; split <;> omega) (by rw [hbk]; unfold blockK; split <;> omega) hx hlay hw hb hsize ht ho
  rw [h1, h2, h3]
  refine Eq.mp (congrArg (Computes _ _ _) ?_) h
  refine tensor3_congr fun i j f hi hj hf' => ?_
  unfold Arr.flat at hf
  rw [h1, h2, h3, tensor3_ext_iff] at hf
  exact (hf f i j hf' hi hj).symm

/-- hypotheses met: 128 filters in two blocks of 64 -/
example (wt : Nat → Nat → Nat → Nat → Int) : blockK 128 5 = 64 ∧
    (∃ lay, blockLayout ⟨128, 3, 8, 8, 4, 4, 5, 5, 2, 1, 2, 1, 2, 1⟩ 64 wt = some lay) ∧
    ConvP.Accepted ⟨128, 3, 8, 8, 4, 4, 5, 5, 2, 1, 2, 1, 2, 1⟩ ∧
    directVariant ⟨128, 3, 8, 8, 4, 4, 5, 5, 2, 1, 2, 1, 2, 1⟩ 1 = .block := by
  refine ⟨rfl, ⟨_, if_pos rfl⟩, ⟨by decide, by decide, by decide, by decide, by decide, by decide⟩, rfl⟩

end Layers
end Verif

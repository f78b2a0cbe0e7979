import Verif.Props.Direct
import Mathlib.Tactic.IntervalCases
import Mathlib.Tactic.FieldSimp
import Mathlib.Algebra.Field.Rat

/-!
# C30: the winograd code
-/

namespace Verif
namespace Layers
open Prog
variable {α : Type}

/-- `acc[i][j][k] += g(k)` for every `k` of the block -/
def addRow [Add α] (bk i j : Nat) (g : Nat → α) (acc : Nat → Nat → Nat → α) : Nat → Nat → Nat → α := fun i' j' k' =>
  if i' = i ∧ j' = j ∧ k' < bk then acc i' j' k' + g k' else acc i' j' k'

theorem Evals.addRow [Ring α] {b : Buf} {m : Mem α} {bk i j : Nat} {e : Nat → Prog α α} {w : Nat → α} {t : α}
    {acc : Nat → Nat → Nat → α} (he : ∀ k, k < bk → Evals b m (e k) (w k)) :
    Evals b m (foldN bk acc fun k acc => e k >>= fun v => (pure (set3 acc i j k (acc i j k + t * v)) : Prog α _))
      (addRow bk i j (fun k => t * w k) acc) := by
  have h := Evals.foldN_iter (b := b) (m := m) (n := bk) (init := acc)
    (body := fun k acc => e k >>= fun v => (pure (set3 acc i j k (acc i j k + t * v)) : Prog α _))
    (step := fun k acc => set3 acc i j k (acc i j k + t * w k))
    (fun k acc hk => Evals.bind (he k hk) (Evals.pure _ _ _))
  have e : iter (fun k acc => set3 acc i j k (acc i j k + t * w k)) acc bk = Layers.addRow bk i j (fun k => t * w k) acc := by
    clear h he
    induction bk with
    | zero => funext i' j' k'; simp [iter, Layers.addRow]
    | succ n ih =>
      rw [iter, ih]
      funext i' j' k'
      simp only [set3, Layers.addRow]
      by_cases h1 : i' = i ∧ j' = j
      · obtain ⟨rfl, rfl⟩ := h1
        by_cases h2 : k' = n
        · subst h2; simp
        · simp only [true_and, h2, if_false]
          by_cases h3 : k' < n
          · rw [if_pos h3, if_pos (by omega)]
          · rw [if_neg h3, if_neg (by omega)]
      · rw [if_neg (by tauto), if_neg (by tauto), if_neg (by tauto)]
  rw [e] at h
  exact h

theorem iter_point [AddCommMonoid α] {n i j k : Nat} {step : Nat → (Nat → Nat → Nat → α) → Nat → Nat → Nat → α}
    {init : Nat → Nat → Nat → α} {g : Nat → α}
    (h : ∀ q acc, q < n → step q acc i j k = acc i j k + g q) :
    iter step init n i j k = init i j k + ∑ q ∈ Finset.range n, g q := by
  induction n with
  | zero => simp [iter]
  | succ n ih => rw [iter, h _ _ (by omega), ih fun q acc hq => h q acc (by omega), Finset.sum_range_succ, add_assoc]

/-- the four columns of `temp` combined (`(Bᵀ d) B`) -/
def winogradT [Ring α] (d : Nat → Nat → α) (i : Nat) : Nat → α
  | 0 => winogradTemp d i 0 - winogradTemp d i 2
  | 1 => winogradTemp d i 1 + winogradTemp d i 2
  | 2 => winogradTemp d i 2 - winogradTemp d i 1
  | _ => winogradTemp d i 1 - winogradTemp d i 3

/-- **C30, tile.** For every 3×3 kernel `g` and 4×4 tile `d`, the output transform of the product of the transformed
kernel and tile is the 2×2 tile of convolution outputs. -/
theorem C30_tile [Field α] [CharZero α] (g d : Nat → Nat → α) (a b : Nat) (ha : a < 2) (hb : b < 2) :
    let U : Nat → Nat → α := fun i l => ∑ h ∈ Finset.range 3, ∑ w ∈ Finset.range 3, winogradG i h * g h w * winogradG l w
    let M : Nat → Nat → Nat → α := fun i l _ => winogradT d i l * U i l
    (if b = 0 then winogradM M a 0 0 + winogradM M a 1 0 + winogradM M a 2 0
      else winogradM M a 1 0 - winogradM M a 2 0 - winogradM M a 3 0) =
    ∑ h ∈ Finset.range 3, ∑ w ∈ Finset.range 3, g h w * d (a + h) (b + w) := by
  intro U M
  have ha : a = 0 ∨ a = 1 := by omega
  have hb : b = 0 ∨ b = 1 := by omega
  rcases ha with rfl | rfl <;> rcases hb with rfl | rfl <;>
  · simp [M, U, winogradM, winogradT, winogradTemp, winogradG, Finset.sum_range_succ]
    ring

/-- the 4×4 tile of the zero-extended input -/
def tileOf [Zero α] (c : ConvP) (x : Nat → Nat → Nat → α) (oh ow ic : Nat) (r cc : Nat) : α :=
  zeroExt c.inH c.inW x ic ((oh : Int) + r - c.padLeft) ((ow : Int) + cc - c.padLeft)

/-- the tile as the local array `d` -/
def tileArr [Zero α] (D : Nat → Nat → α) : Nat → Nat → α :=
  iter (fun r d => iter (fun cc d => set2 d r cc (D r cc)) d 4) (fun _ _ => 0) 4

theorem tileArr_eq [Zero α] (D : Nat → Nat → α) {r cc : Nat} (hr : r < 4) (hc : cc < 4) : tileArr D r cc = D r cc := by
  unfold tileArr
  interval_cases r <;> interval_cases cc <;> simp [iter, set2]

/-- loading the tile -/
theorem tile_evals [Ring α] {c : ConvP} {x : Nat → Nat → Nat → α} {src : Buf} {m : Mem α} (hsrc : src ≠ .temp)
    (hx : Holds m src (tensor3 c.inH c.inW c.inC fun i j p => x p i j)) (oh ow ic : Nat) (hic : ic < c.inC) :
    Evals .temp m (foldN 4 (fun (_ _ : Nat) => (0 : α)) fun r d => foldN 4 d fun cc d => do
        let ih : Int := (oh : Int) + r - c.padLeft
        let iw : Int := (ow : Int) + cc - c.padLeft
        let v ← (if (ih ≥ 0 ∧ ih < c.inH) ∧ (iw ≥ 0 ∧ iw < c.inW) then load src (ih * c.inW * c.inC + ic + iw * c.inC)
          else pure 0 : Prog α α)
        pure (set2 d r cc v)) (tileArr (tileOf c x oh ow ic)) := by
  refine Evals.foldN_iter (step := fun r d => iter (fun cc d => set2 d r cc (tileOf c x oh ow ic r cc)) d 4)
    fun r d hr => Evals.foldN_iter (step := fun cc d => set2 d r cc (tileOf c x oh ow ic r cc)) fun cc d hcc => ?_
  dsimp only
  refine Evals.bind (v := tileOf c x oh ow ic r cc) ?_ (Evals.pure _ _ _)
  unfold tileOf zeroExt
  generalize (oh : Int) + r - c.padLeft = ih
  generalize (ow : Int) + cc - c.padLeft = iw
  by_cases h : (ih ≥ 0 ∧ ih < c.inH) ∧ (iw ≥ 0 ∧ iw < c.inW)
  · rw [if_pos h, if_pos ⟨h.1.1, h.1.2, h.2⟩]
    obtain ⟨⟨h1, h2⟩, h3, h4⟩ := h
    refine Evals.load3 hsrc hx (f := ih.toNat) (i := iw.toNat) (j := ic) (by omega) (by omega) hic ?_
    unfold at3; push_cast [Int.toNat_of_nonneg h1, Int.toNat_of_nonneg h3]; ring
  · rw [if_neg h, if_neg (by tauto)]
    exact Evals.pure _ _ _

/-- accumulating the products of one channel -/
theorem acc_evals [Ring α] {m : Mem α} {bk idx nb C b ic : Nat} {U : Nat → Nat → Nat → Nat → Nat → α} {d : Nat → Nat → α}
    (hw : Holds m (.par .weights idx) (tensor5 nb 4 4 C bk U)) (hb : b < nb) (hic : ic < C) (hbk : 0 < bk)
    (acc : Nat → Nat → Nat → α) :
    ∃ acc', Evals .temp m (foldN 4 acc fun i acc => do
        let acc ← foldN bk acc fun k acc => do
          let w ← load (.par .weights idx) ((((((b * bk / bk) * 4 + i) * 4 + 0) * C + ic) * bk + k : Nat) : Int)
          pure (set3 acc i 0 k (acc i 0 k + (winogradTemp d i 0 - winogradTemp d i 2) * w))
        let acc ← foldN bk acc fun k acc => do
          let w ← load (.par .weights idx) ((((((b * bk / bk) * 4 + i) * 4 + 1) * C + ic) * bk + k : Nat) : Int)
          pure (set3 acc i 1 k (acc i 1 k + (winogradTemp d i 1 + winogradTemp d i 2) * w))
        let acc ← foldN bk acc fun k acc => do
          let w ← load (.par .weights idx) ((((((b * bk / bk) * 4 + i) * 4 + 2) * C + ic) * bk + k : Nat) : Int)
          pure (set3 acc i 2 k (acc i 2 k + (winogradTemp d i 2 - winogradTemp d i 1) * w))
        foldN bk acc fun k acc => do
          let w ← load (.par .weights idx) ((((((b * bk / bk) * 4 + i) * 4 + 3) * C + ic) * bk + k : Nat) : Int)
          pure (set3 acc i 3 k (acc i 3 k + (winogradTemp d i 1 - winogradTemp d i 3) * w))) acc' ∧
      ∀ i l k, i < 4 → l < 4 → k < bk → acc' i l k = acc i l k + winogradT d i l * U b i l ic k := by
  have hbb : b * bk / bk = b := Nat.mul_div_cancel _ hbk
  have hl : ∀ i l k, i < 4 → l < 4 → k < bk → Evals .temp m (load (.par .weights idx)
      ((((((b * bk / bk) * 4 + i) * 4 + l) * C + ic) * bk + k : Nat) : Int)) (U b i l ic k) := by
    intro i l k hi hl hk
    refine Evals.load5 (by simp) hw hb hi hl hic hk ?_
    rw [hbb]; push_cast; ring
  refine ⟨iter (fun i acc => addRow bk i 3 (fun k => winogradT d i 3 * U b i 3 ic k)
    (addRow bk i 2 (fun k => winogradT d i 2 * U b i 2 ic k) (addRow bk i 1 (fun k => winogradT d i 1 * U b i 1 ic k)
      (addRow bk i 0 (fun k => winogradT d i 0 * U b i 0 ic k) acc)))) acc 4, ?_, ?_⟩
  · refine Evals.foldN_iter fun i acc hi => ?_
    refine Evals.bind (Evals.addRow fun k hk => hl i 0 k hi (by omega) hk) ?_
    refine Evals.bind (Evals.addRow fun k hk => hl i 1 k hi (by omega) hk) ?_
    refine Evals.bind (Evals.addRow fun k hk => hl i 2 k hi (by omega) hk) ?_
    exact Evals.addRow fun k hk => hl i 3 k hi (by omega) hk
  · intro i l k hi hl hk
    interval_cases i <;> interval_cases l <;> simp [iter, addRow, hk]

theorem winogradT_congr [Ring α] {d d' : Nat → Nat → α} (h : ∀ r c, r < 4 → c < 4 → d r c = d' r c) {i l : Nat}
    (hi : i < 4) (hl : l < 4) : winogradT d i l = winogradT d' i l := by
  interval_cases i <;> interval_cases l <;> simp [winogradT, winogradTemp, h]

/-- the value before activation -/
def convPre [AddCommMonoid α] [Mul α] (c : ConvP) (wt : Nat → Nat → Nat → Nat → α)
    (bias : Nat → α) (x : Nat → Nat → Nat → α) (i j f : Nat) : α :=
  (∑ p ∈ Finset.range c.inC, ∑ h ∈ Finset.range c.kh, ∑ w ∈ Finset.range c.kw,
    wt f p h w * zeroExt c.inH c.inW x p ((i : Int) * c.stride + h * c.dil - c.padTop)
      ((j : Int) * c.stride + w * c.dil - c.padLeft)) + bias f

/-- the layout's elements -/
def winogradU [DivisionRing α] (bk : Nat) (wt : Nat → Nat → Nat → Nat → α) (b i l p k : Nat) : α :=
  ∑ h ∈ Finset.range 3, ∑ w ∈ Finset.range 3, winogradG i h * wt (b * bk + k) p h w * winogradG l w

theorem winogradM_sum [Ring α] {n a l k : Nat} {acc : Nat → Nat → Nat → α} {M : Nat → Nat → Nat → Nat → α}
    (h : ∀ i, i < 4 → acc i l k = ∑ q ∈ Finset.range n, M q i l 0) :
    winogradM acc a l k = ∑ q ∈ Finset.range n, winogradM (M q) a l 0 := by
  cases a with
  | zero =>
    simp only [winogradM, h 0 (by omega), h 1 (by omega), h 2 (by omega), Finset.sum_add_distrib]
  | succ a =>
    simp only [winogradM, h 1 (by omega), h 2 (by omega), h 3 (by omega), Finset.sum_sub_distrib]

/-- the four values stored for a tile -/
theorem tile_value [Field α] [CharZero α] (c : ConvP) (bk : Nat) (wt : Nat → Nat → Nat → Nat → α) (bias : Nat → α)
    (x : Nat → Nat → Nat → α) (hs : c.stride = 1) (hd : c.dil = 1) (hkh : c.kh = 3) (hkw : c.kw = 3)
    (hpad : c.padLeft = c.padTop) (b oh ow k : Nat) (acc : Nat → Nat → Nat → α)
    (hacc : ∀ i l, i < 4 → l < 4 → acc i l k =
      ∑ ic ∈ Finset.range c.inC, winogradT (tileOf c x oh ow ic) i l * winogradU bk wt b i l ic k) (a d : Nat) (ha : a < 2)
    (hd' : d < 2) :
    (if d = 0 then winogradM acc a 0 k + winogradM acc a 1 k + winogradM acc a 2 k
      else winogradM acc a 1 k - winogradM acc a 2 k - winogradM acc a 3 k) + bias (b * bk + k) =
    convPre c wt bias x (oh + a) (ow + d) (b * bk + k) := by
  let M : Nat → Nat → Nat → Nat → α := fun ic i l _ => winogradT (tileOf c x oh ow ic) i l *
    ∑ h ∈ Finset.range 3, ∑ w ∈ Finset.range 3, winogradG i h * wt (b * bk + k) ic h w * winogradG l w
  have hM : ∀ l, l < 4 → winogradM acc a l k = ∑ ic ∈ Finset.range c.inC, winogradM (M ic) a l 0 := fun l hl =>
    winogradM_sum fun i hi => hacc i l hi hl
  rw [hM 0 (by omega), hM 1 (by omega), hM 2 (by omega), hM 3 (by omega), convPre]
  congr 1
  have tile := fun ic => C30_tile (wt (b * bk + k) ic) (tileOf c x oh ow ic) a d ha hd'
  have pos : ∀ p h w, tileOf c x oh ow p (a + h) (d + w) = zeroExt c.inH c.inW x p
      (((oh + a : Nat) : Int) * c.stride + h * c.dil - c.padTop) (((ow + d : Nat) : Int) * c.stride + w * c.dil - c.padLeft) := by
    intro p h w
    unfold tileOf
    rw [hs, hd, ← hpad]
    congr 1 <;> push_cast <;> ring
  rw [hkh, hkw]
  rcases Nat.eq_zero_or_pos d with h0 | h0
  · rw [if_pos h0, ← Finset.sum_add_distrib, ← Finset.sum_add_distrib]
    refine Finset.sum_congr rfl fun ic _ => ?_
    have t := tile ic
    dsimp only at t
    rw [if_pos h0] at t
    refine Eq.trans t ?_
    refine Finset.sum_congr rfl fun h _ => Finset.sum_congr rfl fun w _ => ?_
    rw [pos]
  · rw [if_neg (by omega), ← Finset.sum_sub_distrib, ← Finset.sum_sub_distrib]
    refine Finset.sum_congr rfl fun ic _ => ?_
    have t := tile ic
    dsimp only at t
    rw [if_neg (by omega)] at t
    refine Eq.trans t ?_
    refine Finset.sum_congr rfl fun h _ => Finset.sum_congr rfl fun w _ => ?_
    rw [pos]

/-- the cells written for a tile -/
def tileRow [AddCommMonoid α] [Mul α] (c : ConvP) (bk : Nat) (wt : Nat → Nat → Nat → Nat → α) (bias : Nat → α)
    (x : Nat → Nat → Nat → α) (b th tw a d : Nat) : Nat → Option α :=
  rowW (at3 c.outW c.filters (2 * th + a) (2 * tw + d) (b * bk)) bk
    fun k => convPre c wt bias x (2 * th + a) (2 * tw + d) (b * bk + k)

/-- the accumulation of a tile's products, in `winogradCode` -/
def winogradAcc [Ring α] (c : ConvP) (bk idx : Nat) (src : Buf) (b th tw : Nat) : Prog α (Nat → Nat → Nat → α) :=
  foldN c.inC (fun (_ _ _ : Nat) => (0 : α)) fun ic acc => do
      let d ← foldN 4 (fun (_ _ : Nat) => (0 : α)) fun r d => foldN 4 d fun cc d => do
        let ih : Int := ((2 * th : Nat) : Int) + r - c.padLeft
        let iw : Int := ((2 * tw : Nat) : Int) + cc - c.padLeft
        let v ← (if (ih ≥ 0 ∧ ih < c.inH) ∧ (iw ≥ 0 ∧ iw < c.inW) then load src (ih * c.inW * c.inC + ic + iw * c.inC)
          else pure 0 : Prog α α)
        pure (set2 d r cc v)
      foldN 4 acc fun i acc => do
        let acc ← foldN bk acc fun k acc => do
          let w ← load (.par .weights idx) ((((((b * bk / bk) * 4 + i) * 4 + 0) * c.inC + ic) * bk + k : Nat) : Int)
          pure (set3 acc i 0 k (acc i 0 k + (winogradTemp d i 0 - winogradTemp d i 2) * w))
        let acc ← foldN bk acc fun k acc => do
          let w ← load (.par .weights idx) ((((((b * bk / bk) * 4 + i) * 4 + 1) * c.inC + ic) * bk + k : Nat) : Int)
          pure (set3 acc i 1 k (acc i 1 k + (winogradTemp d i 1 + winogradTemp d i 2) * w))
        let acc ← foldN bk acc fun k acc => do
          let w ← load (.par .weights idx) ((((((b * bk / bk) * 4 + i) * 4 + 2) * c.inC + ic) * bk + k : Nat) : Int)
          pure (set3 acc i 2 k (acc i 2 k + (winogradTemp d i 2 - winogradTemp d i 1) * w))
        foldN bk acc fun k acc => do
          let w ← load (.par .weights idx) ((((((b * bk / bk) * 4 + i) * 4 + 3) * c.inC + ic) * bk + k : Nat) : Int)
          pure (set3 acc i 3 k (acc i 3 k + (winogradTemp d i 1 - winogradTemp d i 3) * w))

/-- one iteration of the loops of `winogradCode` -/
def winogradTile [Ring α] (c : ConvP) (bk idx : Nat) (src : Buf) (b th tw : Nat) : Prog α Unit := do
    let acc ← winogradAcc c bk idx src b th tw
    forN bk fun k => do
      let bias ← load (.par .biases idx) ((b * bk + k : Nat) : Int)
      store .temp ((((2 * th + 0) * c.outW + (2 * tw + 0)) * c.filters + b * bk + k : Nat) : Int)
        (winogradM acc 0 0 k + winogradM acc 0 1 k + winogradM acc 0 2 k + bias)
    forN bk fun k => do
      let bias ← load (.par .biases idx) ((b * bk + k : Nat) : Int)
      store .temp ((((2 * th + 0) * c.outW + (2 * tw + 1)) * c.filters + b * bk + k : Nat) : Int)
        (winogradM acc 0 1 k - winogradM acc 0 2 k - winogradM acc 0 3 k + bias)
    forN bk fun k => do
      let bias ← load (.par .biases idx) ((b * bk + k : Nat) : Int)
      store .temp ((((2 * th + 1) * c.outW + (2 * tw + 0)) * c.filters + b * bk + k : Nat) : Int)
        (winogradM acc 1 0 k + winogradM acc 1 1 k + winogradM acc 1 2 k + bias)
    forN bk fun k => do
      let bias ← load (.par .biases idx) ((b * bk + k : Nat) : Int)
      store .temp ((((2 * th + 1) * c.outW + (2 * tw + 1)) * c.filters + b * bk + k : Nat) : Int)
        (winogradM acc 1 1 k - winogradM acc 1 2 k - winogradM acc 1 3 k + bias)

theorem winogradCode_eq [Ring α] (c : ConvP) (bk size idx : Nat) (act : α → α) (src : Buf) (road : Nat) :
    winogradCode c bk size idx act src road = (loop3 ((c.filters + bk - 1) / bk) (c.outH / 2) (c.outW / 2)
      (winogradTile c bk idx src) >>= fun _ => copyMap size .temp (.out road) act) := rfl

/-- **Winograd code, run.** Exactly the positions with `i < 2·⌊outH/2⌋` and `j < 2·⌊outW/2⌋` are written. -/
theorem winograd_loop [Field α] [CharZero α] (c : ConvP) (bk nb size idx road : Nat) (act : α → α) (src : Buf)
    (wt : Nat → Nat → Nat → Nat → α) (bias : Nat → α) (x : Nat → Nat → Nat → α) (m : Mem α)
    (hsrc : src ≠ .temp) (hs : c.stride = 1) (hd : c.dil = 1) (hkh : c.kh = 3) (hkw : c.kw = 3)
    (hpad : c.padLeft = c.padTop) (hfil : c.filters = nb * bk) (hbk : 0 < bk)
    (hx : Holds m src (tensor3 c.inH c.inW c.inC fun i j p => x p i j))
    (hw : Holds m (.par .weights idx) (tensor5 nb 4 4 c.inC bk (winogradU bk wt)))
    (hb : Holds m (.par .biases idx) (tensor c.filters bias))
    (hsize : size = c.filters * c.outH * c.outW)
    (ht : size ≤ m.size .temp) :
    ∃ (body : Prog α Unit) (W : Nat → Option α),
      winogradCode c bk size idx act src road = (body >>= fun _ => copyMap size .temp (.out road) act) ∧
      body m = some ((), m.upd .temp W) ∧
      (∀ i j f, i < 2 * (c.outH / 2) → j < 2 * (c.outW / 2) → f < c.filters →
        W (at3 c.outW c.filters i j f) = some (convPre c wt bias x i j f)) ∧
      (∀ i j f, i < c.outH → j < c.outW → f < c.filters → ¬ (i < 2 * (c.outH / 2) ∧ j < 2 * (c.outW / 2)) →
        W (at3 c.outW c.filters i j f) = none) := by
  have hk : ∀ q k, q < nb → k < bk → q * bk + k < c.filters := by
    intro q k hq hk
    rw [hfil]
    calc q * bk + k < q * bk + bk := by omega
      _ = (q + 1) * bk := by ring
      _ ≤ nb * bk := Nat.mul_le_mul_right _ hq
  have hat : ∀ i j q k, at3 c.outW c.filters i j (q * bk) + k = at3 c.outW c.filters i j (q * bk + k) := by
    intro i j q k; unfold at3; ring
  have hnb : (c.filters + bk - 1) / bk = nb := by
    rw [hfil, Nat.add_sub_assoc hbk, Nat.add_comm, Nat.add_mul_div_right _ _ hbk, Nat.div_eq_of_lt (by omega)]
    omega
  have hlt : ∀ i j f, i < c.outH → j < c.outW → f < c.filters → at3 c.outW c.filters i j f < m.size .temp := by
    intro i j f hi hj hf
    have := at3_lt hi hj hf
    have e : c.outH * c.outW * c.filters = size := by rw [hsize]; ring
    omega
  -- one tile
  let w : Nat → Nat → Nat → Nat → Option α := fun b th tw =>
    overW (tileRow c bk wt bias x b th tw 0 0) (overW (tileRow c bk wt bias x b th tw 0 1)
      (overW (tileRow c bk wt bias x b th tw 1 0) (tileRow c bk wt bias x b th tw 1 1)))
  have hrow : ∀ b th tw a d, b < nb → th < c.outH / 2 → tw < c.outW / 2 → a < 2 → d < 2 → ∀ ad v,
      tileRow c bk wt bias x b th tw a d ad = some v → ∃ k, k < bk ∧
        ad = at3 c.outW c.filters (2 * th + a) (2 * tw + d) (b * bk + k) ∧
        v = convPre c wt bias x (2 * th + a) (2 * tw + d) (b * bk + k) := by
    intro b th tw a d hb hth htw ha hd ad v h
    obtain ⟨k, k1, k2, k3⟩ := rowW_some h
    exact ⟨k, k1, by rw [k2, hat], k3⟩
  have hw_some : ∀ b th tw ad v, w b th tw ad = some v → ∃ a d, a < 2 ∧ d < 2 ∧ tileRow c bk wt bias x b th tw a d ad = some v := by
    intro b th tw ad v h
    simp only [w, overW] at h
    cases h11 : tileRow c bk wt bias x b th tw 1 1 ad with
    | some v' => rw [h11] at h; simp at h; exact ⟨1, 1, by omega, by omega, by rw [h11, h]⟩
    | none =>
      cases h10 : tileRow c bk wt bias x b th tw 1 0 ad with
      | some v' => rw [h11, h10] at h; simp at h; exact ⟨1, 0, by omega, by omega, by rw [h10, h]⟩
      | none =>
        cases h01 : tileRow c bk wt bias x b th tw 0 1 ad with
        | some v' => rw [h11, h10, h01] at h; simp at h; exact ⟨0, 1, by omega, by omega, by rw [h01, h]⟩
        | none => rw [h11, h10, h01] at h; simp at h; exact ⟨0, 0, by omega, by omega, h⟩
  have hw_none : ∀ b th tw ad, w b th tw ad = none → ∀ a d, a < 2 → d < 2 → tileRow c bk wt bias x b th tw a d ad = none := by
    intro b th tw ad h a d ha hd
    simp only [w, overW] at h
    have ha : a = 0 ∨ a = 1 := by omega
    have hd : d = 0 ∨ d = 1 := by omega
    simp only [Option.or_eq_none_iff] at h
    rcases ha with rfl | rfl <;> rcases hd with rfl | rfl <;> tauto
  have hbody : ∀ b th tw, b < nb → th < c.outH / 2 → tw < c.outW / 2 →
      Writes .temp m (winogradTile c bk idx src b th tw) (w b th tw) := by
    intro b th tw hb' hth htw
    -- the accumulated products
    have hacc : ∃ acc, Evals .temp m (winogradAcc c bk idx src b th tw) acc ∧ ∀ i l k, i < 4 → l < 4 → k < bk →
        acc i l k = ∑ ic ∈ Finset.range c.inC,
          winogradT (tileOf c x (2 * th) (2 * tw) ic) i l * winogradU bk wt b i l ic k := by
      have hstep := fun ic (acc : Nat → Nat → Nat → α) (hic : ic < c.inC) =>
        acc_evals (d := tileArr (tileOf c x (2 * th) (2 * tw) ic)) hw hb' hic hbk acc
      choose! step hs1 hs2 using hstep
      refine ⟨iter step (fun _ _ _ => 0) c.inC, ?_, ?_⟩
      · refine Evals.foldN_iter fun ic acc hic => ?_
        exact Evals.bind (tile_evals hsrc hx (2 * th) (2 * tw) ic hic) (hs1 ic acc hic)
      · intro i l k hi hl hk
        rw [iter_point (g := fun ic => winogradT (tileOf c x (2 * th) (2 * tw) ic) i l * winogradU bk wt b i l ic k)]
        · simp
        · intro ic acc hic
          rw [hs2 ic acc hic i l k hi hl hk,
            winogradT_congr (fun r cc hr hc => tileArr_eq (tileOf c x (2 * th) (2 * tw) ic) hr hc) hi hl]
    obtain ⟨acc, ha1, ha2⟩ := hacc
    refine Writes.bind ha1 ?_
    have hval : ∀ a d k, a < 2 → d < 2 → k < bk → _ := fun a d k ha hd' hkk =>
      tile_value c bk wt bias x hs hd hkh hkw hpad b (2 * th) (2 * tw) k acc
        (fun i l hi hl => ha2 i l k hi hl hkk) a d ha hd'
    have hbias : ∀ k, k < bk → Evals .temp m (load (.par .biases idx) ((b * bk + k : Nat) : Int)) (bias (b * bk + k)) :=
      fun k hkk => Evals.load1 (by simp) hb (hk b k hb' hkk) rfl
    have hone : ∀ a d, a < 2 → d < 2 → ∀ (e : Nat → α → α), (∀ k, k < bk → e k (bias (b * bk + k)) =
          convPre c wt bias x (2 * th + a) (2 * tw + d) (b * bk + k)) →
        Writes .temp m (forN bk fun k => do
          let bias ← load (.par .biases idx) ((b * bk + k : Nat) : Int)
          store .temp ((((2 * th + a) * c.outW + (2 * tw + d)) * c.filters + b * bk + k : Nat) : Int) (e k bias))
          (tileRow c bk wt bias x b th tw a d) := by
      intro a d ha hd' e he
      refine Writes.row fun k hkk => ?_
      refine Stores.bind (hbias k hkk) ?_
      have := hlt (2 * th + a) (2 * tw + d) (b * bk + k) (by omega) (by omega) (hk b k hb' hkk)
      rw [← hat] at this
      refine Stores.store ?_ this (he k hkk)
      unfold at3; push_cast; ring
    refine Writes.seq (hone 0 0 (by omega) (by omega) _ fun k hkk => ?_) (Writes.seq (hone 0 1 (by omega) (by omega) _
      fun k hkk => ?_) (Writes.seq (hone 1 0 (by omega) (by omega) _ fun k hkk => ?_) (hone 1 1 (by omega) (by omega) _
      fun k hkk => ?_)))
    · simpa using hval 0 0 k (by omega) (by omega) hkk
    · simpa using hval 0 1 k (by omega) (by omega) hkk
    · simpa using hval 1 0 k (by omega) (by omega) hkk
    · simpa using hval 1 1 k (by omega) (by omega) hkk
  have hdis : ∀ b th tw b' th' tw' ad v v', b < nb → th < c.outH / 2 → tw < c.outW / 2 → b' < nb → th' < c.outH / 2 →
      tw' < c.outW / 2 → w b th tw ad = some v → w b' th' tw' ad = some v' → b = b' ∧ th = th' ∧ tw = tw' := by
    intro b th tw b' th' tw' ad v v' h1 h2 h3 h1' h2' h3' hv hv'
    obtain ⟨a, d, ha, hd1, hv⟩ := hw_some _ _ _ _ _ hv
    obtain ⟨a', d', ha', hd1', hv'⟩ := hw_some _ _ _ _ _ hv'
    obtain ⟨k, k1, k2, k3⟩ := hrow _ _ _ _ _ h1 h2 h3 ha hd1 _ _ hv
    obtain ⟨k', k1', k2', k3'⟩ := hrow _ _ _ _ _ h1' h2' h3' ha' hd1' _ _ hv'
    obtain ⟨e1, e2, e3⟩ := at3_inj (by omega) (hk b k h1 k1) (by omega) (hk b' k' h1' k1') (k2.symm.trans k2')
    have p1 := pair_div (b := b) k1
    have p2 := pair_div (b := b') k1'
    rw [show k + bk * b = b * bk + k by ring, e3, show b' * bk + k' = k' + bk * b' by ring, p2] at p1
    exact ⟨p1.symm, by omega, by omega⟩
  obtain ⟨W, hrun, hsome, hnone⟩ := loop3_writes hbody hdis
  refine ⟨_, W, rfl, ?_, ?_, ?_⟩
  · rw [hnb]; exact hrun
  · intro i j f hi hj hf
    have hfb : f / bk < nb := Nat.div_lt_of_lt_mul (by rw [Nat.mul_comm, ← hfil]; exact hf)
    have hfk : f % bk < bk := Nat.mod_lt _ hbk
    have hi2 : 2 * (i / 2) + i % 2 = i := by omega
    have hj2 : 2 * (j / 2) + j % 2 = j := by omega
    have hf2 : f / bk * bk + f % bk = f := by rw [Nat.mul_comm]; exact Nat.div_add_mod f bk
    have hT : tileRow c bk wt bias x (f / bk) (i / 2) (j / 2) (i % 2) (j % 2) (at3 c.outW c.filters i j f) =
        some (convPre c wt bias x i j f) := by
      have h := rowW_at (base := at3 c.outW c.filters i j (f / bk * bk)) (r := fun k => convPre c wt bias x i j
        (f / bk * bk + k)) hfk
      rw [hat, hf2] at h
      unfold tileRow
      rw [hi2, hj2]
      exact h
    cases hc : w (f / bk) (i / 2) (j / 2) (at3 c.outW c.filters i j f) with
    | none =>
      have := hw_none _ _ _ _ hc (i % 2) (j % 2) (by omega) (by omega)
      rw [hT] at this
      exact absurd this (by simp)
    | some v =>
      rw [hsome _ _ _ _ _ hfb (by omega) (by omega) hc]
      obtain ⟨a, d, ha, hd1, hv⟩ := hw_some _ _ _ _ _ hc
      obtain ⟨k, k1, k2, k3⟩ := hrow _ _ _ _ _ hfb (by omega) (by omega) ha hd1 _ _ hv
      obtain ⟨e1, e2, e3⟩ := at3_inj (by omega) hf (by omega) (hk _ k hfb k1) k2
      rw [k3, ← e1, ← e2, ← e3]
  · intro i j f hi hj hf hne
    apply hnone
    intro b th tw h1 h2 h3
    cases hc : w b th tw (at3 c.outW c.filters i j f) with
    | none => rfl
    | some v =>
      obtain ⟨a, d, ha, hd1, hv⟩ := hw_some _ _ _ _ _ hc
      obtain ⟨k, k1, k2, k3⟩ := hrow _ _ _ _ _ h1 h2 h3 ha hd1 _ _ hv
      obtain ⟨e1, e2, e3⟩ := at3_inj hj hf (by omega) (hk b k h1 k1) k2
      omega

/-- **C30, run.** What the winograd code leaves, for every number of channels, filters, image and padding: the
convolution at the positions of complete 2×2 tiles, and at the others the activation of whatever `tensor_temp` held. -/
theorem C30_winograd_run [Field α] [CharZero α] (c : ConvP) (bk size idx road : Nat) (act : α → α) (src : Buf)
    (wt : Nat → Nat → Nat → Nat → α) (bias : Nat → α) (x : Nat → Nat → Nat → α) (m : Mem α) (lay : List α)
    (hsrc : src ≠ .temp) (hs : c.stride = 1) (hd : c.dil = 1) (hkh : c.kh = 3) (hkw : c.kw = 3)
    (hpad : c.padLeft = c.padTop) (hF : bk ≤ c.filters) (hbk : 0 < bk)
    (hx : Holds m src (tensor3 c.inH c.inW c.inC fun i j p => x p i j))
    (hlay : winogradLayout c bk wt = some lay) (hw : Holds m (.par .weights idx) lay)
    (hb : Holds m (.par .biases idx) (tensor c.filters bias))
    (hsize : size = c.filters * c.outH * c.outW)
    (ht : size ≤ m.size .temp) (ho : size ≤ m.size (.out road)) :
    Computes (winogradCode c bk size idx act src road) m (.out road) (tensor3 c.outH c.outW c.filters fun i j f =>
      if i < 2 * (c.outH / 2) ∧ j < 2 * (c.outW / 2) then convSpec c act wt bias x f i j
      else act (m.val .temp (at3 c.outW c.filters i j f))) := by
  have hnb1 : max (c.filters / bk) 1 = c.filters / bk := Nat.max_eq_left (Nat.div_pos hF hbk)
  unfold winogradLayout at hlay
  rw [hnb1] at hlay
  split at hlay
  swap
  · cases hlay
  next hfil =>
  have hlay := (Option.some.inj hlay).symm
  subst hlay
  obtain ⟨body, W, hcode, hrun, h1, h2⟩ := winograd_loop c bk (c.filters / bk) size idx road act src wt bias x m
    hsrc hs hd hkh hkw hpad hfil hbk hx hw hb hsize ht
  rw [hcode]
  have e : tensor3 c.outH c.outW c.filters (fun i j f =>
      if i < 2 * (c.outH / 2) ∧ j < 2 * (c.outW / 2) then convSpec c act wt bias x f i j
      else act (m.val .temp (at3 c.outW c.filters i j f))) =
      (tensor3 c.outH c.outW c.filters fun i j f =>
        if i < 2 * (c.outH / 2) ∧ j < 2 * (c.outW / 2) then convPre c wt bias x i j f
        else m.val .temp (at3 c.outW c.filters i j f)).map act := by
    rw [tensor3_map]
    refine tensor3_congr fun i j f _ _ _ => ?_
    split <;> rfl
  rw [e]
  refine computes_of_temp act (by rw [tensor3_length, hsize]; ring) ho
    ⟨_, hrun, holds_tensor3.2 ⟨?_, ?_⟩, OnlyChanges.upd m (by simp) _⟩
  · have : c.outH * c.outW * c.filters = size := by rw [hsize]; ring
    show _ ≤ m.size .temp
    omega
  · intro i j f hi hj hf
    rw [Mem.upd_val_same]
    by_cases h : i < 2 * (c.outH / 2) ∧ j < 2 * (c.outW / 2)
    · rw [if_pos h, h1 i j f h.1 h.2 hf]; rfl
    · rw [if_neg h, h2 i j f hi hj hf h]; rfl

/-- **C30.** For an accepted winograd layer whose output height and width are even, the code leaves, channels-last, the
convolution, which is also the tensor of the Python reference.  Missing for the full claim: odd output sizes, where it
fails (`C30_fails_odd`). -/
theorem C30_winograd_partial [Field α] [CharZero α] (c : ConvP) (bk size idx road : Nat) (act : α → α) (src : Buf)
    (wt : Nat → Nat → Nat → Nat → α) (bias : Nat → α) (x : Nat → Nat → Nat → α) (m : Mem α) (lay : List α)
    (hacc : c.Accepted) (hvar : directVariant c 1 = .winograd) (hsrc : src ≠ .temp) (hd : c.dil = 1)
    (hpad : c.padLeft = c.padTop) (hF : 0 < c.filters) (hbk : bk = blockK c.filters c.kw)
    (hx : Holds m src (tensor3 c.inH c.inW c.inC fun i j p => x p i j))
    (hlay : winogradLayout c bk wt = some lay) (hw : Holds m (.par .weights idx) lay)
    (hb : Holds m (.par .biases idx) (tensor c.filters bias))
    (hsize : size = c.filters * c.outH * c.outW)
    (ht : size ≤ m.size .temp) (ho : size ≤ m.size (.out road))
    (hevenH : 2 ∣ c.outH) (hevenW : 2 ∣ c.outW) :
    Computes (winogradCode c bk size idx act src road) m (.out road)
        (tensor3 c.outH c.outW c.filters fun i j f => convSpec c act wt bias x f i j) ∧
    ∃ r, convForward c act wt bias x = some r ∧ r.C = c.filters ∧ r.H = c.outH ∧ r.W = c.outW ∧
      Computes (winogradCode c bk size idx act src road) m (.out road)
        (tensor3 r.H r.W r.C fun i j f => r.v f i j) := by
  have hv : c.kh = 3 ∧ c.kw = 3 ∧ c.stride = 1 := by
    unfold directVariant at hvar
    split at hvar
    · cases hvar
    · split at hvar
      · next h => exact ⟨h.1, h.2.1, h.2.2.1⟩
      · cases hvar
  have h := C30_winograd_run c bk size idx road act src wt bias x m lay hsrc hv.2.2 hd hv.1 hv.2.1 hpad
    (by rw [hbk]; unfold blockK; split <;> omega) (by rw [hbk]; unfold blockK; split <;> omega) hx hlay hw hb hsize ht ho
  have e : tensor3 c.outH c.outW c.filters (fun i j f =>
      if i < 2 * (c.outH / 2) ∧ j < 2 * (c.outW / 2) then convSpec c act wt bias x f i j
      else act (m.val .temp (at3 c.outW c.filters i j f))) =
      tensor3 c.outH c.outW c.filters fun i j f => convSpec c act wt bias x f i j :=
    tensor3_congr fun i j f hi hj _ => if_pos ⟨by omega, by omega⟩
  rw [e] at h
  refine ⟨h, ?_⟩
  obtain ⟨r, e, h1, h2, h3, hf⟩ := C11_conv_forward_partial c act wt bias x hacc hd
  refine ⟨r, e, h1, h2, h3, ?_⟩
  rw [h1, h2, h3]
  refine Eq.mp (congrArg (Computes _ _ _) ?_) h
  refine tensor3_congr fun i j f hi hj hf' => ?_
  unfold Arr.flat at hf
  rw [h1, h2, h3, tensor3_ext_iff] at hf
  exact (hf f i j hf' hi hj).symm

/-- hypotheses met: 128 filters in two blocks, 3 channels, an 8×8 image with `same` padding -/
example (wt : Nat → Nat → Nat → Nat → ℚ) :
    let c : ConvP := ⟨128, 3, 8, 8, 8, 8, 3, 3, 1, 1, 1, 1, 1, 1⟩
    c.Accepted ∧ directVariant c 1 = .winograd ∧ blockK c.filters c.kw = 64 ∧ 2 ∣ c.outH ∧ 2 ∣ c.outW ∧
      ∃ lay, winogradLayout c 64 wt = some lay := by
  refine ⟨⟨by decide, by decide, by decide, by decide, by decide, by decide⟩, rfl, rfl, by decide, by decide, ⟨_, if_pos rfl⟩⟩

/-- The full claim: every accepted layer for which winograd is chosen. -/
def C30_statement : Prop := ∀ (c : ConvP) (bk size idx road : Nat) (act : ℚ → ℚ) (src : Buf)
    (wt : Nat → Nat → Nat → Nat → ℚ) (bias : Nat → ℚ) (x : Nat → Nat → Nat → ℚ) (m : Mem ℚ) (lay : List ℚ),
    c.Accepted → directVariant c 1 = .winograd → src ≠ .temp → c.dil = 1 →
    c.padLeft = c.padTop → 0 < c.filters → bk = blockK c.filters c.kw →
    Holds m src (tensor3 c.inH c.inW c.inC fun i j p => x p i j) →
    winogradLayout c bk wt = some lay → Holds m (.par .weights idx) lay →
    Holds m (.par .biases idx) (tensor c.filters bias) →
    size = c.filters * c.outH * c.outW → size ≤ m.size .temp → size ≤ m.size (.out road) →
    Computes (winogradCode c bk size idx act src road) m (.out road)
        (tensor3 c.outH c.outW c.filters fun i j f => convSpec c act wt bias x f i j)

/-- a 1×2 image of zeros, zero weights, and ones left in `tensor_temp` by an earlier layer -/
def winogradBad : Mem ℚ := ⟨fun _ => 100, fun b _ => if b = .temp then 1 else 0⟩

/-- It fails when the output height is odd (a 1×2 image with `same` padding): the last row is never computed. -/
theorem C30_fails_odd : ¬ C30_statement := by
  intro h
  have hlay : winogradLayout ⟨2, 1, 1, 2, 1, 2, 3, 3, 1, 1, 1, 1, 1, 1⟩ 2 (fun _ _ _ _ => (0 : ℚ)) =
      some (tensor5 1 4 4 1 2 fun _ _ _ _ _ => 0) := by
    unfold winogradLayout
    rw [if_pos (by decide)]
    simp
  have hw : Holds winogradBad (.par .weights 0) (tensor5 1 4 4 1 2 fun _ _ _ _ _ => (0 : ℚ)) := by
    refine ⟨by rw [tensor5_length]; decide, ?_⟩
    intro a ha
    rw [tensor5_length] at ha
    have : ∀ l : List ℚ, (∀ y ∈ l, y = 0) → ∀ a (h : a < l.length), l[a] = 0 := fun l hl a h => hl _ (List.getElem_mem h)
    rw [this]
    · rfl
    · intro y hy
      exact (by simpa [tensor5, tensor4, tensor3] using hy : (∃ x, x < 4) ∧ y = 0).2
  have hx : Holds winogradBad (.cst 0) (tensor3 1 2 1 fun _ _ _ => (0 : ℚ)) :=
    holds_tensor3.2 ⟨by decide, fun _ _ _ _ _ _ => rfl⟩
  have hb : Holds winogradBad (.par .biases 0) (tensor 2 fun _ => (0 : ℚ)) :=
    ⟨by simp [winogradBad], fun a ha => by rw [tensor_get]; rfl⟩
  have h1 := h ⟨2, 1, 1, 2, 1, 2, 3, 3, 1, 1, 1, 1, 1, 1⟩ 2 4 0 0 id (.cst 0) (fun _ _ _ _ => 0) (fun _ => 0)
    (fun _ _ _ => 0) winogradBad _
    ⟨by decide, by decide, by decide, by decide, by decide, by decide⟩ rfl (by simp) rfl rfl (by decide) rfl hx hlay hw hb
    rfl (by decide) (by decide)
  have h2 := C30_winograd_run ⟨2, 1, 1, 2, 1, 2, 3, 3, 1, 1, 1, 1, 1, 1⟩ 2 4 0 0 id (.cst 0) (fun _ _ _ _ => 0) (fun _ => 0)
    (fun _ _ _ => 0) winogradBad _ (by simp) rfl rfl rfl rfl rfl (by decide) (by decide) hx hlay hw hb
    rfl (by decide) (by decide)
  have h3 := Computes.unique h1 h2 (by simp [tensor3_length])
  rw [tensor3_ext_iff] at h3
  have := h3 0 0 0 (by decide) (by decide) (by decide)
  simp [convSpec, winogradBad] at this

instance [DecidableEq α] (m : Mem α) (b : Buf) (t : List α) : Decidable (Holds m b t) := by
  unfold Holds; infer_instance

/-- The block layer also needs its `layout` in the parameter file. -/
def C50_parameters_statement : Prop := ∀ (bin : Bool) (c : ConvP) (bk size idx road : Nat) (act : Int → Int) (src : Buf)
    (wt : Nat → Nat → Nat → Nat → Int) (bias : Nat → Int) (x : Nat → Nat → Nat → Int) (m : Mem Int) (lay : List Int),
    c.Accepted → directVariant c 1 = .block → src ≠ .temp → c.dil = 1 → c.padLeft = c.padTop → 0 < c.inC →
    0 < c.filters → bk = blockK c.filters c.kw →
    Holds m src (tensor3 c.inH c.inW c.inC fun i j p => x p i j) →
    blockLayout c bk wt = some lay → Holds m (.par .weights idx) (directParams bin c lay wt) →
    Holds m (.par .biases idx) (tensor c.filters bias) →
    size = c.filters * c.outH * c.outW → size ≤ m.size .temp → size ≤ m.size (.out road) →
    Computes (directBlockCode c bk size idx act src road) m (.out road)
        (tensor3 c.outH c.outW c.filters fun i j f => convSpec c act wt bias x f i j)

/-- a 1×1 image with channels `[1, 0]`; the weights `[[0, 1], [2, 3]]` of a 1×1 kernel, in C order -/
def blockBad : Mem Int := ⟨fun _ => 4, fun b a => match b with
  | .par .weights 0 => a | .par .biases 0 => 0 | _ => if a = 0 then 1 else 0⟩

/-- It fails with `bin_dataset = False`: `parameters.c` holds the weights in KCHW order, so the code multiplies by the
transposed matrix. -/
theorem C50_fails_text_parameters : ¬ C50_parameters_statement := by
  intro h
  have h1 := h false ⟨2, 2, 1, 1, 1, 1, 1, 1, 1, 1, 0, 0, 0, 0⟩ 2 2 0 0 id (.cst 0) (fun f p _ _ => 2 * f + p) (fun _ => 0)
    (fun p _ _ => if p = 0 then 1 else 0) blockBad _
    ⟨by decide, by decide, by decide, by decide, by decide, by decide⟩ rfl (by simp) rfl rfl (by decide) (by decide) rfl
    (by decide +kernel) (if_pos rfl) (by decide +kernel) (by decide +kernel) rfl (by decide) (by decide)
  obtain ⟨m', e, hm, -⟩ := h1
  have hv : (directBlockCode ⟨2, 2, 1, 1, 1, 1, 1, 1, 1, 1, 0, 0, 0, 0⟩ 2 2 0 id (.cst 0) 0 blockBad).map
      (fun r => r.2.val (.out 0) 1) = some 1 := by decide +kernel
  rw [e] at hv
  have h2 := (holds_tensor3.1 hm).2 0 0 1 (by decide) (by decide) (by decide)
  have hv : m'.val (.out 0) 1 = 1 := by simpa using hv
  have h3 : m'.val (.out 0) 1 = 2 := by
    refine Eq.trans h2 ?_
    decide +kernel
  omega

/-- With the binary parameter file the statement holds. -/
theorem C50_binary_parameters (c : ConvP) (bk size idx road : Nat) (act : Int → Int) (src : Buf)
    (wt : Nat → Nat → Nat → Nat → Int) (bias : Nat → Int) (x : Nat → Nat → Nat → Int) (m : Mem Int) (lay : List Int)
    (hsrc : src ≠ .temp) (hdil : c.dil = 1) (hpad : c.padLeft = c.padTop) (hC : 0 < c.inC)
    (hF : 0 < c.filters) (hbk : bk = blockK c.filters c.kw)
    (hx : Holds m src (tensor3 c.inH c.inW c.inC fun i j p => x p i j))
    (hlay : blockLayout c bk wt = some lay) (hw : Holds m (.par .weights idx) (directParams true c lay wt))
    (hb : Holds m (.par .biases idx) (tensor c.filters bias))
    (hsize : size = c.filters * c.outH * c.outW)
    (ht : size ≤ m.size .temp) (ho : size ≤ m.size (.out road)) :
    Computes (directBlockCode c bk size idx act src road) m (.out road)
        (tensor3 c.outH c.outW c.filters fun i j f => convSpec c act wt bias x f i j) :=
  C50_block_code c bk size idx road act src wt bias x m lay hsrc hdil hpad hC
    (by rw [hbk]; unfold blockK; split <;> omega) (by rw [hbk]; unfold blockK; split <;> omega) hx hlay hw hb hsize ht ho

/-- **C50, construction.** The layer can be built exactly when the number of filters is at most the block size or a
multiple of it. -/
theorem C50_buildable (c : ConvP) (wt : Nat → Nat → Nat → Nat → α) (hF : 0 < c.filters) :
    (blockLayout c (blockK c.filters c.kw) wt).isSome ↔
      (if c.kw > 1 then c.filters ≤ 64 ∨ 64 ∣ c.filters else c.filters ≤ 512 ∨ 512 ∣ c.filters) := by
  have key : ∀ B, 0 < B → ((blockLayout c (min B c.filters) wt).isSome ↔ (c.filters ≤ B ∨ B ∣ c.filters)) := by
    intro B hB
    unfold blockLayout
    rcases Nat.le_total c.filters B with hle | hle
    · rw [Nat.min_eq_right hle, Nat.div_self hF]
      simp [hle]
    · rw [Nat.min_eq_left hle, Nat.max_eq_left (Nat.div_pos hle hB)]
      constructor
      · intro h
        split at h
        · next e => exact Or.inr ⟨_, by rw [Nat.mul_comm]; exact e⟩
        · cases h
      · intro h
        have hd : B ∣ c.filters := by
          rcases h with h | h
          · rw [Nat.le_antisymm hle h]
          · exact h
        rw [if_pos (Nat.div_mul_cancel hd).symm]; rfl
  unfold blockK
  split
  · exact key 64 (by decide)
  · exact key 512 (by decide)

/-- A convolution with 100 filters and a 3-wide kernel is rejected by `direct_block` although 6loops accepts it. -/
theorem C50_fails_block (wt : Nat → Nat → Nat → Nat → α) :
    blockLayout ⟨100, 3, 8, 8, 8, 8, 3, 3, 1, 1, 1, 1, 1, 1⟩ (blockK 100 3) wt = none := if_neg (by decide)

/-- **C51, reference.** Depth-wise layers (`group = filters = channels`): the Python reference against the depth-wise
convolution. -/
def C51_reference_statement : Prop := ∀ (c : ConvP) (act : Int → Int) (wt : Nat → Nat → Nat → Int) (bias : Nat → Int)
    (x : Nat → Nat → Nat → Int) (r : Arr Int), c.Accepted → c.dil = 1 → c.filters = c.inC →
    convForwardGroup c c.filters act (fun f _ h w => wt f h w) bias x = some r →
    r.flat = tensor3 c.filters c.outH c.outW (depthwiseSpec c act wt bias x)

/-- What the Python reference computes with `group` groups: every filter reads the channels `0, group,
2·group, …`, whichever group the filter belongs to. -/
theorem C51_reference_groups [CommSemiring α] (c : ConvP) (group : Nat) (act : α → α) (wt : Nat → Nat → Nat → Nat → α)
    (bias : Nat → α) (x : Nat → Nat → Nat → α) (hacc : ConvP.Accepted { c with inC := c.inC / group }) (hdil : c.dil = 1) :
    ∃ r, convForwardGroup c group act wt bias x = some r ∧ r.C = c.filters ∧ r.H = c.outH ∧ r.W = c.outW ∧
      r.flat = tensor3 c.filters c.outH c.outW fun f i j =>
        act ((∑ p ∈ Finset.range (c.inC / group), ∑ h ∈ Finset.range c.kh, ∑ w ∈ Finset.range c.kw,
          wt f p h w * zeroExt c.inH c.inW x (p * group) ((i : Int) * c.stride + h - c.padTop)
            ((j : Int) * c.stride + w - c.padLeft)) + bias f) := by
  obtain ⟨r, e, h1, h2, h3, h⟩ := C11_conv_forward_partial { c with inC := c.inC / group } act wt bias
    (fun p => x (p * group)) hacc hdil
  refine ⟨r, e, h1, h2, h3, h.trans ?_⟩
  refine tensor3_congr fun f i j _ _ _ => ?_
  unfold convSpec
  simp only [hdil, Nat.cast_one, mul_one]
  rfl

/-- It fails: every filter reads channel 0 (two channels `[0, 1]`, 1×1 kernels of weight one). -/
theorem C51_fails_reference : ¬ C51_reference_statement := by
  intro h
  have := h ⟨2, 2, 1, 1, 1, 1, 1, 1, 1, 1, 0, 0, 0, 0⟩ id (fun _ _ _ => 1) (fun _ => 0) (fun p _ _ => p)
    ⟨2, 1, 1, fun _ _ _ => 0⟩ ⟨by decide, by decide, by decide, by decide, by decide, by decide⟩ rfl rfl (by
      unfold convForwardGroup convForward
      rw [if_pos (by decide)]
      rfl)
  revert this
  decide +kernel

end Layers
end Verif

import Verif.Props.Resize2
import Mathlib.Tactic.FieldSimp

/-!
# C28: cubic resize, one-dimensional cases, and where code and reference disagree
-/

set_option linter.unusedSectionVars false

namespace Verif.Layers
open Prog
variable {K : Type} [Field K] [LinearOrder K] [IsStrictOrderedRing K] [FloorRing K]

/-! ## Cubic -/

/-- the expanded polynomial of the template is the combination with the reference's coefficients -/
theorem cubicC_eq (a s p q r t : K) :
    cubicC a s p q r t = p * (cubicCoeffs a s).1 + q * (cubicCoeffs a s).2.1 + r * (cubicCoeffs a s).2.2.1 +
      t * (cubicCoeffs a s).2.2.2 := by
  simp only [cubicC, cubicCoeffs]; ring

/-- the four weights sum to one -/
theorem cubicCoeffs_sum (a s : K) : (cubicCoeffs a s).1 + (cubicCoeffs a s).2.1 + (cubicCoeffs a s).2.2.1 +
    (cubicCoeffs a s).2.2.2 = 1 := by
  simp only [cubicCoeffs]; ring

theorem clampIdx_eq {n : Nat} (hn : 0 < n) (z : Int) : ∃ k : Nat, clampIdx n z = k ∧ (clampPy n z).toNat = k ∧ k < n := by
  unfold clampIdx clampPy
  by_cases h1 : z < 0
  · exact ⟨0, by rw [if_pos h1]; rfl, by omega, hn⟩
  · rw [if_neg h1]
    by_cases h2 : z ≥ n
    · exact ⟨n - 1, by rw [if_pos h2]; omega, by omega, by omega⟩
    · exact ⟨z.toNat, by rw [if_neg h2]; omega, by omega, by omega⟩

theorem clampPy_one (z : Int) : (clampPy 1 z).toNat = 0 := by unfold clampPy; omega

/-- **C28, cubic, two dimensions.** The generated code is C, stays in bounds, and leaves the activated value of the
Python reference, for every cubic coefficient. -/
theorem cubic2_computes (a : K) (mode : CoordMode) (C road : Nat) (h w : RAxis K) (act : K → K) (e : K) (src : Buf)
    (v : Nat → Nat → Nat → K) (m : Mem K) (hs : src ≠ .temp) (hm : exactMode mode) (hh : 0 < h.inLen) (hw : 0 < w.inLen)
    (hv : Holds m src (tensor3 C h.inLen w.inLen v))
    (ht : C * h.outLen * w.outLen ≤ m.size .temp) (ho : C * h.outLen * w.outLen ≤ m.size (.out road)) :
    ∃ (code : Prog K Unit) (r : Nat → Nat → Nat → K),
      cubic2Code a mode C (C * h.outLen * w.outLen) h w act src road = some code ∧
      (∀ f i j, f < C → i < h.outLen → j < w.outLen → cubicForward a e mode h w v f i j = some (r f i j)) ∧
      Computes code m (.out road) (tensor3 C h.outLen w.outLen fun f i j => act (r f i j)) := by
  have hx := fun i => coord_exact hm e h i
  have hy := fun j => coord_exact hm e w j
  choose x x1 x2 using hx
  choose y y1 y2 using hy
  have ix := fun z => clampIdx_eq hh z
  have iy := fun z => clampIdx_eq hw z
  choose kx kx1 kx2 kx3 using ix
  choose ky ky1 ky2 ky3 using iy
  let col (f i : Nat) (c : Int) : K :=
    cubicC a (x i - ⌊x i⌋) (v f (kx (⌊x i⌋ - 1)) (ky c)) (v f (kx ⌊x i⌋) (ky c)) (v f (kx (⌊x i⌋ + 1)) (ky c))
      (v f (kx (⌊x i⌋ + 2)) (ky c))
  refine ⟨_, fun f i j => cubicC a (y j - ⌊y j⌋) (col f i (⌊y j⌋ - 1)) (col f i ⌊y j⌋) (col f i (⌊y j⌋ + 1))
    (col f i (⌊y j⌋ + 2)), by rw [cubic2Code, if_pos hm.compiles.2], ?_, ?_⟩
  · intro f i j _ _ _
    simp only [cubicForward, x2, y2, Option.bind_eq_bind, Option.bind_some, Option.pure_def]
    congr 1
    have hcol : ∀ c, cubicInterp a h.inLen w.inLen v f ⌊x i⌋ c (x i - ⌊x i⌋) = col f i c := by
      intro c
      simp only [cubicInterp, kx2, ky2, col, cubicC_eq]
    rw [cubicC_eq, hcol, hcol, hcol, hcol]
    ring
  · refine kernel3 (h := id) rfl ht ho fun f i j hf hi hj ha => ?_
    refine Stores.bind (Evals.liftOpt (x1 i)) ?_
    refine Stores.bind (Evals.liftOpt (y1 j)) ?_
    dsimp only
    have hcol : ∀ c : Int, Evals .temp m (do
        let col := clampIdx w.inLen c
        let fm1 ← load src (col + w.inLen * (clampIdx h.inLen (⌊x i⌋ - 1) + h.inLen * f))
        let f0 ← load src (col + w.inLen * (clampIdx h.inLen ⌊x i⌋ + h.inLen * f))
        let f1 ← load src (col + w.inLen * (clampIdx h.inLen (⌊x i⌋ + 1) + h.inLen * f))
        let f2 ← load src (col + w.inLen * (clampIdx h.inLen (⌊x i⌋ + 2) + h.inLen * f))
        pure (cubicC a (x i - ⌊x i⌋) fm1 f0 f1 f2) : Prog K K) (col f i c) := by
      intro c
      dsimp only
      simp only [kx1, ky1]
      refine Evals.bind (Evals.load3 hs hv hf (kx3 _) (ky3 _) (at3_int _ _ _ _ _)) ?_
      refine Evals.bind (Evals.load3 hs hv hf (kx3 _) (ky3 _) (at3_int _ _ _ _ _)) ?_
      refine Evals.bind (Evals.load3 hs hv hf (kx3 _) (ky3 _) (at3_int _ _ _ _ _)) ?_
      refine Evals.bind (Evals.load3 hs hv hf (kx3 _) (ky3 _) (at3_int _ _ _ _ _)) ?_
      exact Evals.pure _ _ _
    refine Stores.bind (hcol _) ?_
    refine Stores.bind (hcol _) ?_
    refine Stores.bind (hcol _) ?_
    refine Stores.bind (hcol _) ?_
    exact Stores.reapply (g := act) (Stores.store rfl ha rfl) rfl rfl ha

/-- one row: the one-dimensional template -/
theorem cubic1w_computes (a : K) (mode : CoordMode) (C road : Nat) (h w : RAxis K) (act : K → K) (e : K) (src : Buf)
    (v : Nat → Nat → Nat → K) (m : Mem K) (hs : src ≠ .temp) (hm : exactMode mode) (hh : h.inLen = 1) (hw : 0 < w.inLen)
    (hv : Holds m src (tensor3 C h.inLen w.inLen v))
    (ht : C * h.outLen * w.outLen ≤ m.size .temp) (ho : C * h.outLen * w.outLen ≤ m.size (.out road)) :
    ∃ (code : Prog K Unit) (r : Nat → Nat → Nat → K),
      cubic1Code a mode C (C * h.outLen * w.outLen) h w w (fun _ j => j) act src road = some code ∧
      (∀ f i j, f < C → i < h.outLen → j < w.outLen → cubicForward a e mode h w v f i j = some (r f i j)) ∧
      Computes code m (.out road) (tensor3 C h.outLen w.outLen fun f i j => act (r f i j)) := by
  have hx := fun i => coord_exact hm e h i
  have hy := fun j => coord_exact hm e w j
  choose x x1 x2 using hx
  choose y y1 y2 using hy
  have iy := fun z => clampIdx_eq hw z
  choose ky ky1 ky2 ky3 using iy
  refine ⟨_, fun f _ j => cubicC a (y j - ⌊y j⌋) (v f 0 (ky (⌊y j⌋ - 1))) (v f 0 (ky ⌊y j⌋)) (v f 0 (ky (⌊y j⌋ + 1)))
    (v f 0 (ky (⌊y j⌋ + 2))), by rw [cubic1Code, if_pos hm.compiles.1], ?_, ?_⟩
  · intro f i j _ _ _
    simp only [cubicForward, x2, y2, Option.bind_eq_bind, Option.bind_some, Option.pure_def]
    congr 1
    have hcol : ∀ c, cubicInterp a h.inLen w.inLen v f ⌊x i⌋ c (x i - ⌊x i⌋) = v f 0 (ky c) := by
      intro c
      simp only [cubicInterp, hh, clampPy_one, ky2]
      linear_combination (v f 0 (ky c)) * cubicCoeffs_sum a (x i - ⌊x i⌋)
    rw [cubicC_eq, hcol, hcol, hcol, hcol]
    ring
  · have ad : ∀ (f k : Nat), ((k : Int) + w.inLen * f) = (at3 h.inLen w.inLen f 0 k : Int) := by
      intro f k; rw [hh]; unfold at3; push_cast; ring
    refine kernel3 (h := id) rfl ht ho fun f i j hf hi hj ha => ?_
    refine Stores.bind (Evals.liftOpt (y1 j)) ?_
    dsimp only
    simp only [ky1]
    refine Stores.bind (Evals.load3 hs hv hf (by omega) (ky3 _) (ad _ _)) ?_
    refine Stores.bind (Evals.load3 hs hv hf (by omega) (ky3 _) (ad _ _)) ?_
    refine Stores.bind (Evals.load3 hs hv hf (by omega) (ky3 _) (ad _ _)) ?_
    refine Stores.bind (Evals.load3 hs hv hf (by omega) (ky3 _) (ad _ _)) ?_
    exact Stores.reapply (g := act) (Stores.store rfl ha rfl) rfl rfl ha

/-- one column: the one-dimensional template -/
theorem cubic1h_computes (a : K) (mode : CoordMode) (C road : Nat) (h w : RAxis K) (act : K → K) (e : K) (src : Buf)
    (v : Nat → Nat → Nat → K) (m : Mem K) (hs : src ≠ .temp) (hm : exactMode mode) (hw : w.inLen = 1) (hh : 0 < h.inLen)
    (hv : Holds m src (tensor3 C h.inLen w.inLen v))
    (ht : C * h.outLen * w.outLen ≤ m.size .temp) (ho : C * h.outLen * w.outLen ≤ m.size (.out road)) :
    ∃ (code : Prog K Unit) (r : Nat → Nat → Nat → K),
      cubic1Code a mode C (C * h.outLen * w.outLen) h w h (fun i _ => i) act src road = some code ∧
      (∀ f i j, f < C → i < h.outLen → j < w.outLen → cubicForward a e mode h w v f i j = some (r f i j)) ∧
      Computes code m (.out road) (tensor3 C h.outLen w.outLen fun f i j => act (r f i j)) := by
  have hx := fun i => coord_exact hm e h i
  have hy := fun j => coord_exact hm e w j
  choose x x1 x2 using hx
  choose y y1 y2 using hy
  have ix := fun z => clampIdx_eq hh z
  choose kx kx1 kx2 kx3 using ix
  refine ⟨_, fun f i _ => cubicC a (x i - ⌊x i⌋) (v f (kx (⌊x i⌋ - 1)) 0) (v f (kx ⌊x i⌋) 0) (v f (kx (⌊x i⌋ + 1)) 0)
    (v f (kx (⌊x i⌋ + 2)) 0), by rw [cubic1Code, if_pos hm.compiles.1], ?_, ?_⟩
  · intro f i j _ _ _
    simp only [cubicForward, x2, y2, Option.bind_eq_bind, Option.bind_some, Option.pure_def]
    congr 1
    have hcol : ∀ c, cubicInterp a h.inLen w.inLen v f ⌊x i⌋ c (x i - ⌊x i⌋) =
        cubicC a (x i - ⌊x i⌋) (v f (kx (⌊x i⌋ - 1)) 0) (v f (kx ⌊x i⌋) 0) (v f (kx (⌊x i⌋ + 1)) 0)
          (v f (kx (⌊x i⌋ + 2)) 0) := by
      intro c
      simp only [cubicInterp, hw, clampPy_one, kx2, cubicC_eq]
    simp only [hcol]
    generalize cubicC a (x i - ⌊x i⌋) _ _ _ _ = t
    linear_combination t * cubicCoeffs_sum a (y j - ⌊y j⌋)
  · have ad : ∀ (f k : Nat), ((k : Int) + h.inLen * f) = (at3 h.inLen w.inLen f k 0 : Int) := by
      intro f k; rw [hw]; unfold at3; push_cast; ring
    refine kernel3 (h := id) rfl ht ho fun f i j hf hi hj ha => ?_
    refine Stores.bind (Evals.liftOpt (x1 i)) ?_
    dsimp only
    simp only [kx1]
    refine Stores.bind (Evals.load3 hs hv hf (kx3 _) (by omega) (ad _ _)) ?_
    refine Stores.bind (Evals.load3 hs hv hf (kx3 _) (by omega) (ad _ _)) ?_
    refine Stores.bind (Evals.load3 hs hv hf (kx3 _) (by omega) (ad _ _)) ?_
    refine Stores.bind (Evals.load3 hs hv hf (kx3 _) (by omega) (ad _ _)) ?_
    exact Stores.reapply (g := act) (Stores.store rfl ha rfl) rfl rfl ha

/-- **C28, cubic.** For every accepted input larger than one pixel, every cubic coefficient and a coordinate
transformation computed identically by both (half_pixel, pytorch_half_pixel, asymmetric), the generated code is C,
stays in bounds, and leaves the activated value of the Python reference. -/
theorem C28_cubic_partial (a : K) (mode : CoordMode) (C road : Nat) (h w : RAxis K) (act : K → K) (e : K) (src : Buf)
    (v : Nat → Nat → Nat → K) (m : Mem K) (hs : src ≠ .temp) (hm : exactMode mode) (hh : 0 < h.inLen) (hw : 0 < w.inLen)
    (hbig : 1 < h.inLen ∨ 1 < w.inLen) (hv : Holds m src (tensor3 C h.inLen w.inLen v))
    (ht : C * h.outLen * w.outLen ≤ m.size .temp) (ho : C * h.outLen * w.outLen ≤ m.size (.out road)) :
    ∃ (code : Prog K Unit) (r : Nat → Nat → Nat → K),
      cubicCode a mode C (C * h.outLen * w.outLen) h w act src road = some code ∧
      (∀ f i j, f < C → i < h.outLen → j < w.outLen → cubicForward a e mode h w v f i j = some (r f i j)) ∧
      Computes code m (.out road) (tensor3 C h.outLen w.outLen fun f i j => act (r f i j)) := by
  unfold cubicCode
  by_cases c1 : h.inLen = 1
  · rw [if_pos ⟨c1, by omega⟩]
    exact cubic1w_computes a mode C road h w act e src v m hs hm c1 hw hv ht ho
  · rw [if_neg (by omega)]
    by_cases c2 : w.inLen = 1
    · rw [if_pos ⟨by omega, c2⟩]
      exact cubic1h_computes a mode C road h w act e src v m hs hm c2 hh hv ht ho
    · rw [if_neg (by omega), if_pos ⟨by omega, by omega⟩]
      exact cubic2_computes a mode C road h w act e src v m hs hm hh hw hv ht ho

/-- **C28, constant images.** The cubic reference preserves constant images, whatever the coordinates. -/
theorem C28_cubic_constant (a e : K) (mode : CoordMode) (h w : RAxis K) (c : K) (f i j : Nat) {x y : K}
    (hx : coordPy e mode h i = some x) (hy : coordPy e mode w j = some y) :
    cubicForward a e mode h w (fun _ _ _ => c) f i j = some c := by
  simp only [cubicForward, hx, hy, Option.bind_eq_bind, Option.bind_some, Option.pure_def, cubicInterp]
  congr 1
  have h1 := cubicCoeffs_sum a (x - ⌊x⌋)
  have h2 := cubicCoeffs_sum a (y - ⌊y⌋)
  generalize cubicCoeffs a (x - ⌊x⌋) = p at *
  generalize cubicCoeffs a (y - ⌊y⌋) = q at *
  linear_combination (c * (q.1 + q.2.1 + q.2.2.1 + q.2.2.2)) * h1 + c * h2

/-- hypotheses met: a one-row image and the usual coefficient -/
example : exactMode .halfPixel ∧ (⟨3, 6, 2, 0, 0⟩ : RAxis ℚ).Accepted ∧
    (∃ code, cubicCode (-3 / 4 : ℚ) .halfPixel 1 6 ⟨1, 1, 1, 0, 0⟩ ⟨3, 6, 2, 0, 0⟩ id (.out 0) 1 = some code) := by
  refine ⟨Or.inl rfl, ⟨by norm_num, ?_⟩, _, rfl⟩
  symm; rw [Int.floor_eq_iff]; norm_num

/-! ## Linear, one dimension -/

/-- Expressions evaluated once per channel, before the two inner loops, may as well be evaluated in them. -/
theorem loop3_hoist {α β : Type} {m : Mem α} {b : Buf} {C H W : Nat} {pre : Nat → Prog α β} {x : Nat → β}
    {body : Nat → β → Nat → Nat → Prog α Unit} {v : Nat → Nat → Nat → α}
    (hp : ∀ f, f < C → Evals b m (pre f) (x f))
    (hb : ∀ f i j, f < C → i < H → j < W → Stores b m (body f (x f) i j) (at3 H W f i j) (v f i j)) :
    forN C (fun f => andThen (pre f) fun y => forN H fun i => forN W fun j => body f y i j) m =
      loop3 C H W (fun f i j => body f (x f) i j) m := by
  have e1 : ∀ f u, f < C → (forN H fun i => forN W fun j => body f (x f) i j) (m.upd b u) =
      some ((), (m.upd b u).upd b (joinW H fun i => joinW W fun j => single (at3 H W f i j) (v f i j))) := by
    intro f u hf
    refine forN_upd' H _ m b u _ ?_
    intro i u hi
    exact forN_upd' W _ m b u _ (fun j u hj => hb f i j hf hi hj u)
  unfold loop3
  rw [forN_upd C _ m b _ e1]
  exact forN_upd C _ m b _ fun f u hf => by rw [andThen_run (hp f hf u)]; exact e1 f u hf

/-- the one-dimensional template interpolates between the first and the last element of the row -/
theorem linear1_computes (mode : CoordMode) (C road : Nat) (h w dim : RAxis K) (pick : Nat → Nat → Nat) (act : K → K)
    (src : Buf) (v : Nat → Nat → K) (m : Mem K) (hs : src ≠ .temp) (hd : 0 < dim.inLen)
    (hv : Holds m src (matrix C dim.inLen v)) {x : Nat → K} (hx : ∀ c, coordC mode dim c = some (x c))
    (hc : compiles1 mode = true)
    (ht : C * h.outLen * w.outLen ≤ m.size .temp) (ho : C * h.outLen * w.outLen ≤ m.size (.out road)) :
    ∃ code, linear1Code mode C (C * h.outLen * w.outLen) h w dim pick act src road = some code ∧
      Computes code m (.out road) (tensor3 C h.outLen w.outLen fun f i j =>
        let t := npClip 0 ((dim.inLen : K) - 1) (x (pick i j))
        act ((v f 0 * (((dim.inLen : K) - 1) - t) + v f (dim.inLen - 1) * t) / ((dim.inLen : K) - 1))) := by
  refine ⟨_, by rw [linear1Code, if_pos hc], ?_⟩
  have l0 : ∀ f, f < C → Evals .temp m (Prog.load src (0 + dim.inLen * f)) (v f 0) := fun f hf =>
    Evals.load2 hs hv hf hd (by push_cast; ring)
  have l1 : ∀ f, f < C → Evals .temp m (Prog.load src (((dim.inLen - 1 : Nat) : Int) + dim.inLen * f)) (v f (dim.inLen - 1)) :=
    fun f hf => Evals.load2 hs hv hf (by omega) (by push_cast; ring)
  have e1 : ((dim.inLen - 1 : Nat) : K) = (dim.inLen : K) - 1 := by rw [Nat.cast_sub hd, Nat.cast_one]
  have hd' : (0 : K) ≤ (dim.inLen : K) - 1 := by rw [← e1]; positivity
  let pre : Nat → Prog K (K × K) := fun f => do
    let a ← Prog.load src (0 + dim.inLen * f)
    let b ← Prog.load src (((dim.inLen - 1 : Nat) : Int) + dim.inLen * f)
    pure (a, b)
  let body : Nat → K × K → Nat → Nat → Prog K Unit := fun f y i j => do
    let x ← liftOpt (coordC mode dim (pick i j))
    let x := clampC (((0 : Int) : K)) ((((dim.inLen - 1 : Nat) : Int)) : K) x
    store .temp (at3 h.outLen w.outLen f i j : Int)
      ((y.1 * (((dim.inLen - 1 : Nat) : Int) - x) + y.2 * (x - ((0 : Int) : K))) / ((((dim.inLen - 1 : Nat) : Int) - 0 : Int) : K))
    let t ← load .temp (at3 h.outLen w.outLen f i j : Int)
    store .temp (at3 h.outLen w.outLen f i j : Int) (act t)
  have hp : ∀ f, f < C → Evals .temp m (pre f) (v f 0, v f (dim.inLen - 1)) := fun f hf =>
    Evals.bind (l0 f hf) (Evals.bind (l1 f hf) (Evals.pure _ _ _))
  have hb : ∀ f i j, f < C → i < h.outLen → j < w.outLen → Stores .temp m (body f (v f 0, v f (dim.inLen - 1)) i j)
      (at3 h.outLen w.outLen f i j) (let t := npClip 0 ((dim.inLen : K) - 1) (x (pick i j))
        act ((v f 0 * (((dim.inLen : K) - 1) - t) + v f (dim.inLen - 1) * t) / ((dim.inLen : K) - 1))) := by
    intro f i j hf hi hj
    have ha : at3 h.outLen w.outLen f i j < m.size .temp := Nat.lt_of_lt_of_le (at3_lt hf hi hj) ht
    refine Stores.bind (Evals.liftOpt (hx _)) ?_
    dsimp only
    refine Stores.reapply (g := act) (Stores.store rfl ha ?_) rfl rfl ha
    simp only [Int.cast_natCast, Int.cast_zero, sub_zero, e1, clampC_eq hd']
  have key := loop3_hoist hp hb
  have := kernel3 (h := id) (road := road) (body := fun f i j => body f (v f 0, v f (dim.inLen - 1)) i j) rfl ht ho
    fun f i j hf hi hj _ => hb f i j hf hi hj
  obtain ⟨m', r1, r2, r3⟩ := this
  refine ⟨m', ?_, r2, r3⟩
  rw [← r1]
  show Prog.andThen _ _ m = _
  unfold Prog.andThen
  rw [← key]
  congr 2
  funext f mm
  simp only [pre, bind_eq, andThen_assoc]
  rfl

/-- **C28, linear, one row or one column of two pixels.** -/
theorem C28_linear1_partial (mode : CoordMode) (C road : Nat) (h w : RAxis K) (act : K → K) (e : K) (src : Buf)
    (v : Nat → Nat → Nat → K) (m : Mem K) (hs : src ≠ .temp) (hm : exactMode mode)
    (hlen : (h.inLen = 1 ∧ w.inLen = 2) ∨ (h.inLen = 2 ∧ w.inLen = 1))
    (hv : Holds m src (tensor3 C h.inLen w.inLen v))
    (ht : C * h.outLen * w.outLen ≤ m.size .temp) (ho : C * h.outLen * w.outLen ≤ m.size (.out road)) :
    ∃ (code : Prog K Unit) (r : Nat → Nat → Nat → K),
      linearCode mode C (C * h.outLen * w.outLen) h w act src road = some code ∧
      (∀ f i j, f < C → i < h.outLen → j < w.outLen → linearForward e mode h w v f i j = some (r f i j)) ∧
      Computes code m (.out road) (tensor3 C h.outLen w.outLen fun f i j => act (r f i j)) := by
  have hx := fun i => coord_exact hm e h i
  have hy := fun j => coord_exact hm e w j
  choose x x1 x2 using hx
  choose y y1 y2 using hy
  have hfw : ∀ f i j, ∃ kx ky, (kx = 0 ∨ (kx = 1 ∧ npClip 0 ((h.inLen : K) - 1) (x i) = 1)) ∧
      (ky = 0 ∨ (ky = 1 ∧ npClip 0 ((w.inLen : K) - 1) (y j) = 1)) ∧ kx < h.inLen ∧ ky < w.inLen ∧
      (h.inLen = 1 → npClip 0 ((h.inLen : K) - 1) (x i) = 0) ∧ (w.inLen = 1 → npClip 0 ((w.inLen : K) - 1) (y j) = 0) ∧
      linearForward e mode h w v f i j = some (bilinear h.inLen w.inLen (v f) (npClip 0 ((h.inLen : K) - 1) (x i))
        (npClip 0 ((w.inLen : K) - 1) (y j)) kx ky) := by
    intro f i j
    obtain ⟨kx, e1, l1, _, _, b1⟩ := clip_index (n := h.inLen) (by omega) (x i)
    obtain ⟨ky, e2, l2, p2, q2, b2⟩ := clip_index (n := w.inLen) (by omega) (y j)
    refine ⟨kx, ky, ?_, ?_, l1, l2, ?_, ?_,
      linearForward_eq e mode h w v f i j (x2 i) (y2 j) (by omega) (by omega) e1 e2 l1 l2⟩
    · rcases Nat.eq_zero_or_pos kx with h0 | h0
      · exact Or.inl h0
      · refine Or.inr ⟨by omega, ?_⟩
        rw [b1 (by omega), show kx = 1 by omega, Nat.cast_one]
    · rcases Nat.eq_zero_or_pos ky with h0 | h0
      · exact Or.inl h0
      · refine Or.inr ⟨by omega, ?_⟩
        rw [b2 (by omega), show ky = 1 by omega, Nat.cast_one]
    · intro h1; rw [b1 (by omega), show kx = 0 by omega, Nat.cast_zero]
    · intro h1; rw [b2 (by omega), show ky = 0 by omega, Nat.cast_zero]
  rcases hlen with ⟨hh, hw⟩ | ⟨hh, hw⟩
  · obtain ⟨code, hc, hcomp⟩ := linear1_computes mode C road h w w (fun _ j => j) act src (fun f k => v f 0 k) m hs
      (by omega) (by rw [← tensor3_one_h]; rw [hh] at hv; exact hv) y1 hm.compiles.1 ht ho
    have ew : ((w.inLen : K) - 1) = 1 := by rw [hw]; norm_num
    rw [ew] at hcomp hfw
    have ew' : w.inLen - 1 = 1 := by omega
    rw [ew'] at hcomp
    refine ⟨code, fun f i j => v f 0 0 * (1 - npClip 0 1 (y j)) + v f 0 1 * npClip 0 1 (y j), ?_, ?_, ?_⟩
    · rw [linearCode, if_pos ⟨hh, by omega⟩]; exact hc
    · intro f i j _ _ _
      obtain ⟨kx, ky, c1, c2, l1, l2, d1, d2, eq⟩ := hfw f i j
      rw [eq]
      have : kx = 0 := by omega
      subst this
      rw [d1 hh]
      congr 1
      rcases c2 with rfl | ⟨rfl, c2⟩
      · simp [bilinear, hh, hw]
      · simp only [c2]; simp [bilinear, hh, hw]
    · refine Eq.mp (congrArg (Computes _ _ _) ?_) hcomp
      refine tensor3_congr fun f i j _ _ _ => ?_
      dsimp only
      rw [div_one]
  · obtain ⟨code, hc, hcomp⟩ := linear1_computes mode C road h w h (fun i _ => i) act src (fun f k => v f k 0) m hs
      (by omega) (by rw [← tensor3_one_w]; rw [hw] at hv; exact hv) x1 hm.compiles.1 ht ho
    have ew : ((h.inLen : K) - 1) = 1 := by rw [hh]; norm_num
    rw [ew] at hcomp hfw
    have ew' : h.inLen - 1 = 1 := by omega
    rw [ew'] at hcomp
    refine ⟨code, fun f i j => v f 0 0 * (1 - npClip 0 1 (x i)) + v f 1 0 * npClip 0 1 (x i), ?_, ?_, ?_⟩
    · rw [linearCode, if_neg (by omega), if_pos ⟨by omega, hw⟩]; exact hc
    · intro f i j _ _ _
      obtain ⟨kx, ky, c1, c2, l1, l2, d1, d2, eq⟩ := hfw f i j
      rw [eq]
      have : ky = 0 := by omega
      subst this
      rw [d2 hw]
      congr 1
      rcases c1 with rfl | ⟨rfl, c2⟩
      · simp [bilinear, hh, hw]
      · simp only [c2]; simp [bilinear, hh, hw]
    · refine Eq.mp (congrArg (Computes _ _ _) ?_) hcomp
      refine tensor3_congr fun f i j _ _ _ => ?_
      dsimp only
      rw [div_one]

/-- hypotheses met -/
example : ((1, 2) : Nat × Nat) = ((⟨1, 1, 1, 0, 0⟩ : RAxis ℚ).inLen, (⟨2, 4, 2, 0, 0⟩ : RAxis ℚ).inLen) := rfl

/-! ## Disagreements -/

/-- With one row of three pixels `0, 1, 0` kept at its size, the reference returns the middle pixel `1` at column 1 and
the generated code, which interpolates between the two ends, leaves 0. -/
theorem C28_fails_linear_row (m : Mem ℚ) (hv : Holds m (.out 0) (tensor3 1 1 3 fun _ _ j => if j = 1 then (1 : ℚ) else 0))
    (ht : 3 ≤ m.size .temp) (ho : 3 ≤ m.size (.out 1)) :
    linearForward (K := ℚ) 0 .halfPixel ⟨1, 1, 1, 0, 0⟩ ⟨3, 3, 1, 0, 0⟩ (fun _ _ j => if j = 1 then 1 else 0) 0 0 1 = some 1 ∧
    ∃ code, linearCode (K := ℚ) .halfPixel 1 3 ⟨1, 1, 1, 0, 0⟩ ⟨3, 3, 1, 0, 0⟩ id (.out 0) 1 = some code ∧
      Computes code m (.out 1) [0, 0, 0] := by
  constructor
  · rw [linearForward_eq (kx := 0) (ky := 1) (x := 0) (y := 1)]
    · simp [bilinear, npClip]; norm_num
    · simp [coordPy]
    · simp only [coordPy]; norm_num
    · norm_num
    · norm_num
    · simp [npClip]
    · simp only [npClip]; norm_num
    · norm_num
    · norm_num
  · obtain ⟨code, h1, h2⟩ := linear1_computes (K := ℚ) .halfPixel 1 1 ⟨1, 1, 1, 0, 0⟩ ⟨3, 3, 1, 0, 0⟩ ⟨3, 3, 1, 0, 0⟩
      (fun _ j => j) id (.out 0) (fun _ k => if k = 1 then 1 else 0) m (by simp) (by norm_num)
      (by rw [tensor3_one_h] at hv; exact hv) (x := fun c => (c + 1 / 2) / 1 - 1 / 2) (fun _ => rfl) rfl ht ho
    refine ⟨code, by rw [linearCode, if_pos ⟨rfl, by norm_num⟩]; exact h1, ?_⟩
    refine Eq.mp (congrArg (Computes _ _ _) ?_) h2
    simp [tensor3]

/-- A one-pixel input is accepted and has a reference value, but generating its code raises `UnboundLocalError`. -/
theorem C28_fails_one_pixel (a e : K) (mode : CoordMode) (hm : exactMode mode) (C size : Nat) (h w : RAxis K) (act : K → K)
    (src : Buf) (road : Nat) (v : Nat → Nat → Nat → K) (f i j : Nat) (hh : h.inLen = 1) (hw : w.inLen = 1) :
    linearCode mode C size h w act src road = none ∧ cubicCode a mode C size h w act src road = none ∧
    (∃ r, linearForward e mode h w v f i j = some r) ∧ ∃ r, cubicForward a e mode h w v f i j = some r := by
  obtain ⟨x, x1, x2⟩ := coord_exact hm e h i
  obtain ⟨y, y1, y2⟩ := coord_exact hm e w j
  refine ⟨by simp [linearCode, hh, hw], by simp [cubicCode, hh, hw], ?_, ?_⟩
  · obtain ⟨kx, e1, l1, _⟩ := clip_index (n := h.inLen) (by omega) x
    obtain ⟨ky, e2, l2, _⟩ := clip_index (n := w.inLen) (by omega) y
    exact ⟨_, linearForward_eq e mode h w v f i j x2 y2 (by omega) (by omega) e1 e2 l1 l2⟩
  · simp [cubicForward, x2, y2]

/-- align_corners: C divides integers, so enlarging `0, 1` to three columns gives `0, 0, 1` where the reference gives
`1/2` in the middle. -/
theorem C28_fails_align_corners (m : Mem ℚ) (hv : Holds m (.out 0) (tensor3 1 1 2 fun _ _ j => (j : ℚ)))
    (ht : 3 ≤ m.size .temp) (ho : 3 ≤ m.size (.out 1)) :
    coordPy (K := ℚ) 0 .alignCorners ⟨2, 3, 3 / 2, 0, 0⟩ 1 = some (1 / 2) ∧
    ∃ code, linear1Code (K := ℚ) .alignCorners 1 3 ⟨1, 1, 1, 0, 0⟩ ⟨2, 3, 3 / 2, 0, 0⟩ ⟨2, 3, 3 / 2, 0, 0⟩ (fun _ j => j) id
        (.out 0) 1 = some code ∧ Computes code m (.out 1) [0, 0, 1] := by
  refine ⟨by simp only [coordPy]; norm_num, ?_⟩
  obtain ⟨code, h1, h2⟩ := linear1_computes (K := ℚ) .alignCorners 1 1 ⟨1, 1, 1, 0, 0⟩ ⟨2, 3, 3 / 2, 0, 0⟩
      ⟨2, 3, 3 / 2, 0, 0⟩ (fun _ j => j) id (.out 0) (fun _ k => (k : ℚ)) m (by simp) (by norm_num)
      (by rw [tensor3_one_h] at hv; exact hv) (x := fun c => ((c * 1 / 2 : Nat) : ℚ)) (fun c => by simp [coordC]) rfl ht ho
  refine ⟨code, h1, ?_⟩
  refine Eq.mp (congrArg (Computes _ _ _) ?_) h2
  simp [tensor3, npClip, List.range_succ]; norm_num

end Verif.Layers

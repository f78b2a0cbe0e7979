import Verif.Props.Move
import Mathlib.Algebra.Order.Ring.Rat

/-!
# C20 – C21: padding layers
-/

namespace Verif.Layers
open Prog
variable {α : Type}

/-- What a piece of code computes is determined. -/
theorem Computes.unique {c : Prog α Unit} {m : Mem α} {dst : Buf} {t t' : List α}
    (h : Computes c m dst t) (h' : Computes c m dst t') (hl : t.length = t'.length) : t = t' := by
  obtain ⟨m1, e1, h1, -⟩ := h
  obtain ⟨m2, e2, h2, -⟩ := h'
  rw [e1] at e2
  obtain rfl : m1 = m2 := by simpa using e2
  apply List.ext_getElem hl
  intro a ha hb
  rw [← h1.2 a ha, ← h2.2 a hb]

theorem Stores.ite {b : Buf} {m : Mem α} {c : Prop} [Decidable c] {p q : Prog α Unit} {a : Nat} {v w : α}
    (hp : c → Stores b m p a v) (hq : ¬ c → Stores b m q a w) :
    Stores b m (if c then p else q) a (if c then v else w) := by
  by_cases h : c
  · simp only [h, if_true]; exact hp h
  · simp only [h, if_false]; exact hq h

/-! ## C20 constant padding -/

/-- **C20.** Constant padding: for all dimensions, paddings and constants the generated code leaves the
activated `np.pad(.., mode="constant")` of its input, i.e. the result of the Python reference
(`ConstantPad.py` 42-54). -/
theorem C20_constant_pad (cf cb hf hb wf wb size road : Nat) (k : α) (act : α → α) (src : Buf) (x r : Arr α)
    (m : Mem α) (hr : r = Np.padConstant cf cb hf hb wf wb k x)
    (hsrc : src ≠ .temp) (hx : Holds m src x.flat) (hsize : size = r.C * r.H * r.W)
    (ht : size ≤ m.size .temp) (ho : size ≤ m.size (.out road)) :
    Computes (constantPadCode x.H x.W r.C r.H r.W cf cb hf hb wf wb size k act src road) m (.out road)
      (r.map act).flat := by
  subst hr
  refine kernel3 (h := id) (v := ((Np.padConstant cf cb hf hb wf wb k x).map act).v) hsize ht ho
    fun f i j hf' hi hj ha => ?_
  simp only [Np.padConstant] at hf' hi hj ha hsize
  refine Stores.reapply ?_ rfl rfl ha
  show Stores _ _ _ _ (if _ then _ else _)
  have hiff : ((f : Int) ≥ cf ∧ (f : Int) < ((x.C + cf + cb : Nat) : Int) - cb ∧ (i : Int) ≥ hf ∧
      (i : Int) < ((x.H + hf + hb : Nat) : Int) - hb ∧ (j : Int) ≥ wf ∧
      (j : Int) < ((x.W + wf + wb : Nat) : Int) - wb) ↔
      (cf ≤ f ∧ f < cf + x.C ∧ hf ≤ i ∧ i < hf + x.H ∧ wf ≤ j ∧ j < wf + x.W) := by
    omega
  by_cases hc : (cf ≤ f ∧ f < cf + x.C ∧ hf ≤ i ∧ i < hf + x.H ∧ wf ≤ j ∧ j < wf + x.W)
  · rw [if_pos hc]
    refine Eq.mp (congrArg (fun q => Stores .temp m q _ _) (if_pos (hiff.mpr hc)).symm) ?_
    refine Stores.bind (Evals.load3 hsrc hx (f := f - cf) (i := i - hf) (j := j - wf) (by omega) (by omega)
      (by omega) ?_) (Stores.store rfl ha rfl)
    unfold at3
    push_cast [Nat.cast_sub hc.1, Nat.cast_sub hc.2.2.1, Nat.cast_sub hc.2.2.2.2.1]
    ring
  · rw [if_neg hc]
    refine Eq.mp (congrArg (fun q => Stores .temp m q _ _) (if_neg (fun h => hc (hiff.mp h))).symm) ?_
    exact Stores.store rfl ha rfl

/-- hypotheses of `C20_constant_pad` are satisfiable -/
example : Computes (constantPadCode 1 2 1 1 4 0 0 0 0 1 1 4 9 (fun v => v + 1) (.cst 0) 0)
    ⟨fun _ => 4, fun b a => match b with | .cst 0 => a + 5 | _ => 0⟩ (.out 0) [10, 6, 7, 10] := by
  refine C20_constant_pad 0 0 0 0 1 1 4 0 9 (fun v => v + 1) (.cst 0) ⟨1, 1, 2, fun _ _ j => j + 5⟩ _ _ rfl
    (by simp) ⟨by decide, ?_⟩ rfl (by simp) (by simp)
  intro a h
  simp only [Arr.flat, tensor3_length] at h
  interval_cases a <;> rfl

/-! ## C21 the other modes -/

theorem liftO_evals {β : Type} {b : Buf} {m : Mem α} {o : Option β} {v : β} (h : o = some v) :
    Evals b m (liftO o) v := by
  intro u; rw [h]; rfl

/-- The template shared by the three modes applies the activation function *twice*
(`template_Pad_Non_Constant.c.tpl` 15-20). -/
theorem pad_code (g : Nat → Nat → Nat → Option Int) (ix : Nat → Int → Nat)
    (cf cb hf hb wf wb size road : Nat) (act : α → α) (src : Buf) (x : Arr α) (m : Mem α)
    (hg : ∀ n p b t, (n = x.C ∧ p = cf ∧ b = cb ∨ n = x.H ∧ p = hf ∧ b = hb ∨ n = x.W ∧ p = wf ∧ b = wb) →
      t < n + p + b → g n p t = some ((ix n ((t : Int) - p) : Nat) : Int) ∧ ix n ((t : Int) - p) < n)
    (hsrc : src ≠ .temp) (hx : Holds m src x.flat)
    (hsize : size = (x.C + cf + cb) * (x.H + hf + hb) * (x.W + wf + wb))
    (ht : size ≤ m.size .temp) (ho : size ≤ m.size (.out road)) :
    Computes (padCode g x.C x.H x.W (x.C + cf + cb) (x.H + hf + hb) (x.W + wf + wb) cf hf wf size act src road)
      m (.out road) ((Np.padBy ix cf cb hf hb wf wb x).map fun v => act (act v)).flat := by
  refine kernel3 (h := id) (v := ((Np.padBy ix cf cb hf hb wf wb x).map fun v => act (act v)).v) hsize ht ho
    fun f i j hf' hi hj ha => ?_
  refine Stores.reapply (Stores.reapply ?_ rfl rfl ha) rfl rfl ha
  obtain ⟨e1, l1⟩ := hg x.C cf cb f (by simp) hf'
  obtain ⟨e2, l2⟩ := hg x.H hf hb i (by simp) hi
  obtain ⟨e3, l3⟩ := hg x.W wf wb j (by simp) hj
  refine Stores.bind (liftO_evals e1) (Stores.bind (liftO_evals e2) (Stores.bind (liftO_evals e3) ?_))
  refine Stores.bind (Evals.load3 hsrc hx l1 l2 l3 ?_) (Stores.store rfl ha rfl)
  unfold at3; push_cast; ring

theorem edgeIdx_eq (n p t : Nat) (h : 0 < n) :
    edgeIdx n p t = some ((Np.edge n ((t : Int) - p) : Nat) : Int) ∧ Np.edge n ((t : Int) - p) < n := by
  have hd : edgeIdx n p t
      = some (if t ≥ n + p then (n : Int) - 1 else if t < p then 0 else (t : Int) - p) := rfl
  rw [hd]
  unfold Np.edge
  by_cases h1 : t < p
  · rw [if_neg (by omega), if_pos h1, if_pos (by omega)]; exact ⟨rfl, h⟩
  · by_cases h2 : t ≥ n + p
    · rw [if_pos h2, if_neg (by omega), if_pos (by omega)]
      exact ⟨by congr 1; omega, by omega⟩
    · rw [if_neg h2, if_neg h1, if_neg (by omega), if_neg (by omega)]
      exact ⟨by congr 1; omega, by omega⟩

theorem wrapIdx_eq (n p t : Nat) (hp : p < n) :
    wrapIdx n p t = some ((Np.wrap n ((t : Int) - p) : Nat) : Int) ∧ Np.wrap n ((t : Int) - p) < n := by
  have hn : (0 : Int) < n := by omega
  have hpos := Int.emod_nonneg ((t : Int) - p) (by omega : (n : Int) ≠ 0)
  have hlt := Int.emod_lt_of_pos ((t : Int) - p) hn
  have hw : ((Np.wrap n ((t : Int) - p) : Nat) : Int) = ((t : Int) - p) % n := by
    unfold Np.wrap; rw [Int.toNat_of_nonneg hpos]
  refine ⟨?_, by omega⟩
  rw [hw]
  have hd : wrapIdx n p t = if n = 0 ∧ (t ≥ n + p ∨ t < p) then none else
      some (if t < p then Int.tmod (if t ≥ n + p then Int.tmod ((t : Int) - p) n else (t : Int) - p) n + n
        else if t ≥ n + p then Int.tmod ((t : Int) - p) n else (t : Int) - p) := rfl
  rw [hd, if_neg (by omega)]
  congr 1
  by_cases h1 : t < p
  · rw [if_pos h1, if_neg (by omega)]
    have e1 : Int.tmod ((t : Int) - p) n = (t : Int) - p := by
      have : (t : Int) - p = -((p : Int) - t) := by omega
      rw [this, Int.neg_tmod, Int.tmod_eq_of_lt (by omega) (by omega)]
    rw [e1]
    have : ((t : Int) - p) = ((t : Int) - p + n) + n * (-1) := by ring
    conv_rhs => rw [this]
    rw [Int.add_mul_emod_self_left, Int.emod_eq_of_lt (by omega) (by omega)]
  · rw [if_neg h1]
    by_cases h2 : t ≥ n + p
    · rw [if_pos h2, Int.tmod_eq_emod_of_nonneg (by omega)]
    · rw [if_neg h2, Int.emod_eq_of_lt (by omega) (by omega)]

theorem reflectIdx_eq (n p t : Nat) (hn : 2 ≤ n) :
    reflectIdx n p t = some ((Np.reflect n ((t : Int) - p) : Nat) : Int) ∧ Np.reflect n ((t : Int) - p) < n := by
  obtain ⟨M, hM⟩ : ∃ M : Int, M = 2 * ((n : Int) - 1) := ⟨_, rfl⟩
  have hM0 : 0 < M := by omega
  have hd : reflectIdx n p t = if 2 * ((n : Int) - 1) = 0 then none else
      some (let new := (let z := Int.tmod ((p : Int) - t) (2 * ((n : Int) - 1))
        if z < 0 then 2 * ((n : Int) - 1) + z else z)
        if new > (n : Int) - 1 then 2 * ((n : Int) - 1) - new else new) := rfl
  rw [hd, if_neg (by omega), ← hM]
  -- the C remainder, corrected, is the mathematical one
  have hz : (let z := Int.tmod ((p : Int) - t) M; if z < 0 then M + z else z) = ((p : Int) - t) % M := by
    show (if Int.tmod ((p : Int) - t) M < 0 then M + Int.tmod ((p : Int) - t) M
      else Int.tmod ((p : Int) - t) M) = _
    by_cases h : t ≤ p
    · rw [Int.tmod_eq_emod_of_nonneg (by omega)]
      rw [if_neg (by have := Int.emod_nonneg ((p : Int) - t) (by omega : M ≠ 0); omega)]
    · have e : Int.tmod ((p : Int) - t) M = -(((t : Int) - p) % M) := by
        have : (p : Int) - t = -((t : Int) - p) := by omega
        rw [this, Int.neg_tmod, Int.tmod_eq_emod_of_nonneg (by omega)]
      rw [e]
      have e2 : ((p : Int) - t) % M = (-(((t : Int) - p) % M)) % M := by
        have : (p : Int) - t = -((t : Int) - p) := by omega
        rw [this]
        refine Int.emod_eq_emod_iff_emod_sub_eq_zero.mpr ?_
        have h3 : -((t : Int) - p) - -(((t : Int) - p) % M) = M * (-(((t : Int) - p) / M)) := by
          have := Int.emod_add_mul_ediv ((t : Int) - p) M
          linarith
        rw [h3, Int.mul_emod_right]
      have hp := Int.emod_nonneg ((t : Int) - p) (by omega : M ≠ 0)
      have hl := Int.emod_lt_of_pos ((t : Int) - p) hM0
      generalize ((t : Int) - p) % M = y at *
      rw [e2]
      by_cases hy : y = 0
      · subst hy; simp
      · rw [if_pos (by omega)]
        have : -y = (M + -y) + M * (-1) := by ring
        conv_rhs => rw [this]
        rw [Int.add_mul_emod_self_left, Int.emod_eq_of_lt (by omega) (by omega)]
  have hp := Int.emod_nonneg ((p : Int) - t) (by omega : M ≠ 0)
  have hl := Int.emod_lt_of_pos ((p : Int) - t) hM0
  have hp' := Int.emod_nonneg ((t : Int) - p) (by omega : M ≠ 0)
  have hl' := Int.emod_lt_of_pos ((t : Int) - p) hM0
  -- the two residues are opposite
  have hopp : (((t : Int) - p) % M = 0 ∧ ((p : Int) - t) % M = 0) ∨
      ((p : Int) - t) % M = M - ((t : Int) - p) % M := by
    have hs : (((t : Int) - p) % M + ((p : Int) - t) % M) % M = 0 := by
      rw [← Int.add_emod]; simp
    obtain ⟨q, hq⟩ := Int.dvd_of_emod_eq_zero hs
    have h1 : q < 2 := by
      by_contra hcon
      have : M * 2 ≤ M * q := Int.mul_le_mul_of_nonneg_left (by omega) (by omega)
      omega
    have h0 : 0 ≤ q := by
      by_contra hcon
      have : M * q ≤ M * (-1) := Int.mul_le_mul_of_nonneg_left (by omega) (by omega)
      omega
    have : q = 0 ∨ q = 1 := by omega
    rcases this with h | h <;> subst h
    · left; omega
    · right; omega
  have key : (if ((p : Int) - t) % M > (n : Int) - 1 then M - ((p : Int) - t) % M else ((p : Int) - t) % M)
      = (Np.reflect n ((t : Int) - p) : Nat) ∧ Np.reflect n ((t : Int) - p) < n := by
    unfold Np.reflect
    simp only [← hM]
    split <;> split <;> omega
  refine ⟨?_, key.2⟩
  congr 1
  rw [← key.1]
  show (if (let z := Int.tmod ((p : Int) - t) M; if z < 0 then M + z else z) > (n : Int) - 1 then
    M - (let z := Int.tmod ((p : Int) - t) M; if z < 0 then M + z else z)
    else (let z := Int.tmod ((p : Int) - t) M; if z < 0 then M + z else z)) = _
  rw [hz]

/-- **C21, edge mode** (partial: the activation function must be idempotent — identity, ReLU, clip —
because the generated code applies it twice). -/
theorem C21_edge_pad_partial (cf cb hf hb wf wb size road : Nat) (act : α → α) (src : Buf) (x : Arr α)
    (m : Mem α) (hact : ∀ v, act (act v) = act v) (hC : 0 < x.C) (hH : 0 < x.H) (hW : 0 < x.W)
    (hsrc : src ≠ .temp) (hx : Holds m src x.flat)
    (hsize : size = (x.C + cf + cb) * (x.H + hf + hb) * (x.W + wf + wb))
    (ht : size ≤ m.size .temp) (ho : size ≤ m.size (.out road)) :
    Computes (padCode edgeIdx x.C x.H x.W (x.C + cf + cb) (x.H + hf + hb) (x.W + wf + wb) cf hf wf size act
      src road) m (.out road) ((Np.padBy Np.edge cf cb hf hb wf wb x).map act).flat := by
  have h := pad_code edgeIdx Np.edge cf cb hf hb wf wb size road act src x m
    (fun n p b t hn _ => edgeIdx_eq n p t (by rcases hn with h | h | h <;> omega)) hsrc hx hsize ht ho
  simpa only [hact] using h

/-- **C21, reflect mode** (partial: idempotent activation, and every axis has at least two elements —
otherwise the generated code computes a remainder by zero, even on axes that are not padded). -/
theorem C21_reflect_pad_partial (cf cb hf hb wf wb size road : Nat) (act : α → α) (src : Buf) (x : Arr α)
    (m : Mem α) (hact : ∀ v, act (act v) = act v) (hC : 2 ≤ x.C) (hH : 2 ≤ x.H) (hW : 2 ≤ x.W)
    (hsrc : src ≠ .temp) (hx : Holds m src x.flat)
    (hsize : size = (x.C + cf + cb) * (x.H + hf + hb) * (x.W + wf + wb))
    (ht : size ≤ m.size .temp) (ho : size ≤ m.size (.out road)) :
    Computes (padCode reflectIdx x.C x.H x.W (x.C + cf + cb) (x.H + hf + hb) (x.W + wf + wb) cf hf wf size act
      src road) m (.out road) ((Np.padBy Np.reflect cf cb hf hb wf wb x).map act).flat := by
  have h := pad_code reflectIdx Np.reflect cf cb hf hb wf wb size road act src x m
    (fun n p b t hn _ => reflectIdx_eq n p t (by rcases hn with h | h | h <;> omega)) hsrc hx hsize ht ho
  simpa only [hact] using h

/-- **C21, wrap mode** (partial: idempotent activation, and the padding in front of each axis is smaller
than the axis). -/
theorem C21_wrap_pad_partial (cf cb hf hb wf wb size road : Nat) (act : α → α) (src : Buf) (x : Arr α)
    (m : Mem α) (hact : ∀ v, act (act v) = act v) (hC : cf < x.C) (hH : hf < x.H) (hW : wf < x.W)
    (hsrc : src ≠ .temp) (hx : Holds m src x.flat)
    (hsize : size = (x.C + cf + cb) * (x.H + hf + hb) * (x.W + wf + wb))
    (ht : size ≤ m.size .temp) (ho : size ≤ m.size (.out road)) :
    Computes (padCode wrapIdx x.C x.H x.W (x.C + cf + cb) (x.H + hf + hb) (x.W + wf + wb) cf hf wf size act
      src road) m (.out road) ((Np.padBy Np.wrap cf cb hf hb wf wb x).map act).flat := by
  have h := pad_code wrapIdx Np.wrap cf cb hf hb wf wb size road act src x m
    (fun n p b t hn _ => wrapIdx_eq n p t (by rcases hn with h | h | h <;> omega)) hsrc hx hsize ht ho
  simpa only [hact] using h

/-- hypotheses satisfiable: width 3 padded by 2 in front and 1 behind, in the three modes -/
example (src : Buf) (hsrc : src ≠ .temp) (x : Arr Nat) (m : Mem Nat) (h : x.C = 2 ∧ x.H = 2 ∧ x.W = 3)
    (hx : Holds m src x.flat) (ht : 24 ≤ m.size .temp) (ho : 24 ≤ m.size (.out 0)) :
    Computes (padCode wrapIdx 2 2 3 2 2 6 0 0 2 24 id src 0) m (.out 0)
      ((Np.padBy Np.wrap 0 0 0 0 2 1 x).map id).flat ∧
    Computes (padCode reflectIdx 2 2 3 2 2 6 0 0 2 24 id src 0) m (.out 0)
      ((Np.padBy Np.reflect 0 0 0 0 2 1 x).map id).flat ∧
    Computes (padCode edgeIdx 2 2 3 2 2 6 0 0 2 24 id src 0) m (.out 0)
      ((Np.padBy Np.edge 0 0 0 0 2 1 x).map id).flat := by
  obtain ⟨C, H, W, v⟩ := x
  obtain ⟨rfl, rfl, rfl⟩ := h
  exact ⟨C21_wrap_pad_partial 0 0 0 0 2 1 24 0 id src _ m (fun _ => rfl) (by simp) (by simp) (by simp)
      hsrc hx rfl ht ho,
    C21_reflect_pad_partial 0 0 0 0 2 1 24 0 id src _ m (fun _ => rfl) (by simp) (by simp) (by simp)
      hsrc hx rfl ht ho,
    C21_edge_pad_partial 0 0 0 0 2 1 24 0 id src _ m (fun _ => rfl) (by simp) (by simp) (by simp)
      hsrc hx rfl ht ho⟩

/-- The index functions are numpy's documented patterns, e.g. `[a b c]` padded by 2 and 3:
wrap `b c | a b c | a b c`, reflect `c b | a b c | b a b`, edge `a a | a b c | c c c`. -/
example : ((List.range 8).map fun t => Np.wrap 3 ((t : Int) - 2)) = [1, 2, 0, 1, 2, 0, 1, 2] ∧
    ((List.range 8).map fun t => Np.reflect 3 ((t : Int) - 2)) = [2, 1, 0, 1, 2, 1, 0, 1] ∧
    ((List.range 8).map fun t => Np.edge 3 ((t : Int) - 2)) = [0, 0, 0, 1, 2, 2, 2, 2] := by decide

/-- **C21 fails** with an activation that is not idempotent (Leaky ReLU with `alpha = 1/2`): the code
leaves `-1/4`, the reference `-1/2`. -/
theorem C21_fails_activation_twice (m : Mem Rat) (src : Buf) (hsrc : src ≠ .temp)
    (hx : Holds m src [-1]) (ht : 1 ≤ m.size .temp) (ho : 1 ≤ m.size (.out 0)) :
    let act : Rat → Rat := fun v => if v > 0 then v else 1/2 * v
    let x : Arr Rat := ⟨1, 1, 1, fun _ _ _ => -1⟩
    ¬ Computes (padCode edgeIdx 1 1 1 1 1 1 0 0 0 1 act src 0) m (.out 0)
      ((Np.padBy Np.edge 0 0 0 0 0 0 x).map act).flat := by
  intro act x hc
  have h := pad_code edgeIdx Np.edge 0 0 0 0 0 0 1 0 act src x m
    (fun n p b t hn _ => edgeIdx_eq n p t (by rcases hn with h | h | h <;> simp [h.1, x])) hsrc hx rfl ht ho
  have e := Computes.unique hc h rfl
  have : ((Np.padBy Np.edge 0 0 0 0 0 0 x).map act).flat = [-1/2] := by
    simp [Arr.flat, Arr.map, Np.padBy, tensor3, x, act]; norm_num
  rw [this] at e
  have : ((Np.padBy Np.edge 0 0 0 0 0 0 x).map (fun v => act (act v))).flat = [-1/4] := by
    simp [Arr.flat, Arr.map, Np.padBy, tensor3, x, act]; norm_num
  rw [this] at e
  norm_num at e

/-- **C21 fails** in reflect mode on every non-empty tensor with an axis of one element (say a single
channel): the generated code divides by zero. -/
theorem C21_fails_reflect_singleton (Hi Wi Co Ho Wo cf hf wf size road : Nat) (act : α → α) (src : Buf)
    (m : Mem α) (hCo : 0 < Co) (hHo : 0 < Ho) (hWo : 0 < Wo) :
    padCode reflectIdx 1 Hi Wi Co Ho Wo cf hf wf size act src road m = none := by
  have hb : ∀ (n : Nat) (body : Nat → Prog α Unit), 0 < n → body 0 m = none → forN n body m = none := by
    intro n body hn h0
    unfold forN
    induction n with
    | zero => omega
    | succ n ih =>
      rw [foldN_succ]
      rcases Nat.eq_zero_or_pos n with h | h
      · subst h
        simp only [andThen, foldN, ret, h0]
      · exact andThen_none (ih h)
  refine andThen_none (hb _ _ hCo (hb _ _ hHo (hb _ _ hWo ?_)))
  exact andThen_none (andThen_none (andThen_none rfl))

/-- **C21 fails** in wrap mode when the front padding reaches the size of the axis: `[a]` padded by one
in front reads beyond the end of the input array. -/
theorem C21_fails_wrap_full (m : Mem α) (src : Buf) (act : α → α) (hs : m.size src = 1) :
    padCode wrapIdx 1 1 1 1 1 2 0 0 1 2 act src 0 m = none := by
  have hb : ∀ (n : Nat) (body : Nat → Prog α Unit), 0 < n → body 0 m = none → forN n body m = none := by
    intro n body hn h0
    unfold forN
    induction n with
    | zero => omega
    | succ n ih =>
      rw [foldN_succ]
      rcases Nat.eq_zero_or_pos n with h | h
      · subst h
        simp only [andThen, foldN, ret, h0]
      · exact andThen_none (ih h)
  refine andThen_none (hb _ _ (by decide) (hb _ _ (by decide) (hb _ _ (by decide) ?_)))
  refine andThen_none (andThen_none ?_)
  have e1 : (liftO (wrapIdx 1 0 0) : Prog α Int) m = some (0, m) := rfl
  have e2 : (liftO (wrapIdx 1 1 0) : Prog α Int) m = some (1, m) := rfl
  refine (andThen_run e1).trans ((andThen_run e1).trans ((andThen_run e2).trans (andThen_none ?_)))
  exact load_oob (Or.inr (by rw [hs]; decide))

end Verif.Layers

import Verif.Layers.Reduce
import Verif.Props.Pooling
import Verif.Props.Layout
import Mathlib.Algebra.Field.Basic
import Mathlib.Algebra.Field.Rat

/-!
# C24: reduce layers
-/

namespace Verif.Layers
open Prog
variable {α β : Type}

/-! ## Values -/

/-- effect of one iteration on the accumulator -/
def rUpd [Add α] [Mul α] [LT α] [DecidableRel (α := α) (· < ·)] (fn : RFunc) (acc v : α) : α :=
  match fn with
  | .max => if v > acc then v else acc
  | .min => if v < acc then v else acc
  | .sum | .mean => acc + v
  | .prod => acc * v

/-- final division of the mean -/
def rFin [Div α] [NatCast α] (fn : RFunc) (n : Nat) (acc : α) : α :=
  match fn with
  | .mean => acc / (n : α)
  | _ => acc

/-- starting value -/
def rStart [Zero α] [One α] (fn : RFunc) (s : α) : α :=
  match fn with
  | .sum | .mean => 0
  | .prod => 1
  | .max | .min => s

theorem foldl_max_greatest [LinearOrder α] (l : List α) (s : α) (hs : s ∈ l) :
    IsGreatest {v | v ∈ l} (l.foldl (fun acc v => if v > acc then v else acc) s) := by
  have key : ∀ (l : List α) (s : α), let r := l.foldl (fun acc v => if v > acc then v else acc) s
      s ≤ r ∧ (∀ v ∈ l, v ≤ r) ∧ (r = s ∨ r ∈ l) := by
    intro l
    induction l with
    | nil => intro s; simp
    | cons w l ih =>
      intro s
      obtain ⟨h1, h2, h3⟩ := ih (if w > s then w else s)
      simp only [List.foldl_cons]
      generalize l.foldl (fun acc v => if v > acc then v else acc) (if w > s then w else s) = r at *
      by_cases h : w > s
      · simp only [h, if_true] at h1 h3
        refine ⟨h.le.trans h1, ?_, ?_⟩
        · intro v hv; rcases List.mem_cons.1 hv with rfl | hv
          · exact h1
          · exact h2 v hv
        · right; rcases h3 with e | e <;> simp [e]
      · simp only [h, if_false] at h1 h3
        refine ⟨h1, ?_, ?_⟩
        · intro v hv; rcases List.mem_cons.1 hv with rfl | hv
          · exact (not_lt.1 h).trans h1
          · exact h2 v hv
        · rcases h3 with e | e
          · left; exact e
          · right; simp [e]
  obtain ⟨h1, h2, h3⟩ := key l s
  refine ⟨?_, fun v hv => h2 v hv⟩
  rcases h3 with e | e
  · show _ ∈ l; rw [e]; exact hs
  · exact e

theorem amin_least [LinearOrder α] (l : List α) (hl : l ≠ []) :
    ∃ r, Np.amin l = some r ∧ IsLeast {v | v ∈ l} r := by
  have key : ∀ (vs : List α) (v : α), IsLeast {w | w ∈ v :: vs} (vs.foldl min v) := by
    intro vs
    induction vs with
    | nil => intro v; simp [IsLeast, lowerBounds]
    | cons w vs ih =>
      intro v
      obtain ⟨h1, h2⟩ := ih (min v w)
      simp only [List.foldl_cons]
      constructor
      · simp only [List.mem_cons, Set.mem_ofPred_eq] at h1 ⊢
        rcases h1 with h | h
        · rcases min_choice v w with e | e <;> rw [e] at h ⊢ <;> simp [h]
        · simp [h]
      · intro z hz
        have hm := h2 (show min v w ∈ {w' | w' ∈ min v w :: vs} by simp)
        simp only [List.mem_cons, Set.mem_ofPred_eq] at hz
        rcases hz with rfl | rfl | h
        · exact hm.trans (min_le_left _ _)
        · exact hm.trans (min_le_right _ _)
        · exact h2 (by simp [h])
  cases l with
  | nil => exact absurd rfl hl
  | cons v vs => exact ⟨_, rfl, key vs v⟩

theorem foldl_min_least [LinearOrder α] (l : List α) (s : α) (hs : s ∈ l) :
    IsLeast {v | v ∈ l} (l.foldl (fun acc v => if v < acc then v else acc) s) := by
  have := foldl_max_greatest (α := αᵒᵈ) l s hs
  exact this

/-- Accumulating the elements one after the other gives numpy's reduction. -/
theorem redFn_foldl [Field α] [LinearOrder α] (fn : RFunc) (l : List α) (s : α) (hl : l ≠ [])
    (hs : fn = .max ∨ fn = .min → s ∈ l) :
    redFn fn l = some (rFin fn l.length (l.foldl (rUpd fn) (rStart fn s))) := by
  have hadd : ∀ (l : List α) (t : α), l.foldl (fun a b => a + b) t = t + l.sum := by
    intro l; induction l with
    | nil => intro t; simp
    | cons v l ih => intro t; rw [List.foldl_cons, ih, List.sum_cons, add_assoc]
  have hmul : ∀ (l : List α) (t : α), l.foldl (fun a b => a * b) t = t * l.prod := by
    intro l; induction l with
    | nil => intro t; simp
    | cons v l ih => intro t; rw [List.foldl_cons, ih, List.prod_cons, mul_assoc]
  cases fn with
  | sum =>
    show some l.sum = some (l.foldl (fun a b => a + b) 0)
    rw [hadd, zero_add]
  | prod =>
    show some l.prod = some (l.foldl (fun a b => a * b) 1)
    rw [hmul, one_mul]
  | mean =>
    show Np.mean l = some (l.foldl (fun a b => a + b) 0 / (l.length : α))
    rw [hadd, zero_add]
    cases l with
    | nil => exact absurd rfl hl
    | cons v vs => rfl
  | max =>
    obtain ⟨r, e, g⟩ := amax_greatest l hl
    show Np.amax l = _
    rw [e]
    exact congrArg some (g.unique (foldl_max_greatest l s (hs (Or.inl rfl))))
  | min =>
    obtain ⟨r, e, g⟩ := amin_least l hl
    show Np.amin l = _
    rw [e]
    exact congrArg some (g.unique (foldl_min_least l s (hs (Or.inr rfl))))

/-! ## Code -/

section
set_option linter.unusedSectionVars false
variable [Field α] [LinearOrder α]

theorem redStart_evals {b : Buf} {m : Mem α} {fn : RFunc} {src : Buf} {a : Nat} {s : α}
    (h : fn = .max ∨ fn = .min → Evals b m (load src (a : Int)) s) :
    Evals b m (redStart fn src a) (rStart fn s) := by
  cases fn
  · exact Evals.pure _ _ _
  · exact Evals.pure _ _ _
  · exact Evals.pure _ _ _
  · exact h (Or.inl rfl)
  · exact h (Or.inr rfl)

theorem redLocal_evals {b : Buf} {m : Mem α} {fn : RFunc} {src : Buf} {a : Nat} {v acc : α}
    (h : Evals b m (load src (a : Int)) v) : Evals b m (redLocal fn src a acc) (rUpd fn acc v) := by
  cases fn
  · exact h.bind (Evals.pure _ _ _)
  · exact h.bind (Evals.pure _ _ _)
  · exact h.bind (Evals.pure _ _ _)
  · exact h.bind (Evals.ite (fun _ => h) (fun _ => Evals.pure _ _ _))
  · exact h.bind (Evals.ite (fun _ => h) (fun _ => Evals.pure _ _ _))

theorem redCell_updates {m : Mem α} {fn : RFunc} {cmp src : Buf} {a p : Nat} {v t : α}
    (h : Evals .temp m (load src (a : Int)) v)
    (hc : fn = .max ∨ fn = .min → Evals .temp m (load cmp (a : Int)) v) (hp : p < m.size .temp) :
    Updates .temp m (redCell fn cmp src a p) p t (rUpd fn t v) := by
  cases fn
  · exact Updates.loadSelf hp rfl (Updates.bind h (Updates.store hp rfl rfl))
  · exact Updates.loadSelf hp rfl (Updates.bind h (Updates.store hp rfl rfl))
  · exact Updates.loadSelf hp rfl (Updates.bind h (Updates.store hp rfl rfl))
  · exact Updates.bind (hc (Or.inl rfl)) (Updates.loadSelf hp rfl
      (Updates.ite (fun _ => Updates.bind h (Updates.store hp rfl rfl)) (fun _ => Updates.skip)))
  · exact Updates.bind (hc (Or.inr rfl)) (Updates.loadSelf hp rfl
      (Updates.ite (fun _ => Updates.bind h (Updates.store hp rfl rfl)) (fun _ => Updates.skip)))

theorem redMean_updates {m : Mem α} {fn : RFunc} {n p : Nat} {t : α} (hp : p < m.size .temp) :
    Updates .temp m (redMean fn n p) p t (rFin fn n t) := by
  cases fn
  · exact Updates.skip
  · exact Updates.skip
  · exact Updates.loadSelf hp rfl (Updates.store hp rfl rfl)
  · exact Updates.skip
  · exact Updates.skip

/-- `{{#one}}` -/
theorem redOne_computes {fn : RFunc} {d1 d2 red size road : Nat} {start pos2 : Nat → Nat → Nat → Nat} {act : α → α}
    {src : Buf} {m : Mem α} {s : Nat → Nat → α} {g : Nat → Nat → Nat → α} (hsize : size = d1 * d2)
    (ht : size ≤ m.size .temp) (ho : size ≤ m.size (.out road))
    (hs : ∀ f i, f < d1 → i < d2 → (fn = .max ∨ fn = .min) → Evals .temp m (load src (start f i 0 : Int)) (s f i))
    (hg : ∀ f i j, f < d1 → i < d2 → j < red → Evals .temp m (load src (pos2 f i j : Int)) (g f i j)) :
    Computes (redOne fn d1 d2 red start pos2 size act src road) m (.out road)
      (matrix d1 d2 fun f i => act (rFin fn red (((List.range red).map (g f i)).foldl (rUpd fn)
        (rStart fn (s f i))))) := by
  rw [← matrix_map d1 d2 _ act]
  refine computes_of_temp act (by rw [matrix_length, hsize]) ho
    (loop2_holds .temp d1 d2 _ _ (by rw [← hsize]; exact ht) ?_)
  intro f i u hf hi
  have ha : i + d2 * f < m.size .temp := by
    refine Nat.lt_of_lt_of_le (pair_lt hi hf) ?_
    rw [Nat.mul_comm, ← hsize]; exact ht
  rw [show f * d2 + i = i + d2 * f by ring]
  refine Stores.bind (redStart_evals fun h => hs f i hf hi h) ?_ u
  refine Stores.seq (Stores.store rfl ha rfl) (Updates.seq (t' := _) (Updates.forN (step := fun j t => rUpd fn t (g f i j))
    fun j t hj => redCell_updates (hg f i j hf hi hj) (fun _ => hg f i j hf hi hj) ha) ?_)
  rw [iter_foldl]
  exact redMean_updates ha

/-- `{{#two}}` -/
theorem redTwo_computes {fn : RFunc} {d red1 red2 size road : Nat} {start : Nat → Nat} {pos : Nat → Nat → Nat → Nat}
    {act : α → α} {src : Buf} {m : Mem α} {s : Nat → α} {g : Nat → Nat → Nat → α} (hsize : size = d)
    (ht : size ≤ m.size .temp) (ho : size ≤ m.size (.out road))
    (hs : ∀ f, f < d → (fn = .max ∨ fn = .min) → Evals .temp m (load src (start f : Int)) (s f))
    (hg : ∀ f i j, f < d → i < red1 → j < red2 → Evals .temp m (load src (pos f i j : Int)) (g f i j))
    (hcmp : fn = .max ∨ fn = .min → src = .out road) :
    Computes (redTwo fn d red1 red2 start pos size act src road) m (.out road)
      (tensor d fun f => act (rFin fn (red1 * red2)
        (((List.range red1).flatMap fun i => (List.range red2).map (g f i)).foldl (rUpd fn) (rStart fn (s f))))) := by
  subst hsize
  refine kernel1 (h := act) ht ho fun f hf ha => ?_
  refine Stores.bind (redStart_evals fun h => hs f hf h) ?_
  refine Stores.seq (Stores.store rfl ha rfl) (Updates.seq (t' := _)
    (Updates.forN (step := fun i t => iter (fun j t => rUpd fn t (g f i j)) t red2) fun i t hi =>
      Updates.forN (step := fun j t => rUpd fn t (g f i j)) fun j t hj =>
        redCell_updates (hg f i j hf hi hj) (fun h => by rw [← hcmp h]; exact hg f i j hf hi hj) ha) ?_)
  rw [iter_foldl2]
  exact redMean_updates ha

/-- `{{#all}}` -/
theorem redAll_computes {fn : RFunc} {size road : Nat} {act : α → α} {src : Buf} {m : Mem α} {g : Nat → α}
    (hsrc : src ≠ .temp) (hpos : 0 < size) (hx : Holds m src (tensor size g)) (ho : 1 ≤ m.size (.out road)) :
    Computes (redAll fn size act src road) m (.out road)
      [act (rFin fn size (((List.range size).map g).foldl (rUpd fn) (rStart fn (g 0))))] := by
  have hl : ∀ k, k < size → Evals .temp m (load src (k : Int)) (g k) := fun k hk => Evals.load1 hsrc hx hk rfl
  have he : Evals .temp m (redStart fn src 0 >>= fun s => foldN size s (fun k acc => redLocal fn src k acc) >>= fun r =>
      (match fn with
        | .mean => pure (r / (size : α))
        | _ => pure r : Prog α α))
      (rFin fn size (((List.range size).map g).foldl (rUpd fn) (rStart fn (g 0)))) := by
    refine Evals.bind (redStart_evals fun _ => hl 0 hpos) (Evals.bind (Evals.foldN_iter (step := fun k t => rUpd fn t (g k))
      fun k acc hk => redLocal_evals (hl k hk)) ?_)
    rw [iter_foldl]
    cases fn <;> exact Evals.pure _ _ _
  have hrun := he noW
  rw [Mem.upd_noW] at hrun
  have heq : redAll fn size act src road = andThen (redStart fn src 0 >>= fun s =>
      foldN size s (fun k acc => redLocal fn src k acc) >>= fun r =>
      (match fn with
        | .mean => pure (r / (size : α))
        | _ => pure r : Prog α α)) (fun r => store (.out road) ((0 : Nat) : Int) (act r)) := by
    unfold redAll
    simp only [bind_eq, andThen_assoc]
    rfl
  refine ⟨_, by rw [heq, andThen_run hrun, store_nat (by omega)], ?_, OnlyChanges.upd m (by simp) _⟩
  refine ⟨by simpa using ho, ?_⟩
  intro a ha
  simp only [List.length_singleton, Nat.lt_one_iff] at ha
  subst ha
  simp [Mem.upd_val_same, single]

/-! ## C24 -/

theorem redFn_single (fn : RFunc) (v : α) : redFn fn [v] = some v := by
  cases fn <;> simp [redFn, Np.mean, Np.amax, Np.amin]

/-- the position from which a two-axis maximum or minimum is started (`Reduce.py` 222-243) lies in the slice
being reduced -/
def StartInSlice (c : RedP) : Prop :=
  (1 ∈ c.axes → 2 ∈ c.axes → 3 ∉ c.axes → ∀ f, f < c.W → ∃ i j, i < c.C ∧ j < c.H ∧ c.W * f = f + c.W * (j + c.H * i)) ∧
  (1 ∈ c.axes → 2 ∉ c.axes → 3 ∈ c.axes → ∀ f, f < c.H → ∃ i j, i < c.C ∧ j < c.W ∧ c.H * f = j + c.W * (f + c.H * i)) ∧
  (1 ∉ c.axes → 2 ∈ c.axes → 3 ∈ c.axes → ∀ f, f < c.C → ∃ i j, i < c.H ∧ j < c.W ∧ c.C * f = j + c.W * (i + c.H * f))

/-- two axes are reduced -/
def TwoAxes (c : RedP) : Prop :=
  (1 ∈ c.axes ∧ 2 ∈ c.axes ∧ 3 ∉ c.axes) ∨ (1 ∈ c.axes ∧ 2 ∉ c.axes ∧ 3 ∈ c.axes) ∨
    (1 ∉ c.axes ∧ 2 ∈ c.axes ∧ 3 ∈ c.axes)

theorem redList_ch (C H W : Nat) (x : Nat → Nat → Nat → β) (f i j : Nat) :
    redList true true false C H W x f i j = (List.range C).flatMap fun a => (List.range H).map fun b => x a b j := by
  simp only [redList, redIdx, if_true, List.map_eq_flatMap]; rfl

theorem redList_cw (C H W : Nat) (x : Nat → Nat → Nat → β) (f i j : Nat) :
    redList true false true C H W x f i j = (List.range C).flatMap fun a => (List.range W).map fun b => x a i b := by
  simp [redList, redIdx]

theorem redList_hw (C H W : Nat) (x : Nat → Nat → Nat → β) (f i j : Nat) :
    redList false true true C H W x f i j = (List.range H).flatMap fun a => (List.range W).map fun b => x f a b := by
  simp [redList, redIdx]

theorem redList_c (C H W : Nat) (x : Nat → Nat → Nat → β) (f i j : Nat) :
    redList true false false C H W x f i j = (List.range C).map fun a => x a i j := by
  simp [redList, redIdx, List.map_eq_flatMap]

theorem redList_h (C H W : Nat) (x : Nat → Nat → Nat → β) (f i j : Nat) :
    redList false true false C H W x f i j = (List.range H).map fun a => x f a j := by
  simp [redList, redIdx, List.map_eq_flatMap]

theorem redList_w (C H W : Nat) (x : Nat → Nat → Nat → β) (f i j : Nat) :
    redList false false true C H W x f i j = (List.range W).map fun a => x f i a := by
  simp [redList, redIdx]

theorem redList_none (C H W : Nat) (x : Nat → Nat → Nat → β) (f i j : Nat) :
    redList false false false C H W x f i j = [x f i j] := by
  simp [redList, redIdx]

/-- a reduction along one axis of `n` elements -/
theorem red_value1 (fn : RFunc) (n : Nat) (g : Nat → α) (hn : 1 ≤ n) :
    redFn fn ((List.range n).map g) =
      some (rFin fn n (((List.range n).map g).foldl (rUpd fn) (rStart fn (g 0)))) := by
  have := redFn_foldl fn ((List.range n).map g) (g 0) (by simp; omega)
    (fun _ => by simp only [List.mem_map, List.mem_range]; exact ⟨0, by omega, rfl⟩)
  rwa [List.length_map, List.length_range] at this

/-- a reduction along two axes -/
theorem red_value2 (fn : RFunc) (n k : Nat) (g : Nat → Nat → α) (s : α) (hn : 1 ≤ n) (hk : 1 ≤ k)
    (hs : fn = .max ∨ fn = .min → ∃ i j, i < n ∧ j < k ∧ s = g i j) :
    redFn fn ((List.range n).flatMap fun i => (List.range k).map (g i)) =
      some (rFin fn (n * k) (((List.range n).flatMap fun i => (List.range k).map (g i)).foldl (rUpd fn)
        (rStart fn s))) := by
  have hlen : ((List.range n).flatMap fun i => (List.range k).map (g i)).length = n * k := by
    rw [flatMap_length_const n k]; simp
  have hmem : ∀ i j, i < n → j < k → g i j ∈ (List.range n).flatMap fun i => (List.range k).map (g i) := by
    intro i j hi hj
    simp only [List.mem_flatMap, List.mem_map, List.mem_range]
    exact ⟨i, hi, j, hj, rfl⟩
  have := redFn_foldl fn ((List.range n).flatMap fun i => (List.range k).map (g i)) s
    (List.ne_nil_of_mem (hmem 0 0 hn hk)) (fun h => by
      obtain ⟨i, j, hi, hj, rfl⟩ := hs h; exact hmem i j hi hj)
  rwa [hlen] at this

/-- **C24** (partial).  The generated code leaves the activated result of the Python reference (numpy), for every
reduction and every set of axes, excluding exactly: axes `(0,)` with `noop_with_empty_axes = 0`
(`C24_fails_batch_axis`); the no-operation case, and maximum and minimum over two axes, when the producer's tensor
is not in the layer's own buffer (`C24_fails_noop_elsewhere`, `C24_fails_compare_elsewhere`); and maximum and minimum
over two axes starting from an element outside the reduced slice (`C24_fails_start`). -/
theorem C24_reduce_partial (fn : RFunc) (c : RedP) (size road : Nat) (act : α → α) (src : Buf)
    (x : Nat → Nat → Nat → α) (m : Mem α)
    (hC : 1 ≤ c.C) (hH : 1 ≤ c.H) (hW : 1 ≤ c.W)
    (hbatch : 1 ∉ c.axes → 2 ∉ c.axes → 3 ∉ c.axes → c.noop = false → c.axes = [])
    (hnoop : 1 ∉ c.axes → 2 ∉ c.axes → 3 ∉ c.axes → c.noop = true → src = .out road)
    (htwo : TwoAxes c → fn = .max ∨ fn = .min → src = .out road ∧ StartInSlice c)
    (hsrc : src ≠ .temp) (hx : Holds m src (tensor3 c.C c.H c.W x))
    (hsize : size = c.oC * c.oH * c.oW)
    (ht : size ≤ m.size .temp) (ho : size ≤ m.size (.out road)) :
    ∃ r : Nat → Nat → Nat → α,
      (∀ f i j, f < c.oC → i < c.oH → j < c.oW → reduceForward fn c x f i j = some (r f i j)) ∧
      Computes (reduceCode fn c size act src road) m (.out road)
        (tensor3 c.oC c.oH c.oW fun f i j => act (r f i j)) := by
  have hl : ∀ f i j a, f < c.C → i < c.H → j < c.W → a = at3 c.H c.W f i j →
      Evals .temp m (load src (a : Int)) (x f i j) := fun f i j a hf hi hj ha => Evals.load3t hsrc hx hf hi hj ha
  have hflat : Holds m src (tensor (c.C * c.H * c.W) fun a => x (a / c.W / c.H) (a / c.W % c.H) (a % c.W)) := by
    rw [holds_tensor]
    rw [holds_tensor3] at hx
    refine ⟨hx.1, fun a ha => ?_⟩
    obtain ⟨f, i, j, hf, hi, hj, rfl⟩ := at3_surj ha
    rw [hx.2 f i j hf hi hj]
    unfold at3
    rw [pair_div hj, pair_mod hj, pair_div hi, pair_mod hi]
  have hall : (List.range (c.C * c.H * c.W)).map (fun a => x (a / c.W / c.H) (a / c.W % c.H) (a % c.W)) =
      redList true true true c.C c.H c.W x 0 0 0 := by
    show tensor (c.C * c.H * c.W) _ = tensor3 c.C c.H c.W x
    apply List.ext_getElem (by rw [tensor_length, tensor3_length])
    intro a h1 h2
    rw [tensor_length] at h1
    obtain ⟨f, i, j, hf, hi, hj, rfl⟩ := at3_surj h1
    rw [tensor_get, tensor3_get _ _ _ _ hf hi hj]
    unfold at3
    rw [pair_div hj, pair_mod hj, pair_div hi, pair_mod hi]
  have hpos : 0 < c.C * c.H * c.W := by positivity
  by_cases h1 : 1 ∈ c.axes <;> by_cases h2 : 2 ∈ c.axes <;> by_cases h3 : 3 ∈ c.axes
  · -- chw
    have hne : c.axes ≠ [] := List.ne_nil_of_mem h1
    simp only [reduceCode, h1, h2, h3, decide_true, RedP.oC, RedP.oH, RedP.oW, true_or, if_true, reduceForward, hne,
      if_false]
    have hk := redAll_computes (fn := fn) (act := act) hsrc hpos hflat (road := road)
      (by rw [hsize] at ho; simpa [RedP.oC, RedP.oH, RedP.oW, h1, h2, h3] using ho)
    rw [hall] at hk
    have hv := redFn_foldl fn (redList true true true c.C c.H c.W x 0 0 0) (x (0 / c.W / c.H) (0 / c.W % c.H) (0 % c.W))
      (by rw [← hall]; simp; omega) (by intro _; rw [← hall]; simp only [List.mem_map, List.mem_range]; exact ⟨0, hpos, rfl⟩)
    rw [← hall, List.length_map, List.length_range, hall] at hv
    refine ⟨fun _ _ _ => _, fun f i j hf hi hj => hv, ?_⟩
    simpa [tensor3] using hk
  · -- ch
    have hne : c.axes ≠ [] := List.ne_nil_of_mem h1
    have hst : ∀ f, f < c.W → ∃ v, fn = .max ∨ fn = .min →
        Evals .temp m (load src (c.W * f : Nat)) v ∧ ∃ i j, i < c.C ∧ j < c.H ∧ v = x i j f := by
      intro f hf
      by_cases hm : fn = .max ∨ fn = .min
      · obtain ⟨i, j, hi, hj, e⟩ := (htwo (Or.inl ⟨h1, h2, h3⟩) hm).2.1 h1 h2 h3 f hf
        exact ⟨x i j f, fun _ => ⟨hl i j f _ hi hj hf e, i, j, hi, hj, rfl⟩⟩
      · exact ⟨0, fun h => absurd h hm⟩
    choose! s hs using hst
    simp only [reduceCode, h1, h2, h3, decide_true, decide_false, RedP.oC, RedP.oH, RedP.oW, true_or, if_true,
      reduceForward, hne, if_false, false_or, false_and] at hsize ⊢
    refine ⟨fun _ _ j => _, fun f i j hf hi hj => (congrArg _ (redList_ch c.C c.H c.W x f i j)).trans
      (red_value2 fn c.C c.H (fun a b => x a b j) (s j) hC hH fun h => (hs j hj h).2), ?_⟩
    rw [tensor3_one_ch]
    exact redTwo_computes (g := fun f i j => x i j f) (s := s) (by omega) ht ho
      (fun f hf h => (hs f hf h).1) (fun f i j hf hi hj => hl i j f _ hi hj hf rfl)
      (fun h => (htwo (Or.inl ⟨h1, h2, h3⟩) h).1)
  · -- cw
    have hne : c.axes ≠ [] := List.ne_nil_of_mem h1
    have hst : ∀ f, f < c.H → ∃ v, fn = .max ∨ fn = .min →
        Evals .temp m (load src (c.H * f : Nat)) v ∧ ∃ i j, i < c.C ∧ j < c.W ∧ v = x i f j := by
      intro f hf
      by_cases hm : fn = .max ∨ fn = .min
      · obtain ⟨i, j, hi, hj, e⟩ := (htwo (Or.inr (Or.inl ⟨h1, h2, h3⟩)) hm).2.2.1 h1 h2 h3 f hf
        exact ⟨x i f j, fun _ => ⟨hl i f j _ hi hf hj e, i, j, hi, hj, rfl⟩⟩
      · exact ⟨0, fun h => absurd h hm⟩
    choose! s hs using hst
    simp only [reduceCode, h1, h2, h3, decide_true, decide_false, RedP.oC, RedP.oH, RedP.oW, true_or, if_true,
      reduceForward, hne, if_false, false_or, false_and] at hsize ⊢
    refine ⟨fun _ i _ => _, fun f i j hf hi hj => (congrArg _ (redList_cw c.C c.H c.W x f i j)).trans
      (red_value2 fn c.C c.W (fun a b => x a i b) (s i) hC hW fun h => (hs i hi h).2), ?_⟩
    rw [tensor3_one_cw]
    exact redTwo_computes (g := fun f i j => x i f j) (s := s) (by omega) ht ho
      (fun f hf h => (hs f hf h).1) (fun f i j hf hi hj => hl i f j _ hi hf hj rfl)
      (fun h => (htwo (Or.inr (Or.inl ⟨h1, h2, h3⟩)) h).1)
  · -- c
    have hne : c.axes ≠ [] := List.ne_nil_of_mem h1
    simp only [reduceCode, h1, h2, h3, decide_true, decide_false, RedP.oC, RedP.oH, RedP.oW, true_or, if_true,
      reduceForward, hne, if_false, false_or, false_and] at hsize ⊢
    refine ⟨fun _ i j => _, fun f i j hf hi hj => (congrArg _ (redList_c c.C c.H c.W x f i j)).trans
      (red_value1 fn c.C (fun a => x a i j) hC), ?_⟩
    rw [tensor3_one_c]
    refine redOne_computes (g := fun f i j => x j f i) (s := fun f i => x 0 f i) (by rw [hsize, Nat.one_mul]) ht ho
      (fun f i hf hi h => hl 0 f i _ hC hf hi ?_) (fun f i j hf hi hj => hl j f i _ hj hf hi rfl)
    unfold at3; ring
  · -- hw
    have hne : c.axes ≠ [] := List.ne_nil_of_mem h2
    have hst : ∀ f, f < c.C → ∃ v, fn = .max ∨ fn = .min →
        Evals .temp m (load src (c.C * f : Nat)) v ∧ ∃ i j, i < c.H ∧ j < c.W ∧ v = x f i j := by
      intro f hf
      by_cases hm : fn = .max ∨ fn = .min
      · obtain ⟨i, j, hi, hj, e⟩ := (htwo (Or.inr (Or.inr ⟨h1, h2, h3⟩)) hm).2.2.2 h1 h2 h3 f hf
        exact ⟨x f i j, fun _ => ⟨hl f i j _ hf hi hj e, i, j, hi, hj, rfl⟩⟩
      · exact ⟨0, fun h => absurd h hm⟩
    choose! s hs using hst
    simp only [reduceCode, h1, h2, h3, decide_true, decide_false, RedP.oC, RedP.oH, RedP.oW, true_or, if_true,
      reduceForward, hne, if_false, false_or, false_and] at hsize ⊢
    refine ⟨fun f _ _ => _, fun f i j hf hi hj => (congrArg _ (redList_hw c.C c.H c.W x f i j)).trans
      (red_value2 fn c.H c.W (fun a b => x f a b) (s f) hH hW fun h => (hs f hf h).2), ?_⟩
    rw [tensor3_one_hw]
    exact redTwo_computes (g := fun f i j => x f i j) (s := s) (by omega) ht ho
      (fun f hf h => (hs f hf h).1) (fun f i j hf hi hj => hl f i j _ hf hi hj rfl)
      (fun h => (htwo (Or.inr (Or.inr ⟨h1, h2, h3⟩)) h).1)
  · -- h
    have hne : c.axes ≠ [] := List.ne_nil_of_mem h2
    simp only [reduceCode, h1, h2, h3, decide_true, decide_false, RedP.oC, RedP.oH, RedP.oW, true_or, if_true,
      reduceForward, hne, if_false, false_or, false_and] at hsize ⊢
    refine ⟨fun f _ j => _, fun f i j hf hi hj => (congrArg _ (redList_h c.C c.H c.W x f i j)).trans
      (red_value1 fn c.H (fun a => x f a j) hH), ?_⟩
    rw [tensor3_one_h]
    refine redOne_computes (g := fun f i j => x f j i) (s := fun f i => x f 0 i) (by rw [hsize, Nat.mul_one]) ht ho
      (fun f i hf hi h => hl f 0 i _ hf hH hi ?_) (fun f i j hf hi hj => hl f j i _ hf hj hi rfl)
    unfold at3; ring
  · -- w
    have hne : c.axes ≠ [] := List.ne_nil_of_mem h3
    simp only [reduceCode, h1, h2, h3, decide_true, decide_false, RedP.oC, RedP.oH, RedP.oW, true_or, if_true,
      reduceForward, hne, if_false, false_or, false_and] at hsize ⊢
    refine ⟨fun f i _ => _, fun f i j hf hi hj => (congrArg _ (redList_w c.C c.H c.W x f i j)).trans
      (red_value1 fn c.W (fun a => x f i a) hW), ?_⟩
    rw [tensor3_one_w]
    refine redOne_computes (g := fun f i j => x f i j) (s := fun f i => x f i 0) (by rw [hsize, Nat.mul_one]) ht ho
      (fun f i hf hi h => hl f i 0 _ hf hi hW ?_) (fun f i j hf hi hj => hl f i j _ hf hi hj rfl)
    unfold at3; ring
  · -- no axis
    cases hn : c.noop with
    | true =>
      have hin := hnoop h1 h2 h3 hn
      subst hin
      simp only [reduceCode, h1, h2, h3, decide_false, RedP.oC, RedP.oH, RedP.oW, false_or, hn,
        reduceForward, if_true, reduceCtorEq, and_false, if_false] at hsize ⊢
      refine ⟨x, fun f i j hf hi hj => ?_, ?_⟩
      · split
        · rfl
        · exact (congrArg _ (redList_none c.C c.H c.W x f i j)).trans (redFn_single fn _)
      · have hlen := tensor3_length c.C c.H c.W x
        obtain ⟨m', e, h, k⟩ := copy_holds (fun _ => act) hx (dst := .out road) (by rw [hlen, ← hsize]; exact ho)
        rw [hlen, ← hsize] at e
        refine ⟨m', e, ?_, k.mono (by simp)⟩
        have : (tensor3 c.C c.H c.W x).mapIdx (fun _ => act) = tensor3 c.C c.H c.W fun f i j => act (x f i j) := by
          rw [← tensor3_map]; apply List.ext_getElem <;> simp
        rwa [this] at h
    | false =>
      have hax := hbatch h1 h2 h3 hn
      simp only [reduceCode, hax, decide_false, RedP.oC, RedP.oH, RedP.oW, hn, List.not_mem_nil,
        reduceForward, if_true, true_and, or_true, if_false, Bool.false_eq_true] at hsize ⊢
      have hk := redAll_computes (fn := fn) (act := act) hsrc hpos hflat (road := road) (by omega)
      rw [hall] at hk
      have hv := redFn_foldl fn (redList true true true c.C c.H c.W x 0 0 0) (x (0 / c.W / c.H) (0 / c.W % c.H) (0 % c.W))
        (by rw [← hall]; simp; omega) (by intro _; rw [← hall]; simp only [List.mem_map, List.mem_range]; exact ⟨0, hpos, rfl⟩)
      rw [← hall, List.length_map, List.length_range, hall] at hv
      refine ⟨fun _ _ _ => _, fun f i j hf hi hj => hv, ?_⟩
      simpa [tensor3] using hk

/-- Sum, product and mean are right for every set of axes other than `(0,)`, wherever the producer's tensor is. -/
theorem C24_sum_prod_mean_partial (fn : RFunc) (c : RedP) (size road : Nat) (act : α → α) (src : Buf)
    (x : Nat → Nat → Nat → α) (m : Mem α) (hfn : fn = .sum ∨ fn = .prod ∨ fn = .mean)
    (hC : 1 ≤ c.C) (hH : 1 ≤ c.H) (hW : 1 ≤ c.W)
    (hax : (1 ∈ c.axes ∨ 2 ∈ c.axes ∨ 3 ∈ c.axes) ∨ (c.axes = [] ∧ c.noop = false))
    (hsrc : src ≠ .temp) (hx : Holds m src (tensor3 c.C c.H c.W x))
    (hsize : size = c.oC * c.oH * c.oW)
    (ht : size ≤ m.size .temp) (ho : size ≤ m.size (.out road)) :
    ∃ r : Nat → Nat → Nat → α,
      (∀ f i j, f < c.oC → i < c.oH → j < c.oW → reduceForward fn c x f i j = some (r f i j)) ∧
      Computes (reduceCode fn c size act src road) m (.out road)
        (tensor3 c.oC c.oH c.oW fun f i j => act (r f i j)) := by
  refine C24_reduce_partial fn c size road act src x m hC hH hW ?_ ?_ ?_ hsrc hx hsize ht ho
  · intro h1 h2 h3 _; rcases hax with (h | h | h) | h
    · exact absurd h h1
    · exact absurd h h2
    · exact absurd h h3
    · exact h.1
  · intro h1 h2 h3 hn; rcases hax with (h | h | h) | h
    · exact absurd h h1
    · exact absurd h h2
    · exact absurd h h3
    · rw [h.2] at hn; cases hn
  · intro _ h
    rcases hfn with e | e | e <;> rw [e] at h <;> rcases h with h | h <;> cases h

end

/-! ## Where the code and the reference disagree -/

/-- **C24 fails** for axes `(0,)` with `noop_with_empty_axes = 0`: numpy keeps the tensor (`[1, 2]`), the generated
code adds everything up. -/
theorem C24_fails_batch_axis :
    ∃ (c : RedP) (x : Nat → Nat → Nat → Int) (m : Mem Int), c.oC * c.oH * c.oW = 2 ∧
      Holds m (.out 0) (tensor3 c.C c.H c.W x) ∧ 2 ≤ m.size .temp ∧
      reduceForward .sum c x 0 0 0 = some 1 ∧
      (reduceCode .sum c 2 id (.out 0) 0 m).map (fun r => r.2.val (.out 0) 0) = some 3 :=
  ⟨⟨1, 1, 2, [0], false⟩, fun _ _ j => j + 1, ⟨fun _ => 2, fun _ a => a + 1⟩, by decide,
    ⟨by decide, fun a h => by
      have : a < 2 := h
      rcases a with _ | _ | a <;> first | rfl | omega⟩, by decide, by decide, by decide⟩

/-- **C24 fails** in the no-operation case when the producer's tensor (`[7]`) is elsewhere: the generated code keeps
the old content (`0`) of its own buffer. -/
theorem C24_fails_noop_elsewhere :
    ∃ (c : RedP) (x : Nat → Nat → Nat → Int) (m : Mem Int),
      Holds m (.cst 0) (tensor3 c.C c.H c.W x) ∧ reduceForward .sum c x 0 0 0 = some 7 ∧
      (reduceCode .sum c 1 id (.cst 0) 0 m).map (fun r => r.2.val (.out 0) 0) = some 0 :=
  ⟨⟨1, 1, 1, [], true⟩, fun _ _ _ => 7, ⟨fun _ => 1, fun b _ => if b = .cst 0 then 7 else 0⟩,
    ⟨by decide, fun a h => by
      have : a < 1 := h
      rcases a with _ | a <;> first | rfl | omega⟩, by decide, by decide⟩

/-- **C24 fails** for the maximum over two axes when the producer's tensor (`[1, 2]`) is elsewhere: the generated code
compares with its own buffer (`[0, 0]`) and leaves `1`. -/
theorem C24_fails_compare_elsewhere :
    ∃ (c : RedP) (x : Nat → Nat → Nat → Int) (m : Mem Int), StartInSlice c ∧
      Holds m (.cst 0) (tensor3 c.C c.H c.W x) ∧ reduceForward .max c x 0 0 0 = some 2 ∧
      (reduceCode .max c 1 id (.cst 0) 0 m).map (fun r => r.2.val (.out 0) 0) = some 1 :=
  ⟨⟨1, 1, 2, [2, 3], false⟩, fun _ _ j => j + 1, ⟨fun _ => 2, fun b a => if b = .cst 0 then a + 1 else 0⟩,
    ⟨by simp, by simp, fun _ _ _ f hf => ⟨0, 0, by decide, by decide, by dsimp only at hf ⊢; omega⟩⟩,
    ⟨by decide, fun a h => by
      have : a < 2 := h
      rcases a with _ | _ | a <;> first | rfl | omega⟩, by decide, by decide⟩

/-- **C24 fails** for the maximum over two axes of this 2×2×2 tensor, in place: the maximum of the second channel is
`1`, but it is started from an element (`9`) of the first channel. -/
theorem C24_fails_start :
    ∃ (c : RedP) (x : Nat → Nat → Nat → Int) (m : Mem Int),
      Holds m (.out 0) (tensor3 c.C c.H c.W x) ∧ reduceForward .max c x 1 0 0 = some 1 ∧
      (reduceCode .max c 2 id (.out 0) 0 m).map (fun r => r.2.val (.out 0) 1) = some 9 :=
  ⟨⟨2, 2, 2, [2, 3], false⟩, fun f i j => if f = 1 then 1 else if i = 1 ∧ j = 0 then 9 else 0,
    ⟨fun _ => 8, fun _ a => if a = 2 then 9 else if a ≥ 4 then 1 else 0⟩,
    by rw [holds_tensor3]
       refine ⟨by decide, ?_⟩
       intro f i j hf hi hj
       dsimp only at hf hi hj
       obtain rfl | rfl : f = 0 ∨ f = 1 := by omega
       all_goals obtain rfl | rfl : i = 0 ∨ i = 1 := by omega
       all_goals obtain rfl | rfl : j = 0 ∨ j = 1 := by omega
       all_goals decide,
    by decide, by decide⟩

/-- ... and for three channels of one element, with arrays of exactly the tensor's size, the starting element lies
outside the array. -/
theorem C24_fails_start_out_of_bounds (m : Mem Int) (hs : ∀ b, m.size b = 3) :
    reduceCode .max ⟨3, 1, 1, [2, 3], false⟩ 3 id (.out 0) 0 m = none := by
  have hs' : m = ⟨fun _ => 3, m.val⟩ := by
    cases m; congr 1; funext b; exact hs b
  rw [hs']
  simp [reduceCode, redTwo, redStart, redCell, redMean, RedP.oC, forN, foldN, andThen, load, store, ret, copyMap]

/-- hypotheses of C24 satisfiable: the mean over rows of a 2-channel 3×2 image that is in a saved copy -/
example (m : Mem Rat) (x : Nat → Nat → Nat → Rat) (hx : Holds m (.cst 0) (tensor3 2 3 2 x))
    (ht : 4 ≤ m.size .temp) (ho : 4 ≤ m.size (.out 0)) :
    ∃ r : Nat → Nat → Nat → Rat,
      (∀ f i j, f < 2 → i < 1 → j < 2 → reduceForward .mean ⟨2, 3, 2, [2], false⟩ x f i j = some (r f i j)) ∧
      Computes (reduceCode .mean ⟨2, 3, 2, [2], false⟩ 4 id (.cst 0) 0) m (.out 0)
        (tensor3 2 1 2 fun f i j => r f i j) :=
  C24_sum_prod_mean_partial .mean ⟨2, 3, 2, [2], false⟩ 4 0 id (.cst 0) x m (by simp) (by decide) (by decide)
    (by decide) (by simp) (by simp) hx rfl ht ho

/-- ... and the maximum over rows and columns of a 4-channel 2×2 image, in place -/
example (m : Mem Rat) (x : Nat → Nat → Nat → Rat) (hx : Holds m (.out 0) (tensor3 4 2 2 x)) (ht : 4 ≤ m.size .temp)
    (ho : 4 ≤ m.size (.out 0)) :
    ∃ r : Nat → Nat → Nat → Rat,
      (∀ f i j, f < 4 → i < 1 → j < 1 → reduceForward .max ⟨4, 2, 2, [2, 3], false⟩ x f i j = some (r f i j)) ∧
      Computes (reduceCode .max ⟨4, 2, 2, [2, 3], false⟩ 4 id (.out 0) 0) m (.out 0)
        (tensor3 4 1 1 fun f i j => r f i j) :=
  C24_reduce_partial .max ⟨4, 2, 2, [2, 3], false⟩ 4 0 id (.out 0) x m (by decide) (by decide) (by decide)
    (by simp) (by simp) (fun _ _ => ⟨rfl, by simp, by simp, fun _ _ _ f hf =>
      ⟨0, 0, by decide, by decide, by dsimp only; omega⟩⟩) (by simp) hx rfl ht ho

end Verif.Layers

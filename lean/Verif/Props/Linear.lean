import Verif.Layers.Linear
import Verif.CMem.Eval
import Mathlib.Algebra.BigOperators.Ring.Finset

/-!
# C08 – C10: Dense, MatMul, Gemm

In all statements: `m` is any memory, `src`/`left`/`right` any array other than the scratch array
(the arrays `output_k`, `cst_k` of the producers — possibly the output array itself), `road` the
layer's `path`, and the sizes of the arrays only have to be large enough for the tensors.
-/

namespace Verif.Layers
open Prog
variable {α : Type}

/-! ## C08 Dense -/

/-- The generated Dense code leaves `act (∑ⱼ w[j][i]·x[j] + b[i])` in position `i` of its output. -/
theorem C08_dense_code [CommSemiring α] (size prevSize idx road : Nat) (act : α → α) (src : Buf)
    (w : Nat → Nat → α) (b x : Nat → α) (m : Mem α) (hsrc : src ≠ .temp)
    (hx : Holds m src (tensor prevSize x))
    (hw : Holds m (.par .weights idx) (matrix prevSize size w))
    (hb : Holds m (.par .biases idx) (tensor size b))
    (ht : size ≤ m.size .temp) (ho : size ≤ m.size (.out road)) :
    Computes (denseCode size prevSize idx act src road) m (.out road)
      (tensor size fun i => act (∑ j ∈ Finset.range prevSize, w j i * x j + b i)) := by
  refine kernel1 (h := id) ht ho fun i hi ha => ?_
  refine Stores.bind (Evals.foldN_sum (g := fun j => w j i * x j) fun j acc hj => ?_) ?_
  · refine (Evals.load1 hsrc hx hj rfl).bind ((Evals.load2 (by simp) hw hj hi rfl).bind ?_)
    rw [mul_comm (w j i)]; exact Evals.pure _ _ _
  · refine Stores.bind (Evals.load1 (by simp) hb hi rfl) (Stores.store rfl ha ?_)
    rw [zero_add]

/-- The Python reference computes the same tensor. -/
theorem C08_dense_forward [CommSemiring α] (prevSize : Nat) (act : α → α) (w : Nat → Nat → α)
    (b x : Nat → α) (i : Nat) :
    denseForward prevSize act w b x i = act (∑ j ∈ Finset.range prevSize, w j i * x j + b i) := by
  simp [denseForward, Np.vecMat, mul_comm]

/-- Dense: generated code and reference agree. -/
theorem C08_dense [CommSemiring α] (size prevSize idx road : Nat) (act : α → α) (src : Buf)
    (w : Nat → Nat → α) (b x : Nat → α) (m : Mem α) (hsrc : src ≠ .temp)
    (hx : Holds m src (tensor prevSize x))
    (hw : Holds m (.par .weights idx) (matrix prevSize size w))
    (hb : Holds m (.par .biases idx) (tensor size b))
    (ht : size ≤ m.size .temp) (ho : size ≤ m.size (.out road)) :
    Computes (denseCode size prevSize idx act src road) m (.out road)
      (tensor size (denseForward prevSize act w b x)) := by
  have h := C08_dense_code size prevSize idx road act src w b x m hsrc hx hw hb ht ho
  rw [tensor_congr (fun i _ => C08_dense_forward prevSize act w b x i)]
  exact h

/-- A memory meeting the hypotheses: a 3 → 2 layer working in place in `output_0`. -/
example : Computes (denseCode 2 3 7 (fun v : Int => max v 0) (.out 0) 0)
    ⟨fun b => match b with | .out 0 => 3 | .temp => 2 | .par .weights 7 => 6 | .par .biases 7 => 2 | _ => 0,
     fun b a => match b with
       | .out 0 => ((a : Int) + 1) | .par .weights 7 => (a : Int) | .par .biases 7 => -20 | _ => 0⟩
    (.out 0) (tensor 2 (denseForward 3 (fun v : Int => max v 0)
      (fun j i => (j * 2 + i : Nat)) (fun _ => -20) (fun j => (j : Int) + 1))) :=
  C08_dense 2 3 7 0 _ _ _ _ _ _ (by simp) (holds_tensor.2 ⟨by simp, by intros; rfl⟩)
    (holds_matrix.2 ⟨by simp, by intros; rfl⟩) (holds_tensor.2 ⟨by simp, by intros; rfl⟩)
    (by simp) (by simp)

/-! ## C09 MatMul -/

/-- The generated MatMul code computes the activated matrix product of each channel. -/
theorem C09_matmul_code [CommSemiring α] (C H W K size road : Nat) (act : α → α) (left right : Buf)
    (a b : Nat → Nat → Nat → α) (m : Mem α) (hl : left ≠ .temp) (hr : right ≠ .temp)
    (ha : Holds m left (tensor3 C H K a)) (hb : Holds m right (tensor3 C K W b))
    (hsz : size = W * H * C)
    (ht : size ≤ m.size .temp) (ho : size ≤ m.size (.out road)) :
    Computes (matmulCode C H W K size act left right road) m (.out road)
      (tensor3 C H W fun f i j => act (∑ k ∈ Finset.range K, a f i k * b f k j)) := by
  have hsz' : size = C * H * W := by rw [hsz]; ring
  refine kernel3 hsz' ht ho fun f i j hf hi hj hadr u => ?_
  have hacc := forN_accum (m := m) (b := .temp) (u := u) (a := at3 H W f i j) K
    (fun k => (do
      let t ← load .temp (at3 H W f i j : Int)
      let a ← load left ((k + K * (i + H * f) : Nat) : Int)
      let b ← load right ((j + W * (k + K * f) : Nat) : Int)
      store .temp (at3 H W f i j : Int) (t + a * b)))
    (fun k t => t + a f i k * b f k j) 0 (by
      intro k t hk
      refine (andThen_run (load_cell hadr)).trans ?_
      refine (andThen_run (Evals.load3 hl ha hf hi hk rfl _)).trans ?_
      refine (andThen_run (Evals.load3 hr hb hf hk hj rfl _)).trans ?_
      exact store_cell hadr)
  refine (andThen_run (store_upd hadr)).trans ?_
  rw [Mem.upd_upd]
  refine hacc.trans ?_
  rw [iter_add, zero_add, Mem.upd_upd]

/-- MatMul: generated code and reference agree when both operands have the same number of channels. -/
theorem C09_matmul_partial [CommSemiring α] (C H W K size road : Nat) (act : α → α) (left right : Buf)
    (a b : Nat → Nat → Nat → α) (m : Mem α) (hl : left ≠ .temp) (hr : right ≠ .temp)
    (ha : Holds m left (tensor3 C H K a)) (hb : Holds m right (tensor3 C K W b))
    (hsz : size = W * H * C)
    (ht : size ≤ m.size .temp) (ho : size ≤ m.size (.out road)) :
    Computes (matmulCode C H W K size act left right road) m (.out road)
      (tensor3 C H W (matmulForward C C K act a b)) := by
  have h := C09_matmul_code C H W K size road act left right a b m hl hr ha hb hsz ht ho
  have : tensor3 C H W (matmulForward C C K act a b)
      = tensor3 C H W fun f i j => act (∑ k ∈ Finset.range K, a f i k * b f k j) := by
    apply tensor3_congr
    intro f i j hf _ _
    have hf0 : (if C = 1 then 0 else f) = f := by split <;> omega
    simp only [matmulForward, Np.matmul3, Np.matMul, hf0]
  rw [this]; exact h

example : Computes (matmulCode 1 2 2 1 4 id (.out 0) (.cst 0) 0)
    ⟨fun b => match b with | .out 0 => 4 | .cst 0 => 2 | .temp => 4 | _ => 0,
     fun _ a => (a : Int)⟩ (.out 0)
    (tensor3 1 2 2 (matmulForward 1 1 1 id (fun f i j => (at3 2 1 f i j : Int))
      (fun f i j => (at3 1 2 f i j : Int)))) :=
  C09_matmul_partial 1 2 2 1 4 0 id _ _ _ _ _ (by simp) (by simp)
    (holds_tensor3.2 ⟨by simp, by intros; rfl⟩) (holds_tensor3.2 ⟨by simp, by intros; rfl⟩)
    (by rfl) (by simp) (by simp)

/-- The property when the second operand is a single matrix shared by all channels, which both the
constructor and `np.matmul` accept. -/
def C09_broadcast_statement : Prop :=
  ∀ (C H W K size road : Nat) (act : Int → Int) (left right : Buf) (a b : Nat → Nat → Nat → Int)
    (m : Mem Int), left ≠ .temp → right ≠ .temp → Holds m left (tensor3 C H K a) →
    Holds m right (tensor3 1 K W b) → size = W * H * C → size ≤ m.size .temp → size ≤ m.size (.out road) →
    Computes (matmulCode C H W K size act left right road) m (.out road)
      (tensor3 C H W (matmulForward C 1 K act a b))

/-- It fails: the generated code reads the second operand out of bounds. -/
theorem C09_fails_broadcast : ¬ C09_broadcast_statement := by
  intro h
  have := h 2 1 1 1 2 0 id (.cst 0) (.cst 1) (fun _ _ _ => 1) (fun _ _ _ => 1)
    ⟨fun b => match b with | .cst 1 => 1 | _ => 2, fun _ _ => 1⟩ (by simp) (by simp)
    (holds_tensor3.2 ⟨by simp, by intros; rfl⟩) (holds_tensor3.2 ⟨by simp, by intros; rfl⟩)
    (by simp) (by simp) (by simp)
  obtain ⟨m', e, _⟩ := this
  have hn : (matmulCode 2 1 1 1 2 id (.cst 0) (.cst 1) 0
    ⟨fun b => match b with | .cst 1 => 1 | _ => 2, fun _ _ => (1 : Int)⟩).isNone = true := by
    decide +kernel
  rw [e] at hn; simp at hn

/-! ## C10 Gemm -/

theorem scaled_factor [CommSemiring α] [DecidableEq α] (a x : α) : scaled (factor a) x = a * x := by
  unfold factor
  split
  · rfl
  · rename_i h
    simp only [ne_eq, not_not] at h
    simp [scaled, h]

/-- The loop nest of the Gemm templates, for any index expressions that address `A[i][p]`, `B[p][j]`. -/
theorem gemmLoops_holds [CommSemiring α] [DecidableEq α] (M N K idx : Nat) (alpha beta : α) (act : α → α)
    (src : Buf) (aIdx bIdx : Nat → Nat → Nat) (a b : Nat → Nat → α) (c : Nat → α) (m : Mem α)
    (hsrc : src ≠ .temp)
    (ha : ∀ i p, i < M → p < K → aIdx i p < m.size src ∧ m.val src (aIdx i p) = a i p)
    (hb : ∀ p j, p < K → j < N → bIdx p j < m.size (.par .weights idx) ∧
      m.val (.par .weights idx) (bIdx p j) = b p j)
    (hc : Holds m (.par .biases idx) (tensor N c)) (ht : M * N ≤ m.size .temp) :
    ∃ m', gemmLoops M N K idx (factor alpha) (factor beta) act src aIdx bIdx m = some ((), m') ∧
      Holds m' .temp (matrix M N fun i j =>
        act (alpha * (∑ p ∈ Finset.range K, a i p * b p j) + beta * c j)) ∧
      OnlyChanges [.temp] m m' := by
  refine loop2_holds .temp M N _ _ ht ?_
  intro i j u hi hj
  have hlt : i * N + j < M * N := by
    have := pair_lt hj hi; rw [Nat.mul_comm i, Nat.mul_comm M, Nat.add_comm]; exact this
  refine Stores.bind (Evals.foldN_sum (g := fun p => alpha * (a i p * b p j)) fun p acc hp => ?_) ?_ u
  · refine (Evals.load' hsrc rfl (ha i p hi hp).1 (ha i p hi hp).2).bind
      ((Evals.load' (by simp) rfl (hb p j hp hj).1 (hb p j hp hj).2).bind ?_)
    rw [scaled_factor, mul_assoc]; exact Evals.pure _ _ _
  · refine Stores.bind (Evals.load1 (by simp) hc hj rfl) (Stores.store rfl (by omega) ?_)
    rw [zero_add, ← Finset.mul_sum, scaled_factor]

/-- Gemm with a bias vector of `N` elements: for each of the four transposition cases the generated
code leaves `act (alpha·op(A)·op(B) + beta·C)` in the output, as the reference computes it.
`A` has shape `inH × inW`, `B` shape `wH × wW`, with the constructor's consistency checks. -/
theorem C10_gemm_partial [CommSemiring α] [DecidableEq α] (tA tB : Bool)
    (M N K inH inW wH wW size idx road : Nat)
    (alpha beta : α) (act : α → α) (src : Buf) (x w : Nat → Nat → α) (c : Nat → α) (m : Mem α)
    (hsrc : src ≠ .temp)
    (hin : (inH, inW) = if tA then (K, M) else (M, K))
    (hwt : (wH, wW) = if tB then (N, K) else (K, N))
    (hsize : size = M * N)
    (hx : Holds m src (matrix inH inW x))
    (hw : Holds m (.par .weights idx) (matrix wH wW w))
    (hc : Holds m (.par .biases idx) (tensor N c))
    (ht : size ≤ m.size .temp) (ho : size ≤ m.size (.out road)) :
    Computes (gemmCode tA tB M N inH inW size idx (factor alpha) (factor beta) act src road) m
      (.out road) (matrix M N (gemmForward tA tB K alpha beta act w (fun _ j => c j) x)) := by
  subst hsize
  -- clearing loop
  obtain ⟨m1, e1, _, c1⟩ := forN_holds (m := m) .temp (N * M) (fun k => store .temp (k : Int) 0)
    (fun _ => 0) (by rw [Nat.mul_comm]; exact ht)
    (fun k u hk => store_upd (by rw [Nat.mul_comm] at hk; omega))
  have hx1 : Holds m1 src (matrix inH inW x) := hx.congr c1.1 (c1.2 src (by simpa using hsrc))
  have hw1 := hw.congr c1.1 (c1.2 _ (by simp))
  have hc1 := hc.congr c1.1 (c1.2 (.par .biases idx) (by simp))
  rw [holds_matrix] at hx1 hw1
  have hrow : ∀ {A B i j : Nat}, i < A → j < B → i * B + j < A * B := by
    intro A B i j hi hj
    have := pair_lt hj hi; rw [Nat.mul_comm i, Nat.mul_comm A, Nat.add_comm]; exact this
  have hmain : ∃ m2, gemmAlgo tA tB M N (if tA then inH else inW) idx (factor alpha) (factor beta) act src m1 = some ((), m2) ∧
      Holds m2 .temp (matrix M N (gemmForward tA tB K alpha beta act w (fun _ j => c j) x)) ∧
      OnlyChanges [.temp] m1 m2 := by
    have ht1 : M * N ≤ m1.size .temp := by rw [c1.1]; exact ht
    cases tA <;> cases tB <;>
      simp only [Bool.false_eq_true, if_true, if_false, Prod.mk.injEq] at hin hwt <;>
      obtain ⟨rfl, rfl⟩ := hin <;> obtain ⟨rfl, rfl⟩ := hwt <;>
      simp only [Bool.false_eq_true, if_true, if_false, gemmAlgo, gemmForward, Np.matMul, Np.transpose2]
    · exact gemmLoops_holds _ _ _ idx alpha beta act src _ _ x w c m1 hsrc
        (fun i p hi hp => ⟨Nat.lt_of_lt_of_le (hrow hi hp) hx1.1, hx1.2 i p hi hp⟩)
        (fun p j hp hj => ⟨Nat.lt_of_lt_of_le (hrow hp hj) hw1.1, hw1.2 p j hp hj⟩) hc1 ht1
    · exact gemmLoops_holds _ _ _ idx alpha beta act src _ _ x (fun p j => w j p) c m1 hsrc
        (fun i p hi hp => ⟨Nat.lt_of_lt_of_le (hrow hi hp) hx1.1, hx1.2 i p hi hp⟩)
        (fun p j hp hj => ⟨Nat.lt_of_lt_of_le (hrow hj hp) hw1.1, hw1.2 j p hj hp⟩) hc1 ht1
    · exact gemmLoops_holds _ _ _ idx alpha beta act src _ _ (fun i p => x p i) w c m1 hsrc
        (fun i p hi hp => ⟨Nat.lt_of_lt_of_le (hrow hp hi) hx1.1, hx1.2 p i hp hi⟩)
        (fun p j hp hj => ⟨Nat.lt_of_lt_of_le (hrow hp hj) hw1.1, hw1.2 p j hp hj⟩) hc1 ht1
    · exact gemmLoops_holds _ _ _ idx alpha beta act src _ _ (fun i p => x p i) (fun p j => w j p)
        c m1 hsrc
        (fun i p hi hp => ⟨Nat.lt_of_lt_of_le (hrow hp hi) hx1.1, hx1.2 p i hp hi⟩)
        (fun p j hp hj => ⟨Nat.lt_of_lt_of_le (hrow hj hp) hw1.1, hw1.2 j p hj hp⟩) hc1 ht1
  obtain ⟨m2, e2, h2, c2⟩ := hmain
  have h := computes_of_temp (m := m) (k := road) (n := M * N) (id : α → α) (by rw [matrix_length]) ho
    (c := andThen (forN (N * M) fun k => store .temp (k : Int) 0) fun _ =>
      gemmAlgo tA tB M N (if tA then inH else inW) idx (factor alpha) (factor beta) act src)
    ⟨m2, by rw [andThen_run e1]; exact e2, h2, c1.trans c2⟩
  rw [List.map_id, andThen_assoc] at h
  exact h

example : Computes (gemmCode true false 2 3 1 2 6 4 (factor (2 : Int)) (factor 1) id (.out 0) 0)
    ⟨fun b => match b with | .out 0 => 6 | .temp => 6 | .par .weights 4 => 3 | .par .biases 4 => 3 | _ => 0,
     fun _ a => (a : Int)⟩ (.out 0)
    (matrix 2 3 (gemmForward true false 1 2 1 id (fun i j => (i * 3 + j : Nat)) (fun _ j => (j : Int))
      (fun i j => (i * 2 + j : Nat)))) :=
  C10_gemm_partial true false 2 3 1 1 2 1 3 6 4 0 2 1 id _ _ _ _ _ (by simp) rfl rfl rfl
    (holds_matrix.2 ⟨by simp, by intros; rfl⟩) (holds_matrix.2 ⟨by simp, by intros; rfl⟩)
    (holds_tensor.2 ⟨by simp, by intros; rfl⟩) (by simp) (by simp)

/-- The property for a one-element bias (shape `(1,)`), accepted by the constructor
(`layers/gemm/Gemm.py` 150-155) and broadcast by numpy. -/
def C10_scalar_bias_statement : Prop :=
  ∀ (tA tB : Bool) (M N K inH inW wH wW size idx road : Nat) (alpha beta : Int) (act : Int → Int)
    (src : Buf) (x w : Nat → Nat → Int) (c : Int) (m : Mem Int), src ≠ .temp →
    (inH, inW) = (if tA then (K, M) else (M, K)) → (wH, wW) = (if tB then (N, K) else (K, N)) →
    size = M * N → Holds m src (matrix inH inW x) → Holds m (.par .weights idx) (matrix wH wW w) →
    Holds m (.par .biases idx) [c] → size ≤ m.size .temp → size ≤ m.size (.out road) →
    Computes (gemmCode tA tB M N inH inW size idx (factor alpha) (factor beta) act src road) m
      (.out road) (matrix M N (gemmForward tA tB K alpha beta act w (fun _ _ => c) x))

/-- It fails: `biases[j]` is read out of bounds. -/
theorem C10_fails_scalar_bias : ¬ C10_scalar_bias_statement := by
  intro h
  have := h false false 1 2 1 1 1 1 2 2 0 0 1 1 id (.cst 0) (fun _ _ => 1) (fun _ _ => 1) 1
    ⟨fun b => match b with | .par .biases 0 => 1 | _ => 2, fun _ _ => 1⟩ (by simp) rfl rfl rfl
    (holds_matrix.2 ⟨by simp, by intros; rfl⟩) (holds_matrix.2 ⟨by simp, by intros; rfl⟩)
    ⟨by simp, by intro a ha; simp at ha; subst ha; rfl⟩ (by simp) (by simp)
  obtain ⟨m', e, _⟩ := this
  have hn : (gemmCode false false 1 2 1 1 2 0 (factor (1 : Int)) (factor 1) id (.cst 0) 0
    ⟨fun b => match b with | .par .biases 0 => 1 | _ => 2, fun _ _ => (1 : Int)⟩).isNone = true := by
    decide +kernel
  rw [e] at hn; simp at hn

end Verif.Layers

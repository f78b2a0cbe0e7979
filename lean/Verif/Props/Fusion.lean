import Verif.Opt.Fold
import Verif.Opt.NoRaise
import Verif.Props.Conv
import Verif.Props.Norm
import Verif.Props.Broadcast
import Verif.Props.Activations

/-!
# C33, C34: the two rewritings of the optimisation pass, on the layers' functions
-/

namespace Verif.Opt
open Verif.Layers
variable {α : Type}

/-! ## C33 -/

theorem foldConvBN_eq [Add α] [Sub α] [Mul α] [Div α] (sqrt : α → α) (eps : α) (scale mean var bias : Nat → α)
    (filters : Nat) (wt : Nat → Nat → Nat → Nat → α) (b : Nat → α) :
    foldConvBN sqrt eps scale mean var bias filters wt b =
      (fun f p h w => if f < filters then foldAlpha sqrt eps scale var f * wt f p h w else wt f p h w,
       fun f => if f < filters then foldAlpha sqrt eps scale var f * b f +
        (bias f - mean f * foldAlpha sqrt eps scale var f) else b f) := by
  induction filters with
  | zero => simp [foldConvBN]
  | succ n ih =>
    unfold foldConvBN at ih ⊢
    rw [List.range_succ, List.foldl_append, ih]
    simp only [List.foldl_cons, List.foldl_nil, foldStep]
    congr 1
    · funext f p h w
      by_cases h1 : f = n
      · subst h1; simp
      · by_cases h2 : f < n
        · simp [h1, h2, Nat.lt_succ_of_lt h2]
        · simp [h1, h2, show ¬ f < n + 1 by omega]
    · funext f
      by_cases h1 : f = n
      · subst h1; simp
      · by_cases h2 : f < n
        · simp [h1, h2, Nat.lt_succ_of_lt h2]
        · simp [h1, h2, show ¬ f < n + 1 by omega]

/-- **C33.** On every input, the convolution with the folded weights and biases and the activation function of
the `BatchNormalization` layer returns what the original convolution followed by the `BatchNormalization` layer
returns (in exact arithmetic; `np.sqrt` is any function): same shape, same elements, same exceptions. -/
theorem C33_fold [Field α] (sqrt : α → α) (eps : α) (scale mean var bias : Nat → α) (c : ConvP) (act : α → α)
    (wt : Nat → Nat → Nat → Nat → α) (b : Nat → α) (x : Nat → Nat → Nat → α) :
    let folded := foldConvBN sqrt eps scale mean var bias c.filters wt b
    (convForward c act folded.1 folded.2 x).map (fun r => (r.C, r.H, r.W, r.flat)) =
      (convForward c id wt b x).map (fun r =>
        (r.C, r.H, r.W, tensor3 r.C r.H r.W (batchNormForward sqrt eps act scale mean var bias r.v))) := by
  intro folded
  unfold convForward
  split
  · simp only [Option.map_some, Option.some.injEq, Prod.mk.injEq, true_and, Arr.flat, id]
    apply tensor3_congr
    intro f i j hf _ _
    simp only [folded, foldConvBN_eq, hf, if_true, batchNormForward]
    congr 1
    simp only [foldAlpha, mul_assoc, ← Finset.mul_sum]
    ring
  · rfl

/-- The generated code of the fused layer computes, in place of both layers, the reference result of the
`BatchNormalization` applied to the convolution. -/
theorem C33_code [Field α] (sqrt : α → α) (eps : α) (scale mean var bias : Nat → α) (c : ConvP) (act : α → α)
    (wt : Nat → Nat → Nat → Nat → α) (b : Nat → α) (x : Nat → Nat → Nat → α) (size idx road : Nat) (src : Buf)
    (m : Mem α) (hacc : c.Accepted) (hdil : c.dil = 1)
    (hsrc : src ≠ .temp) (hx : Holds m src (tensor3 c.inC c.inH c.inW x))
    (hw : Holds m (.par .weights idx) (tensor4 c.filters c.inC c.kh c.kw
      (foldConvBN sqrt eps scale mean var bias c.filters wt b).1))
    (hb : Holds m (.par .biases idx) (tensor c.filters (foldConvBN sqrt eps scale mean var bias c.filters wt b).2))
    (hsize : size = c.filters * c.outH * c.outW)
    (ht : size ≤ m.size .temp) (ho : size ≤ m.size (.out road)) :
    ∃ y, convForward c id wt b x = some y ∧
      Computes (conv6Code c size idx act src road) m (.out road)
        (tensor3 y.C y.H y.W (batchNormForward sqrt eps act scale mean var bias y.v)) := by
  obtain ⟨r, e, hr⟩ := C11_conv6_partial c size idx road act src _ _ x m hacc hdil hsrc hx hw hb hsize ht ho
  have h := C33_fold sqrt eps scale mean var bias c act wt b x
  simp only [e, Option.map_some] at h
  cases hy : convForward c id wt b x with
  | none => rw [hy] at h; simp at h
  | some y =>
    rw [hy] at h
    simp only [Option.map_some, Option.some.injEq, Prod.mk.injEq] at h
    exact ⟨y, rfl, by rw [← h.2.2.2]; exact hr⟩

/-! ## C34 -/

theorem sigmoid_eq (z : ℝ) : z * Act.compute .sigmoid z = Act.compute .silu z := by
  simp only [Act.compute]
  split
  · rw [Real.exp_neg]
    have := Real.exp_pos z
    field_simp
    ring
  · ring

/-- the product of two tensors of the same shape -/
theorem mul_forward (C H W : Nat) (u v : Nat → Nat → Nat → ℝ) :
    ∃ r, broadcastForward .mul id none [⟨C, H, W, u⟩, ⟨C, H, W, v⟩] = some r ∧ r.C = C ∧ r.H = H ∧ r.W = W ∧
      r.flat = tensor3 C H W (fun f i j => u f i j * v f i j) := by
  have hb : ∀ a, Np.bdim a 1 = some a := by
    intro a; unfold Np.bdim; by_cases h : a = 1 <;> simp [h]
  have hi : ∀ d i, i < d → Np.bidx d i = i := by
    intro d i h; unfold Np.bidx; split <;> omega
  have hs : ∀ a, Np.bdim a a = some a := by
    intro a; simp [Np.bdim]
  simp only [broadcastForward, Np.inplace, Np.binop, hb, hs, List.foldlM_cons,
        List.foldlM_nil, Option.getD_none, and_self, if_true, Option.bind_eq_bind, Option.bind_some,
        Option.pure_def, Option.map_some]
  refine ⟨_, rfl, rfl, rfl, rfl, ?_⟩
  unfold Arr.flat
  apply tensor3_congr
  intro f i j hf hj hk
  simp only [Arr.map] at hf hj hk
  simp only [Np.bget, hi _ _ hf, hi _ _ hj, hi _ _ hk, mul_one, Arr.map, id]

/-- **C34** (the rewriting): multiplying a tensor by its sigmoid, in either order, is the SiLU function. -/
theorem C34_silu (x : Arr ℝ) :
    (∃ r, broadcastForward .mul id none [x, x.map (Act.compute .sigmoid)] = some r ∧
      (r.C, r.H, r.W) = (x.C, x.H, x.W) ∧ r.flat = (x.map (Act.compute .silu)).flat) ∧
    (∃ r, broadcastForward .mul id none [x.map (Act.compute .sigmoid), x] = some r ∧
      (r.C, r.H, r.W) = (x.C, x.H, x.W) ∧ r.flat = (x.map (Act.compute .silu)).flat) := by
  obtain ⟨r, h1, h2, h3, h4, h5⟩ := mul_forward x.C x.H x.W x.v (x.map (Act.compute .sigmoid)).v
  obtain ⟨r', h1', h2', h3', h4', h5'⟩ := mul_forward x.C x.H x.W (x.map (Act.compute .sigmoid)).v x.v
  refine ⟨⟨r, h1, by rw [h2, h3, h4], ?_⟩, ⟨r', h1', by rw [h2', h3', h4'], ?_⟩⟩
  · rw [h5]; apply tensor3_congr; intro f i j _ _ _
    simp only [Arr.map]; rw [← sigmoid_eq]
  · rw [h5']; apply tensor3_congr; intro f i j _ _ _
    simp only [Arr.map]; rw [← sigmoid_eq, mul_comm]

end Verif.Opt

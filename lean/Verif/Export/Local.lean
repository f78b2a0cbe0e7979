import Verif.Export.Names
import Verif.Onnx.LocalMove
import Verif.Torch.Local2

/-!
# An exported node against the layer it is exported from: convolution, Gemm, pooling
-/

namespace Verif.Export
open Net Layers Graph
open Onnx (prod mk indices shapeOf cut Init OpType Attr)
open Torch (Gives map_one)
open scoped Classical

variable {M : CMath ℝ} {opset : Nat}

/-- The node exported from the layer `L` has the value `t` on the tensors `ts`: its inputs are those of the layer and its own initializers. -/
def NodeGives (opset : Nat) (L : XLayer) (ts : List (Nd ℝ)) (t : Nd ℝ) : Prop :=
  ∀ i (ins : List String), ins.length = ts.length → ∃ (op : OpType) (inits : List Init) (attrs : List (String × Attr)) (arrays : List (Nd ℝ)),
    exportNode L i ins = some (some (⟨op, ins ++ inits.map Init.name, [L.dest i], attrs⟩, inits)) ∧
    List.Forall₂ (fun (a : Init) v => a.array = some v) inits arrays ∧
    (∃ ss : List String, inits.map Init.name = ss.map (fun s => L.tensor i s) ∧ ss.Nodup ∧ ∀ s ∈ ss, s ∈ ["_weight", "_bias", "_constant", "_scale", "_biases", "_mean", "_var"]) ∧
    Onnx.Spec.node opset ⟨op, ins ++ inits.map Init.name, [L.dest i], attrs⟩ ((ts ++ arrays).map some) = some t

/-- the layer computes `t` followed by its activation function -/
def LayerGives (M : CMath ℝ) (op : Op ℝ) (ts : List (Nd ℝ)) (t : Nd ℝ) : Prop := t.Ok ∧ ∀ f, Gives M (setAct f op) (ts.map Nd.data) (t.data.map f)

theorem floats_array (name : String) (d : List Nat) (l : List ℝ) (h : l.length = prod d) : (floats name d l).array = some ⟨d, l⟩ := by
  simp [floats, Init.array, Onnx.Payload.reals, h]

theorem tensor_map {A B : Type} (n : Nat) (f : A → B) (v : Nat → A) : (tensor n v).map f = tensor n fun k => f (v k) := by
  simp [tensor]

theorem get_tensor (n : Nat) (v : Nat → ℝ) {k : Nat} (hk : k < n) : (⟨[n], tensor n v⟩ : Nd ℝ).get [k] = v k := by
  have h : k < (tensor n v).length := by simpa using hk
  simp [Nd.get, Onnx.ravel, prod, List.getD, List.getElem?_eq_getElem h]

theorem get_matrix (a b : Nat) (v : Nat → Nat → ℝ) {i j : Nat} (hi : i < a) (hj : j < b) : (⟨[a, b], matrix a b v⟩ : Nd ℝ).get [i, j] = v i j := by
  have h : i * b + j < (matrix a b v).length := by
    rw [matrix_length]
    calc i * b + j < i * b + b := by omega
      _ = (i + 1) * b := by ring
      _ ≤ a * b := Nat.mul_le_mul_right b hi
  simp [Nd.get, Onnx.ravel, prod, List.getD, List.getElem?_eq_getElem h, matrix_get a b v hi hj h]

theorem get_tensor4 (A B C D : Nat) (v : Nat → Nat → Nat → Nat → ℝ) {a b c d : Nat} (ha : a < A) (hb : b < B) (hc : c < C) (hd : d < D) :
    (⟨[A, B, C, D], tensor4 A B C D v⟩ : Nd ℝ).get [a, b, c, d] = v a b c d := by
  have h : d + D * (c + C * (b + B * a)) < (tensor4 A B C D v).length := by
    rw [tensor4_length]
    have h1 := at3_lt hb hc hd
    have h2 : d + D * (c + C * (b + B * a)) = at3 C D b c d + a * (B * C * D) := by unfold at3; ring
    rw [h2]
    calc at3 C D b c d + a * (B * C * D) < B * C * D + a * (B * C * D) := by omega
      _ = (a + 1) * (B * C * D) := by ring
      _ ≤ A * (B * C * D) := Nat.mul_le_mul_right _ ha
  have e : Onnx.ravel [A, B, C, D] [a, b, c, d] = d + D * (c + C * (b + B * a)) := by simp [Onnx.ravel, prod]; ring
  simp only [Nd.get, e, List.getD, List.getElem?_eq_getElem h, tensor4_get A B C D v ha hb hc hd h, Option.getD_some]

/-! ## Convolution -/

theorem fits_of {len k s a b : Nat} (h1 : 1 ≤ k) (h2 : 1 ≤ s) (h3 : k ≤ len + a + b) : (⟨len, k, s, 1, a, b⟩ : Onnx.Spec.Window).Fits := by
  refine ⟨h1, h2, le_refl _, ?_⟩
  simp only [Onnx.Spec.Window.span]; omega

theorem windows_of {n : Onnx.Node} {s t l b r : Nat} (h1 : n.ints? "strides" = some [(s : Int), (s : Int)]) (h2 : (n.ints? "dilations").getD [1, 1] = [1, 1])
    (h3 : n.str? "auto_pad" = none) (h4 : n.ints? "pads" = some [(t : Int), (l : Int), (b : Int), (r : Int)]) (H W kh kw : Nat) :
    Onnx.Spec.windows n H W kh kw = some (⟨H, kh, s, 1, t, b⟩, ⟨W, kw, s, 1, l, r⟩) := by
  simp [Onnx.Spec.windows, h1, h2, h3, h4, Onnx.Spec.two]

/-- what the exported convolution computes -/
noncomputable def convT (c : ConvP) (wt : Nat → Nat → Nat → Nat → ℝ) (b : Nat → ℝ) (x : Nd ℝ) : Nd ℝ :=
  mk [1, c.filters, c.outH, c.outW] fun ix =>
    (∑ q ∈ Finset.range c.inC, ∑ a ∈ Finset.range c.kh, ∑ e ∈ Finset.range c.kw,
      match (⟨c.inH, c.kh, c.stride, 1, c.padTop, c.padBottom⟩ : Onnx.Spec.Window).pos (ix.getD 2 0) a,
        (⟨c.inW, c.kw, c.stride, 1, c.padLeft, c.padRight⟩ : Onnx.Spec.Window).pos (ix.getD 3 0) e with
      | some p, some q' => x.get [ix.getD 0 0, q, p, q'] * wt (ix.getD 1 0) q a e
      | _, _ => 0) + b (ix.getD 1 0)

theorem conv_layer {c : ConvP} (hacc : c.Accepted) (hdil : c.dil = 1) (impl : ConvImpl) (wt : Nat → Nat → Nat → Nat → ℝ) (b : Nat → ℝ) (f0 : ℝ → ℝ) {x : Nd ℝ}
    (hx : x.dims = [1, c.inC, c.inH, c.inW]) (hok : x.Ok) : LayerGives M (.conv impl c wt b f0) [x] (convT c wt b x) := by
  refine ⟨Onnx.mk_ok _ _, fun f zs hzs => ?_⟩
  obtain ⟨z, rfl, hz⟩ := map_one hzs
  have hshape : shapeOf x.dims = some ⟨c.inC, c.inH, c.inW⟩ := by rw [hx]; rfl
  obtain ⟨r, hr, -, -, -, hflat⟩ := C11_conv_forward_partial (α := ℝ) c f wt b (arrOf ⟨c.inC, c.inH, c.inW⟩ x.data).v hacc hdil
  refine ⟨_, by simp only [setAct, Op.forward, Onnx.reshape3_ok hz hok hshape, Option.bind_eq_bind, Option.bind_some, hr]; rfl, ?_⟩
  show r.flat = _
  rw [hflat]
  show _ = ((indices [1, c.filters, c.outH, c.outW]).map _).map f
  rw [Onnx.indices_four, Torch.tensor3_map]
  apply tensor3_congr
  intro g u v hfF hu hv
  simp only [convSpec, List.getD_cons_succ, List.getD_cons_zero]
  congr 2
  apply Finset.sum_congr rfl; intro k hk
  apply Finset.sum_congr rfl; intro a' ha'
  apply Finset.sum_congr rfl; intro e he
  rw [Finset.mem_range] at hk ha' he
  simp only [Onnx.Spec.Window.pos, zeroExt, hdil, Nat.cast_one, mul_one]
  by_cases h1 : c.padTop ≤ u * c.stride + a' ∧ u * c.stride + a' < c.padTop + c.inH
  · by_cases h2 : c.padLeft ≤ v * c.stride + e ∧ v * c.stride + e < c.padLeft + c.inW
    · rw [if_pos h1, if_pos h2, if_pos (by simp only [← Nat.cast_mul]; omega)]
      simp only
      rw [mul_comm]
      congr 1
      have hg := Onnx.get_cut x hshape (c := k) (i := u * c.stride + a' - c.padTop) (j := v * c.stride + e - c.padLeft) hk (by simp only; omega) (by simp only; omega)
      rw [hx] at hg
      simp only [cut, List.length_cons, List.length_nil, List.drop_zero, Nat.sub_self] at hg
      rw [hg]
      congr 1 <;> (simp only [← Nat.cast_mul]; omega)
    · rw [if_pos h1, if_neg h2, if_neg (by simp only [← Nat.cast_mul]; omega)]
      simp
  · rw [if_neg h1, if_neg (by simp only [← Nat.cast_mul]; omega)]
    simp

theorem conv_node {c : ConvP} (hacc : c.Accepted) (hdil : c.dil = 1) (hfit : c.kh ≤ c.inH + c.padTop + c.padBottom ∧ c.kw ≤ c.inW + c.padLeft + c.padRight)
    (hpad : c.padTop = c.padRight) (impl : ConvImpl) (wt : Nat → Nat → Nat → Nat → ℝ) (b : Nat → ℝ) (f0 : ℝ → ℝ) (a : Act ℝ) {x : Nd ℝ}
    (hx : x.dims = [1, c.inC, c.inH, c.inW]) : NodeGives opset ⟨.conv impl c wt b f0, a⟩ [x] (convT c wt b x) := by
  intro i ins hl
  obtain ⟨x0, rfl⟩ := List.length_eq_one_iff.mp hl
  refine ⟨.Conv, _, _, _, rfl, .cons (floats_array _ _ _ ?_) (.cons (floats_array _ _ _ ?_) .nil), ⟨["_weight", "_bias"], rfl, by decide, by decide⟩, ?_⟩
  · rw [tensor4_length]; simp only [prod, List.foldr]; ring
  · simp [prod]
  obtain ⟨a1, a2, a3, a4, a5, a6⟩ := hacc
  have f1 := fits_of (a := c.padTop) (b := c.padBottom) a3 a1 hfit.1
  have f2 := fits_of (a := c.padLeft) (b := c.padRight) a4 a1 hfit.2
  have o1 := Onnx.out_of_fits f1 (out := c.outH) (by rw [a5, hdil]; congr 2; push_cast; ring)
  have o2 := Onnx.out_of_fits f2 (out := c.outW) (by rw [a6, hdil]; congr 2; push_cast; ring)
  show Onnx.Spec.conv _ x _ (some _) = some _
  unfold Onnx.Spec.conv
  simp only [hx]
  rw [windows_of (s := c.stride) (t := c.padRight) (l := c.padLeft) (b := c.padBottom) (r := c.padTop) (by rfl) (by simp [Onnx.Node.ints?, List.lookup, hdil]) (by rfl) (by rfl)]
  simp only [Option.bind_eq_bind, Option.bind_some]
  rw [← hpad] at f2 o2 ⊢
  rw [if_pos ⟨f1, f2, by simp [Onnx.Node.int?, List.lookup], by simp [Onnx.Node.int?, List.lookup], by simp [Onnx.Node.int?, List.lookup],
    by simp, by simp [Onnx.Node.ints?, List.lookup]⟩, o1, o2]
  congr 1
  unfold convT
  apply Keras.mk_congr
  intro ix hix
  obtain ⟨k, u, v, rfl, hk, hu, hv⟩ := Onnx.mem_four hix
  simp only [List.getD_cons_succ, List.getD_cons_zero]
  rw [get_tensor _ _ hk, ← hpad]
  congr 1
  apply Finset.sum_congr rfl; intro q hq
  apply Finset.sum_congr rfl; intro a' ha'
  apply Finset.sum_congr rfl; intro e he
  rw [Finset.mem_range] at hq ha' he
  rw [get_tensor4 _ _ _ _ _ hk hq ha' he, show (Onnx.Node.int? _ "group").getD 1 = (1 : Int) from rfl,
    show k / (c.filters / (1 : Int).toNat) * c.inC + q = q by simp [Nat.div_eq_of_lt hk]]
  rfl

/-! ## Gemm -/

/-- what the exported matrix product computes -/
noncomputable def gemmT (tA tB : Bool) (m n kd : Nat) (alpha beta : ℝ) (w : Nat → Nat → ℝ) (c : Nat → ℝ) (x : Nd ℝ) : Nd ℝ :=
  mk [m, n] fun ix => alpha * (∑ k ∈ Finset.range kd, x.get (if tA then [k, ix.getD 0 0] else [ix.getD 0 0, k]) * (if tB then w (ix.getD 1 0) k else w k (ix.getD 1 0))) +
    beta * c (ix.getD 1 0)

theorem gemm_layer {tA tB : Bool} {m n kd : Nat} (alpha beta : ℝ) (w : Nat → Nat → ℝ) (c : Nat → ℝ) (f0 : ℝ → ℝ) {x : Nd ℝ}
    (hx : x.dims = if tA then [kd, m] else [m, kd]) (hok : x.Ok) : LayerGives M (.gemm tA tB m n kd alpha beta w c f0) [x] (gemmT tA tB m n kd alpha beta w c x) := by
  refine ⟨Onnx.mk_ok _ _, fun f zs hzs => ?_⟩
  obtain ⟨z, rfl, hz⟩ := map_one hzs
  have hlen : x.data.length = m * kd := by
    rw [hok, hx]; cases tA <;> simp [prod]; ring
  simp only [setAct, Op.forward, Onnx.reshape1_ok hz hlen, Option.bind_eq_bind, Option.bind_some]
  refine ⟨_, rfl, ?_⟩
  show matrix m n _ = ((indices [m, n]).map _).map f
  rw [Onnx.indices_cut (s := ⟨1, m, n⟩) rfl, Torch.tensor3_map]
  simp only [matrix, tensor3, List.range_one, List.flatMap_cons, List.flatMap_nil, List.append_nil]
  apply List.flatMap_congr
  intro p hp
  apply List.map_congr_left
  intro q hq
  simp only [cut, List.length_cons, List.length_nil, List.drop_succ_cons, List.drop_zero, List.getD_cons_succ, List.getD_cons_zero,
    gemmForward, Np.matMul, show 4 - (0 + 1 + 1) = 2 from rfl]
  congr 3
  apply Finset.sum_congr rfl
  intro r hr
  cases tA <;> cases tB <;> simp [Nd.get, hx, Onnx.ravel, prod, Np.transpose2]

theorem factor_value (n : Onnx.Node) (s : String) (a : ℝ) (h : n.attrs.lookup s = some (factorAttr a)) : (n.float? s).getD 1 = a := by
  unfold Onnx.Node.float? factorAttr at *
  split at h <;> simp [*]

theorem gemm_node {tA tB : Bool} {m n kd : Nat} (alpha beta : ℝ) (w : Nat → Nat → ℝ) (c : Nat → ℝ) (f0 : ℝ → ℝ) (a : Act ℝ) {x : Nd ℝ}
    (hx : x.dims = if tA then [kd, m] else [m, kd]) : NodeGives opset ⟨.gemm tA tB m n kd alpha beta w c f0, a⟩ [x] (gemmT tA tB m n kd alpha beta w c x) := by
  intro i ins hl
  obtain ⟨x0, rfl⟩ := List.length_eq_one_iff.mp hl
  refine ⟨.Gemm, _, _, _, rfl, .cons (floats_array _ _ _ ?_) (.cons (floats_array _ _ _ ?_) .nil), ⟨["_weight", "_bias"], rfl, by decide, by decide⟩, ?_⟩
  · cases tB <;> simp [matrix_length, prod]
  · simp [prod]
  show Onnx.Spec.gemm _ x _ (some _) = some _
  have hb : ∀ v : Nd ℝ, some (⟨[n], tensor n c⟩ : Nd ℝ) = some v → Onnx.bshape v.dims [m, n] = some [m, n] := by
    rintro _ ⟨⟩
    have b1 : Onnx.bdim 1 m = some m := by unfold Onnx.bdim; split <;> simp_all
    have b2 : Onnx.bdim n n = some n := by simp [Onnx.bdim]
    simp [Onnx.bshape, Onnx.padTo, Onnx.bdims, b1, b2]
  have hb' : ∀ i j, j < n → (⟨[n], tensor n c⟩ : Nd ℝ).bget [i, j] = c j := by
    intro i j hj
    rw [Onnx.bget_drop _ _ _ (by simp)]
    have h : j < (tensor n c).length := by simpa using hj
    by_cases h1 : n = 1
    · subst h1
      have : j = 0 := by omega
      subst this
      simp [Nd.bget, Onnx.padTo, Onnx.mask, Onnx.ravel, prod, List.getD, List.getElem?_eq_getElem h]
    · simp [Nd.bget, Onnx.padTo, Onnx.mask, Onnx.ravel, prod, List.getD, List.getElem?_eq_getElem h, h1]
  unfold Onnx.Spec.gemm
  cases tA <;> cases tB
  all_goals
    simp only [Onnx.Node.int?, List.lookup, hx, Bool.false_eq_true, if_false, if_true, Option.getD_some, ne_eq, not_true_eq_false, not_false_eq_true, one_ne_zero,
      String.reduceBEq, List.reverse_cons, List.reverse_nil, List.nil_append, List.cons_append]
    rw [if_pos ⟨trivial, hb⟩]
    congr 1
    apply Keras.mk_congr
    intro ix hix
    simp only [indices, List.mem_flatMap, List.mem_map, List.mem_range] at hix
    obtain ⟨p, hp, _, ⟨q, hq, _, hr, rfl⟩, rfl⟩ := hix
    simp only [List.mem_singleton] at hr
    subst hr
    simp only [List.getD_cons_succ, List.getD_cons_zero, Bool.false_eq_true, if_false, if_true, hb' p q hq]
    rw [factor_value _ "alpha" alpha (by rfl), factor_value _ "beta" beta (by rfl)]
    congr 2
    apply Finset.sum_congr rfl
    intro k hk
    rw [Finset.mem_range] at hk
    rw [get_matrix _ _ _ (by assumption) (by assumption)]

/-! ## Pooling -/

theorem under_ne {x : Nd ℝ} {C H W k s : Nat} (hxd : x.dims = [1, C, H, W])
    (f1 : (⟨H, k, s, 1, 0, 0⟩ : Onnx.Spec.Window).Fits) (f2 : (⟨W, k, s, 1, 0, 0⟩ : Onnx.Spec.Window).Fits)
    {f i j : Nat} (hi : i < (⟨H, k, s, 1, 0, 0⟩ : Onnx.Spec.Window).out) (hj : j < (⟨W, k, s, 1, 0, 0⟩ : Onnx.Spec.Window).out) :
    Onnx.Spec.under x ⟨H, k, s, 1, 0, 0⟩ ⟨W, k, s, 1, 0, 0⟩ [0, f, i, j] ≠ [] := by
  have hk : 0 < k := f1.1
  have p1 := (Onnx.pos_inside f1 hi hk).1
  have p2 := (Onnx.pos_inside f2 hj hk).1
  apply List.ne_nil_of_mem (a := x.get [0, f, i * s + 0, j * s + 0])
  unfold Onnx.Spec.under
  simp only [List.mem_flatMap, List.mem_filterMap, List.mem_range, List.getD_cons_succ, List.getD_cons_zero]
  exact ⟨0, hk, 0, hk, by rw [p1, p2]⟩

theorem mkM_exists {d : List Nat} {v : List Nat → Option ℝ} (h : ∀ ix ∈ indices d, ∃ a, v ix = some a) : ∃ y, Onnx.Spec.mkM d v = some y ∧ y.dims = d ∧ y.Ok := by
  choose! g hg using h
  have : (indices d).mapM v = some ((indices d).map g) := mapM_some v g _ hg
  exact ⟨⟨d, (indices d).map g⟩, by simp [Onnx.Spec.mkM, this], rfl, Onnx.mk_ok d g⟩

theorem maxPool_ok {c : PoolP} (hacc : c.Accepted) (hfit : c.pool ≤ c.H ∧ c.pool ≤ c.W) (hpad : c.padTop = 0 ∧ c.padBottom = 0 ∧ c.padLeft = 0 ∧ c.padRight = 0)
    (f0 : ℝ → ℝ) (a : Act ℝ) {x : Nd ℝ} (hx : x.dims = [1, c.C, c.H, c.W]) (hok : x.Ok) :
    ∃ t, NodeGives opset ⟨.maxPool c f0, a⟩ [x] t ∧ t.dims = [1, c.C, c.Ho, c.Wo] ∧ t.Ok ∧ ∀ f, Gives M (setAct f (.maxPool c f0)) [x.data] t.data := by
  obtain ⟨C, H, W, Ho, Wo, s, k, pt, pb, pl, pr⟩ := c
  simp only at *
  obtain ⟨rfl, rfl, rfl, rfl⟩ := hpad
  obtain ⟨a1, a2, a3, a4⟩ := hacc
  simp only at a1 a2 a3 a4
  have f1 : (⟨H, k, s, 1, 0, 0⟩ : Onnx.Spec.Window).Fits := fits_of a2 a1 (by omega)
  have f2 : (⟨W, k, s, 1, 0, 0⟩ : Onnx.Spec.Window).Fits := fits_of a2 a1 (by omega)
  have o1 := Onnx.out_of_fits f1 (out := Ho) (by rw [a3])
  have o2 := Onnx.out_of_fits f2 (out := Wo) (by rw [a4])
  obtain ⟨t, ht, hd, tok⟩ := mkM_exists (d := [1, C, Ho, Wo]) (v := fun ix => (Onnx.Spec.under x ⟨H, k, s, 1, 0, 0⟩ ⟨W, k, s, 1, 0, 0⟩ ix).max?) (by
    intro ix hix
    obtain ⟨f, i, j, rfl, hf, hi, hj⟩ := Onnx.mem_four hix
    rw [← o1] at hi
    rw [← o2] at hj
    have := under_ne (f := f) hx f1 f2 hi hj
    cases hl : Onnx.Spec.under x ⟨H, k, s, 1, 0, 0⟩ ⟨W, k, s, 1, 0, 0⟩ [0, f, i, j] with
    | nil => exact absurd hl this
    | cons b l => exact ⟨_, rfl⟩)
  refine ⟨t, ?_, hd, tok, ?_⟩
  · intro i ins hl
    obtain ⟨x0, rfl⟩ := List.length_eq_one_iff.mp hl
    refine ⟨.MaxPool, [], _, _, rfl, .nil, ⟨[], rfl, by decide, by decide⟩, ?_⟩
    show Onnx.Spec.maxPool _ x = some _
    unfold Onnx.Spec.maxPool
    simp only [hx]
    rw [show Onnx.Node.ints? _ "kernel_shape" = some [(k : Int), (k : Int)] from rfl]
    simp only [Option.bind_eq_bind, Option.bind_some, Onnx.Spec.two, Nat.cast_nonneg, and_self, if_true, Int.toNat_natCast]
    rw [windows_of (s := s) (t := 0) (l := 0) (b := 0) (r := 0) (by rfl) (by rfl) (by rfl) (by rfl)]
    simp only [Option.bind_some]
    rw [if_pos ⟨f1, f2, by rfl⟩, o1, o2]
    exact ht
  · intro f zs hzs
    obtain ⟨z, rfl, hz⟩ := map_one hzs
    have hshape : shapeOf x.dims = some ⟨C, H, W⟩ := by rw [hx]; rfl
    obtain ⟨r, hr, hrd⟩ := Onnx.mkM_fill (dims := [C, Ho, Wo]) (d := [1, C, Ho, Wo]) (s := ⟨C, Ho, Wo⟩) rfl _ ht
    refine ⟨r, ?_, hrd⟩
    simp only [setAct, Op.forward, Onnx.reshape3_ok (s := ⟨C, H, W⟩) hz hok hshape, Option.bind_eq_bind, Option.bind_some]
    rw [← hr]
    apply Onnx.fill_congr
    intro f i j hf hi hj
    rw [← o1] at hi
    rw [← o2] at hj
    rw [maxPoolForward, Onnx.amax_max?]
    simp only [cut, List.length_cons, List.length_nil, Nat.sub_self, List.drop_zero]
    rw [Onnx.under_slice (Ho := Ho) (Wo := Wo) hx f1 f2 hf hi hj]

theorem avgPool_ok {c : PoolP} (hacc : c.Accepted) (hfit : c.pool ≤ c.H ∧ c.pool ≤ c.W) (hpad : c.padTop = 0 ∧ c.padBottom = 0 ∧ c.padLeft = 0 ∧ c.padRight = 0)
    (f0 : ℝ → ℝ) (a : Act ℝ) {x : Nd ℝ} (hx : x.dims = [1, c.C, c.H, c.W]) (hok : x.Ok) :
    ∃ t, NodeGives opset ⟨.avgPool c f0, a⟩ [x] t ∧ t.dims = [1, c.C, c.Ho, c.Wo] ∧ t.Ok ∧ ∀ f, Gives M (setAct f (.avgPool c f0)) [x.data] t.data := by
  obtain ⟨C, H, W, Ho, Wo, s, k, pt, pb, pl, pr⟩ := c
  simp only at *
  obtain ⟨rfl, rfl, rfl, rfl⟩ := hpad
  obtain ⟨a1, a2, a3, a4⟩ := hacc
  simp only at a1 a2 a3 a4
  have f1 : (⟨H, k, s, 1, 0, 0⟩ : Onnx.Spec.Window).Fits := fits_of a2 a1 (by omega)
  have f2 : (⟨W, k, s, 1, 0, 0⟩ : Onnx.Spec.Window).Fits := fits_of a2 a1 (by omega)
  have o1 := Onnx.out_of_fits f1 (out := Ho) (by rw [a3])
  have o2 := Onnx.out_of_fits f2 (out := Wo) (by rw [a4])
  obtain ⟨t, ht, hd, tok⟩ := mkM_exists (d := [1, C, Ho, Wo]) (v := fun ix =>
      if (Onnx.Spec.under x ⟨H, k, s, 1, 0, 0⟩ ⟨W, k, s, 1, 0, 0⟩ ix).length = 0 then none else
        some ((Onnx.Spec.under x ⟨H, k, s, 1, 0, 0⟩ ⟨W, k, s, 1, 0, 0⟩ ix).sum / (Onnx.Spec.under x ⟨H, k, s, 1, 0, 0⟩ ⟨W, k, s, 1, 0, 0⟩ ix).length)) (by
    intro ix hix
    obtain ⟨f, i, j, rfl, hf, hi, hj⟩ := Onnx.mem_four hix
    rw [← o1] at hi
    rw [← o2] at hj
    have := under_ne (f := f) hx f1 f2 hi hj
    exact ⟨_, if_neg (by simpa using this)⟩)
  refine ⟨t, ?_, hd, tok, ?_⟩
  · intro i ins hl
    obtain ⟨x0, rfl⟩ := List.length_eq_one_iff.mp hl
    refine ⟨.AveragePool, [], _, _, rfl, .nil, ⟨[], rfl, by decide, by decide⟩, ?_⟩
    show Onnx.Spec.averagePool _ x = some _
    unfold Onnx.Spec.averagePool
    simp only [hx]
    rw [show Onnx.Node.ints? _ "kernel_shape" = some [(k : Int), (k : Int)] from rfl]
    simp only [Option.bind_eq_bind, Option.bind_some, Onnx.Spec.two, Nat.cast_nonneg, and_self, if_true, Int.toNat_natCast]
    rw [windows_of (s := s) (t := 0) (l := 0) (b := 0) (r := 0) (by rfl) (by rfl) (by rfl) (by rfl)]
    simp only [Option.bind_some]
    rw [if_pos ⟨f1, f2, by rfl⟩, o1, o2]
    exact ht
  · intro f zs hzs
    obtain ⟨z, rfl, hz⟩ := map_one hzs
    have hshape : shapeOf x.dims = some ⟨C, H, W⟩ := by rw [hx]; rfl
    obtain ⟨r, hr, hrd⟩ := Onnx.mkM_fill (dims := [C, Ho, Wo]) (d := [1, C, Ho, Wo]) (s := ⟨C, Ho, Wo⟩) rfl _ ht
    refine ⟨r, ?_, hrd⟩
    simp only [setAct, Op.forward, Onnx.reshape3_ok (s := ⟨C, H, W⟩) hz hok hshape, Option.bind_eq_bind, Option.bind_some]
    rw [← hr]
    apply Onnx.fill_congr
    intro f i j hf hi hj
    rw [← o1] at hi
    rw [← o2] at hj
    rw [avgPoolForward, Onnx.mean_eq]
    simp only [cut, List.length_cons, List.length_nil, Nat.sub_self, List.drop_zero]
    rw [Onnx.under_slice (Ho := Ho) (Wo := Wo) hx f1 f2 hf hi hj]

end Verif.Export

import Verif.Torch.Fuse
import Verif.Torch.Spec

/-!
# A layer made by the importer against the operator: linear, conv2d, batch_norm
-/

namespace Verif.Torch
open Net Layers Graph CText Gen
open Onnx (prod mk shapeOf cut nat? npAxis poolP)
open scoped Classical

variable {M : CMath ℝ}

theorem inSizes_of {op : Op ℝ} (hr : Onnx.Op.reshapes op = true) {x d : List ℝ} (hg : Gives M op [x] d) : [x].map List.length = op.inSizes := by
  obtain ⟨z, hz, _⟩ := hg [⟨[], x⟩] rfl
  exact Onnx.forward_inSizes hr hz

theorem map_one {zs : List (Nd ℝ)} {d : List ℝ} (h : zs.map Nd.data = [d]) : ∃ z, zs = [z] ∧ z.data = d := by
  match zs, h with
  | [z], h => exact ⟨z, rfl, by simpa using h⟩

theorem mk_row (n : Nat) (v : List Nat → ℝ) : (mk [1, n] v).data = tensor n fun k => v [0, k] := by
  simp [mk, Onnx.indices, tensor, Onnx.flatMap_one]

theorem linear_ok {x w b y : Nd ℝ} {n : Nat} (hx : x.dims = [1, n]) (hok : x.Ok) (hy : Spec.linear x w (some b) = some y) :
    ∃ op, createLinear y.dims w b = some op ∧ Fusing op ∧ Gives M op [x.data] y.data ∧ Coded op [x.data] y.data := by
  unfold Spec.linear at hy
  split at hy
  case h_2 => simp at hy
  rename_i o i hw
  simp only [Option.ite_none_right_eq_some, Option.some.injEq] at hy
  obtain ⟨⟨hi, hb⟩, rfl⟩ := hy
  rw [hx] at hi ⊢
  simp only [List.getLast?_cons_cons, List.getLast?_singleton, Option.some.injEq] at hi
  subst hi
  have hb := hb b rfl
  simp only [List.dropLast_cons_cons, List.dropLast_singleton, List.cons_append, List.nil_append]
  have hlen : x.data.length = n := by rw [hok, hx]; simp [prod]
  have hg : Gives M (.dense n o (fun p q => w.get [q, p]) (fun q => b.get [q]) id) [x.data]
      (mk [1, o] fun ix => (∑ p ∈ Finset.range n, x.get (ix.dropLast ++ [p]) * w.get [ix.getLastD 0, p]) + b.get [ix.getLastD 0]).data := by
    intro zs hzs
    obtain ⟨z, rfl, hz⟩ := map_one hzs
    refine ⟨_, by simp only [Op.forward, Onnx.reshape1_ok hz hlen, Option.bind_eq_bind, Option.bind_some]; rfl, ?_⟩
    rw [mk_row]
    apply tensor_congr
    intro q _
    simp only [denseForward, Np.vecMat, id]
    congr 1
    apply Finset.sum_congr rfl
    intro p hp
    simp [Nd.get, hx, Onnx.ravel, prod]
  refine ⟨_, ?_, .dense _ _ _ _, hg, ?_⟩
  · simp only [createLinear, hw]
    exact if_pos ⟨by simp [mk, prod], by rw [hb]; rfl⟩
  · refine ⟨trivial, ?_, by simp [Op.inSizes, hlen], ⟨fun _ _ => by simp, fun _ => by simp⟩, id, trivial, ?_, fun _ _ _ _ => trivial⟩
    · simp [Op.size, mk_row, tensor]
    · intro L h1 h2 h3 idx road srcs hl
      obtain ⟨r, rfl⟩ := List.length_eq_one_iff.mp hl
      exact ⟨_, _, Emits.dense _ _ _ _ .linear r⟩

/-! ## Convolution -/

/-- number of windows, as the layers check it -/
theorem fits_out {len k s a b : Nat} (hf : (⟨len, k, s, 1, a, b⟩ : Onnx.Spec.Window).Fits) :
    ((⟨len, k, s, 1, a, b⟩ : Onnx.Spec.Window).out : Int) = Int.fdiv ((len : Int) + b + a - k) s + 1 := by
  obtain ⟨h1, h2, _, h4⟩ := hf
  simp only [Onnx.Spec.Window.span, Nat.mul_one] at h1 h2 h4
  rw [Int.fdiv_eq_ediv_of_nonneg _ (by omega)]
  simp only [Onnx.Spec.Window.out, Onnx.Spec.Window.span, Nat.mul_one]
  have : ((len + a + b - (k - 1 + 1) : Nat) : Int) = (len : Int) + b + a - k := by omega
  rw [← this]; push_cast; rfl

theorem fits_accepted {F C H W k s p q : Nat} (f1 : (⟨H, k, s, 1, p, p⟩ : Onnx.Spec.Window).Fits) (f2 : (⟨W, k, s, 1, q, q⟩ : Onnx.Spec.Window).Fits) :
    (⟨F, C, H, W, (⟨H, k, s, 1, p, p⟩ : Onnx.Spec.Window).out, (⟨W, k, s, 1, q, q⟩ : Onnx.Spec.Window).out, k, k, s, 1, p, p, q, q⟩ : ConvP).Accepted := by
  refine ⟨f1.2.1, le_refl _, f1.1, f1.1, ?_, ?_⟩
  · rw [fits_out f1]; congr 2; push_cast; ring
  · rw [fits_out f2]; congr 2; push_cast; ring

/-- a convolution with any weights and biases -/
theorem conv_gives {x : Nd ℝ} {C H W F k s p q : Nat} (hx : x.dims = [1, C, H, W]) (hok : x.Ok)
    (f1 : (⟨H, k, s, 1, p, p⟩ : Onnx.Spec.Window).Fits) (f2 : (⟨W, k, s, 1, q, q⟩ : Onnx.Spec.Window).Fits) (w : Nat → Nat → Nat → Nat → ℝ) (b : Nat → ℝ) :
    let op : Op ℝ := .conv .loops6 ⟨F, C, H, W, (⟨H, k, s, 1, p, p⟩ : Onnx.Spec.Window).out, (⟨W, k, s, 1, q, q⟩ : Onnx.Spec.Window).out, k, k, s, 1, p, p, q, q⟩ w b id
    let d := (mk [1, F, (⟨H, k, s, 1, p, p⟩ : Onnx.Spec.Window).out, (⟨W, k, s, 1, q, q⟩ : Onnx.Spec.Window).out] fun ix =>
      Spec.convAt x ⟨H, k, s, 1, p, p⟩ ⟨W, k, s, 1, q, q⟩ C w b (ix.getD 0 0) (ix.getD 1 0) (ix.getD 2 0) (ix.getD 3 0)).data
    Gives M op [x.data] d ∧ Coded op [x.data] d := by
  intro op d
  have hacc := fits_accepted (F := F) (C := C) f1 f2
  have hshape : shapeOf x.dims = some ⟨C, H, W⟩ := by rw [hx]; rfl
  have hg : ∀ M : CMath ℝ, Gives M op [x.data] d := by
    intro M zs hzs
    obtain ⟨z, rfl, hz⟩ := map_one hzs
    obtain ⟨r, hr, -, -, -, hflat⟩ := C11_conv_forward_partial (α := ℝ) _ id w b (arrOf ⟨C, H, W⟩ x.data).v hacc rfl
    refine ⟨_, by simp only [op, Op.forward, Onnx.reshape3_ok hz hok hshape, Option.bind_eq_bind, Option.bind_some, hr]; rfl, ?_⟩
    show r.flat = _
    rw [hflat]
    show _ = (Onnx.indices [1, F, _, _]).map _
    rw [Onnx.indices_four]
    apply tensor3_congr
    intro f u v hfF hu hv
    simp only [convSpec, id, List.getD_cons_succ, List.getD_cons_zero, Spec.convAt]
    congr 1
    apply Finset.sum_congr rfl; intro c hc
    apply Finset.sum_congr rfl; intro a' ha'
    apply Finset.sum_congr rfl; intro e he
    rw [Finset.mem_range] at hc ha' he
    simp only [Onnx.Spec.Window.pos, zeroExt, Nat.cast_one, mul_one]
    by_cases h1 : p ≤ u * s + a' ∧ u * s + a' < p + H
    · by_cases h2 : q ≤ v * s + e ∧ v * s + e < q + W
      · rw [if_pos h1, if_pos h2, if_pos (by simp only [← Nat.cast_mul]; omega)]
        simp only
        rw [mul_comm]
        congr 1
        have hg := Onnx.get_cut x hshape (c := c) (i := u * s + a' - p) (j := v * s + e - q) hc (by simp only; omega) (by simp only; omega)
        rw [hx] at hg
        simp only [cut, List.length_cons, List.length_nil, List.drop_zero, Nat.sub_self] at hg
        rw [hg]
        congr 1 <;> (simp only [← Nat.cast_mul]; omega)
      · rw [if_pos h1, if_neg h2, if_neg (by simp only [← Nat.cast_mul]; omega)]
        simp
    · rw [if_neg h1, if_neg (by simp only [← Nat.cast_mul]; omega)]
      simp
  refine ⟨hg M, ⟨hacc, fun _ => rfl⟩, ?_, inSizes_of (M := M) rfl (hg M), ⟨fun _ _ => by simp [op], fun _ => by simp [op]⟩, id, trivial, ?_, fun _ _ _ _ => trivial⟩
  · show _ = ((Onnx.indices [1, F, _, _]).map _).length
    rw [Onnx.indices_four, tensor3_length]
    rfl
  · intro L h1 h2 h3 idx road srcs hl
    obtain ⟨r, rfl⟩ := List.length_eq_one_iff.mp hl
    exact ⟨_, _, Emits.conv6 _ _ _ .linear r⟩

/-- a convolution without activation whose filters can be rescaled -/
def Rescales (M : CMath ℝ) (op : Op ℝ) (ds : List (List ℝ)) (t : Nd ℝ) : Prop :=
  ∃ c wt b, op = .conv .loops6 c wt b id ∧ (∃ oh ow, t.dims = [1, c.filters, oh, ow]) ∧ ∀ a e : Nat → ℝ,
    let op' : Op ℝ := .conv .loops6 c (fun o q p r => wt o q p r * a o) (fun o => b o * a o + e o) id
    let d' := (mk t.dims fun ix => t.get ix * a (ix.getD 1 0) + e (ix.getD 1 0)).data
    Gives M op' ds d' ∧ Coded op' ds d'

theorem convAt_scale (x : Nd ℝ) (wh ww : Onnx.Spec.Window) (C : Nat) (w : Nat → Nat → Nat → Nat → ℝ) (b a e : Nat → ℝ) (n f i j : Nat) :
    Spec.convAt x wh ww C (fun o q p r => w o q p r * a o) (fun o => b o * a o + e o) n f i j = Spec.convAt x wh ww C w b n f i j * a f + e f := by
  unfold Spec.convAt
  rw [add_mul, add_assoc]
  congr 1
  rw [Finset.sum_mul]
  apply Finset.sum_congr rfl; intro c _
  rw [Finset.sum_mul]
  apply Finset.sum_congr rfl; intro p _
  rw [Finset.sum_mul]
  apply Finset.sum_congr rfl; intro q _
  cases wh.pos i p <;> cases ww.pos j q <;> simp [mul_assoc]

theorem conv_rescales {x : Nd ℝ} {C H W F k s p q : Nat} (hx : x.dims = [1, C, H, W]) (hok : x.Ok)
    (f1 : (⟨H, k, s, 1, p, p⟩ : Onnx.Spec.Window).Fits) (f2 : (⟨W, k, s, 1, q, q⟩ : Onnx.Spec.Window).Fits) (w : Nat → Nat → Nat → Nat → ℝ) (b : Nat → ℝ) :
    Rescales M (.conv .loops6 ⟨F, C, H, W, (⟨H, k, s, 1, p, p⟩ : Onnx.Spec.Window).out, (⟨W, k, s, 1, q, q⟩ : Onnx.Spec.Window).out, k, k, s, 1, p, p, q, q⟩ w b id)
      [x.data] (mk [1, F, (⟨H, k, s, 1, p, p⟩ : Onnx.Spec.Window).out, (⟨W, k, s, 1, q, q⟩ : Onnx.Spec.Window).out] fun ix =>
        Spec.convAt x ⟨H, k, s, 1, p, p⟩ ⟨W, k, s, 1, q, q⟩ C w b (ix.getD 0 0) (ix.getD 1 0) (ix.getD 2 0) (ix.getD 3 0)) := by
  refine ⟨_, _, _, rfl, ⟨_, _, rfl⟩, fun a e => ?_⟩
  have := conv_gives (M := M) (F := F) hx hok f1 f2 (fun o q p r => w o q p r * a o) (fun o => b o * a o + e o)
  have hd : (mk [1, F, (⟨H, k, s, 1, p, p⟩ : Onnx.Spec.Window).out, (⟨W, k, s, 1, q, q⟩ : Onnx.Spec.Window).out] fun ix =>
        Spec.convAt x ⟨H, k, s, 1, p, p⟩ ⟨W, k, s, 1, q, q⟩ C (fun o q p r => w o q p r * a o) (fun o => b o * a o + e o)
          (ix.getD 0 0) (ix.getD 1 0) (ix.getD 2 0) (ix.getD 3 0)) =
      mk [1, F, (⟨H, k, s, 1, p, p⟩ : Onnx.Spec.Window).out, (⟨W, k, s, 1, q, q⟩ : Onnx.Spec.Window).out] fun ix =>
        (mk [1, F, (⟨H, k, s, 1, p, p⟩ : Onnx.Spec.Window).out, (⟨W, k, s, 1, q, q⟩ : Onnx.Spec.Window).out] fun ix =>
          Spec.convAt x ⟨H, k, s, 1, p, p⟩ ⟨W, k, s, 1, q, q⟩ C w b (ix.getD 0 0) (ix.getD 1 0) (ix.getD 2 0) (ix.getD 3 0)).get ix * a (ix.getD 1 0) + e (ix.getD 1 0) :=
    Keras.mk_congr fun ix hix => by rw [Keras.get_mk hix]; exact convAt_scale ..
  simp only at this
  rw [hd] at this
  exact this

theorem conv_ok {x w y b : Nd ℝ} {k s p q : Nat} (hb1 : x.dims.head? = some 1) (hok : x.Ok) (hw : ∃ a b, w.dims = [a, b, k, k]) {bo : Option (Nd ℝ)}
    (hb : b.dims = [y.dims.getD 1 0] ∧ ∀ f < y.dims.getD 1 0, b.get [f] = Spec.biasAt bo f)
    (hy : Spec.conv2d x w bo (s, s) (p, q) (1, 1) = some y) :
    ∃ op, createConv x.dims y.dims w b s 1 (.list ([(p : Int), (q : Int)] ++ [(p : Int), (q : Int)])) 1 = some op ∧ Fusing op ∧ Rescales M op [x.data] y ∧
      Gives M op [x.data] y.data ∧ Coded op [x.data] y.data := by
  unfold Spec.conv2d at hy
  split at hy
  case h_2 => simp at hy
  rename_i N C H W F C' kh kw hxd hwd
  obtain ⟨a0, b0, hw⟩ := hw
  rw [hwd] at hw
  simp only [List.cons.injEq, and_true] at hw
  obtain ⟨-, -, rfl, rfl⟩ := hw
  simp only [Option.ite_none_right_eq_some, Option.some.injEq] at hy
  obtain ⟨⟨rfl, f1, f2, _⟩, rfl⟩ := hy
  rw [hxd] at hb1
  simp at hb1; subst hb1
  simp only [mk, List.getD_cons_succ, List.getD_cons_zero] at hb
  have hbias : ∀ n f i j, f < F → Spec.convAt x ⟨H, kw, s, 1, p, p⟩ ⟨W, kw, s, 1, q, q⟩ C (fun f c p q => w.get [f, c, p, q])
      (Spec.biasAt bo) n f i j =
      Spec.convAt x ⟨H, kw, s, 1, p, p⟩ ⟨W, kw, s, 1, q, q⟩ C (fun f c p q => w.get [f, c, p, q]) (fun f => b.get [f]) n f i j := by
    intro n f i j hf
    unfold Spec.convAt
    simp only [hb.2 f hf]
  have hye : (mk [1, F, (⟨H, kw, s, 1, p, p⟩ : Onnx.Spec.Window).out, (⟨W, kw, s, 1, q, q⟩ : Onnx.Spec.Window).out] fun ix =>
        Spec.convAt x ⟨H, kw, s, 1, p, p⟩ ⟨W, kw, s, 1, q, q⟩ C (fun f c p q => w.get [f, c, p, q]) (Spec.biasAt bo)
          (ix.getD 0 0) (ix.getD 1 0) (ix.getD 2 0) (ix.getD 3 0)) =
      mk [1, F, (⟨H, kw, s, 1, p, p⟩ : Onnx.Spec.Window).out, (⟨W, kw, s, 1, q, q⟩ : Onnx.Spec.Window).out] fun ix =>
        Spec.convAt x ⟨H, kw, s, 1, p, p⟩ ⟨W, kw, s, 1, q, q⟩ C (fun f c p q => w.get [f, c, p, q]) (fun f => b.get [f])
          (ix.getD 0 0) (ix.getD 1 0) (ix.getD 2 0) (ix.getD 3 0) := by
    apply Keras.mk_congr
    intro ix hix
    apply hbias
    simp only [Onnx.indices, List.mem_flatMap, List.mem_map, List.mem_range] at hix
    obtain ⟨i0, _, r0, ⟨i1, h1, r1, _, rfl⟩, rfl⟩ := hix
    simpa using h1
  rw [hye]
  have hc := conv_gives (M := M) (F := F) hxd hok f1 f2 (fun f c p q => w.get [f, c, p, q]) (fun f => b.get [f])
  refine ⟨_, ?_, .conv _ _ _, conv_rescales hxd hok f1 f2 _ _, hc.1, hc.2⟩
  have hl : w.dims.getLast? = some kw := by rw [hwd]; rfl
  have hn : ∀ n : Nat, nat? (n : Int) = some n := by intro n; simp [nat?]
  have hacc := fits_accepted (F := F) (C := C) f1 f2
  simp only [createConv, hxd, mk, shape4, Option.bind_eq_bind, Option.bind_some, hl, computePadding, List.cons_append, List.nil_append,
    List.getElem?_cons_succ, List.getElem?_cons_zero, hn]
  refine if_pos ⟨by simp, ?_, ?_, ?_, ?_⟩
  · simp only [prod, List.foldr_cons, List.foldr_nil]; ring
  · rw [hwd]; simp
  · exact hb.1
  · exact hacc

/-- `batch_norm` folded into a convolution -/
theorem norm_ok {w b rm rv : Nd ℝ} {eps : ℝ} {op : Op ℝ} {ds : List (List ℝ)} {t y : Nd ℝ} (hr : Rescales M op ds t) (hy : Spec.batchNorm t w b rm rv eps = some y) :
    ∃ op', foldNorm w b rm rv eps op = some op' ∧ Fusing op' ∧ Gives M op' ds y.data ∧ Coded op' ds y.data := by
  obtain ⟨c, wt, bi, rfl, ⟨oh, ow, ht⟩, hall⟩ := hr
  unfold Spec.batchNorm at hy
  rw [ht] at hy
  simp only [Option.ite_none_right_eq_some, Option.some.injEq] at hy
  obtain ⟨⟨h1, h2, h3, h4⟩, rfl⟩ := hy
  have := hall (fun o => w.get [o] * (1 / Real.sqrt (rv.get [o] + eps))) (fun o => b.get [o] - rm.get [o] * (w.get [o] * (1 / Real.sqrt (rv.get [o] + eps))))
  refine ⟨_, if_pos ⟨h1, h2, h3, h4⟩, .conv _ _ _, ?_⟩
  have e1 : (fun o => (bi o - rm.get [o]) * (1 / Real.sqrt (rv.get [o] + eps)) * w.get [o] + b.get [o]) = fun o =>
      bi o * (w.get [o] * (1 / Real.sqrt (rv.get [o] + eps))) + (b.get [o] - rm.get [o] * (w.get [o] * (1 / Real.sqrt (rv.get [o] + eps)))) := by
    funext o; ring
  have e2 : (fun ix : List Nat => (t.get ix - rm.get [ix.getD 1 0]) / Real.sqrt (rv.get [ix.getD 1 0] + eps) * w.get [ix.getD 1 0] + b.get [ix.getD 1 0]) = fun ix =>
      t.get ix * (w.get [ix.getD 1 0] * (1 / Real.sqrt (rv.get [ix.getD 1 0] + eps))) +
        (b.get [ix.getD 1 0] - rm.get [ix.getD 1 0] * (w.get [ix.getD 1 0] * (1 / Real.sqrt (rv.get [ix.getD 1 0] + eps)))) := by
    funext ix; rw [div_eq_mul_inv, one_div]; ring
  simp only at this ⊢
  rw [e1, e2, ← ht]
  exact this

end Verif.Torch

import Verif.Torch.Local

/-!
# A layer made by the importer against the operator: add, cat, pooling
-/

namespace Verif.Torch
open Net Layers Graph CText Gen
open Onnx (prod mk shapeOf cut nat? npAxis poolP)
open scoped Classical

variable {M : CMath ℝ}

/-- a batch of one image -/
def Image (t : Nd ℝ) (s : Shape) : Prop := t.dims = [1, s.C, s.H, s.W]

theorem Image.shapeOf {t : Nd ℝ} {s : Shape} (h : Image t s) : Onnx.shapeOf t.dims = some s := by rw [h]; rfl

theorem Image.shape4 {t : Nd ℝ} {s : Shape} (h : Image t s) : shape4 t.dims = some s := by rw [h]; rfl

theorem image_of {t : Nd ℝ} (hb : t.dims.head? = some 1) (hl : t.dims.length = 4) : ∃ s, Image t s := by
  match h : t.dims, hb, hl with
  | [a, c, i, j], hb, _ => simp at hb; subst hb; exact ⟨⟨c, i, j⟩, h⟩

theorem image_shape {t : Nd ℝ} {s : Shape} (h : Onnx.shapeOf t.dims = some s) (hl : t.dims.length = 4) : Image t s := by
  rcases Onnx.shapeOf_cases h with ⟨e, _⟩ | ⟨_, e, _⟩ | ⟨_, _, e, _⟩ | ⟨_, _, _, e, _⟩ | ⟨_, _, _, e, rfl⟩
  · rw [e] at hl; simp at hl
  · rw [e] at hl; simp at hl
  · rw [e] at hl; simp at hl
  · rw [e] at hl; simp at hl
  · exact e

theorem images_shape4 {xs : List (Nd ℝ)} {ss : List Shape} (h : List.Forall₂ Image xs ss) : (xs.map Nd.dims).mapM shape4 = some ss := by
  induction h with
  | nil => rfl
  | cons h _ ih => rw [List.map_cons, List.mapM_cons, h.shape4, ih]; rfl

theorem images_shapeOf {xs : List (Nd ℝ)} {ss : List Shape} (h : List.Forall₂ Image xs ss) :
    List.Forall₂ (fun (t : Nd ℝ) s => Onnx.shapeOf t.dims = some s) xs ss := h.imp fun _ _ h => h.shapeOf

theorem images_pos {xs : List (Nd ℝ)} {ss : List Shape} (h : List.Forall₂ Image xs ss)
    (hpos : ∀ x ∈ xs, ∀ k ∈ x.dims, 0 < k) : ∀ s ∈ ss, Pos3 s.C s.H s.W := by
  induction h with
  | nil => simp
  | @cons t s xs ss h _ ih =>
    intro u hu
    rcases List.mem_cons.mp hu with rfl | hu
    · have := hpos t (by simp)
      rw [h] at this
      exact ⟨this _ (by simp), this _ (by simp), this _ (by simp)⟩
    · exact ih (fun x hx => hpos x (by simp [hx])) u hu

theorem images_size {xs : List (Nd ℝ)} {ss : List Shape} (h : List.Forall₂ Image xs ss) (hok : ∀ x ∈ xs, x.Ok) :
    (xs.map Nd.data).map List.length = ss.map Shape.size := by
  induction h with
  | nil => rfl
  | @cons t s xs ss h _ ih =>
    rw [List.map_cons, List.map_cons, List.map_cons, ih fun x hx => hok x (by simp [hx])]
    congr 1
    rw [hok t (by simp), h]
    simp [prod, Shape.size]; ring

/-! ## add -/

theorem bdim_first {a b : Nat} (h : Np.bdim a b = some a) (ha : 0 < a) : (b = 1 ∨ b = a) ∧ a = [a, b].foldl max 0 := by
  unfold Np.bdim at h
  split at h
  · rename_i e; subst e; simp
  · split at h
    · rename_i e; simp at h; omega
    · split at h
      · rename_i e; subst e; simp; omega
      · simp at h

theorem add_text {L : Lib ℝ} {sa sb : Shape} {srcs : List Ref} (hl : srcs.length = ([sa, sb].map Shape.size).length) (idx road : Nat) :
    ∃ text hash, Emits L .first idx road (.broadcast .add sa [sa, sb] none id) srcs text hash := by
  cases srcs with
  | nil => simp at hl
  | cons r rs => exact ⟨_, _, Emits.broadcast .add sa sa [sb] none .linear r rs⟩

theorem add_ok {a b y : Nd ℝ} (ha : a.dims.head? = some 1) (ha4 : a.dims.length = 4) (hb : b.dims.head? = some 1) (hb4 : b.dims.length = 4)
    (oka : a.Ok) (okb : b.Ok) (hpa : ∀ k ∈ a.dims, 0 < k) (hpb : ∀ k ∈ b.dims, 0 < k)
    (hy : Onnx.bcast (fun u v => u + 1 * v) a b = some y) (hyd : y.dims = a.dims) :
    ∃ op, createAdd [a.dims, b.dims] y.dims = some op ∧ Fusing op ∧ Gives M op [a.data, b.data] y.data ∧ Coded op [a.data, b.data] y.data := by
  obtain ⟨sa, ia⟩ := image_of ha ha4
  obtain ⟨sb, ib⟩ := image_of hb hb4
  rw [show (fun u v : ℝ => u + 1 * v) = (· + ·) by funext u v; rw [one_mul]] at hy
  have iy : Image y sa := by rw [Image, hyd, ia]
  obtain ⟨s, hs, hyok, hC, hH, hW, _⟩ := Onnx.bcast_arr ia.shapeOf ib.shapeOf hy
  rw [iy.shapeOf] at hs; cases hs
  have pa := images_pos (List.Forall₂.cons ia .nil) (by simpa using hpa) sa (by simp)
  obtain ⟨c1, c2⟩ := bdim_first hC pa.1
  obtain ⟨h1, h2⟩ := bdim_first hH pa.2.1
  obtain ⟨w1, w2⟩ := bdim_first hW pa.2.2
  have hg : ∀ M : CMath ℝ, Gives M (.broadcast .add sa [sa, sb] none id) [a.data, b.data] y.data := by
    intro M zs hzs
    obtain ⟨i, j, rfl⟩ : ∃ i j, zs = [i, j] := List.length_eq_two.mp (by have := congrArg List.length hzs; simpa using this)
    simp only [List.map_cons, List.map_nil, List.cons.injEq, and_true] at hzs
    exact Onnx.broadcast_two (.inl ⟨rfl, rfl⟩) sa ia.shapeOf ib.shapeOf oka okb hy iy.shapeOf hzs.1 hzs.2
  refine ⟨.broadcast .add sa [sa, sb] none id, ?_, .add _ _ _, hg M, ?_⟩
  · have e1 := images_shape4 (List.Forall₂.cons ia (.cons ib .nil))
    simp only [List.map_cons, List.map_nil] at e1
    simp only [createAdd, e1, iy.shape4, Option.bind_eq_bind, Option.bind_some]
    refine if_pos ⟨?_, c2, h2, w2, ?_⟩
    · rw [iy]; simp [prod, Shape.size]; ring
    · intro t ht
      simp only [List.mem_cons, List.not_mem_nil, or_false] at ht
      rcases ht with rfl | rfl
      · exact ⟨.inr rfl, .inr rfl, .inr rfl⟩
      · exact ⟨c1, h1, w1⟩
  · refine ⟨?_, ?_, ?_, ⟨fun _ _ => by simp, fun _ => by simp⟩, id, ⟨images_pos (.cons ia (.cons ib .nil)) ?_, by simp⟩, ?_, fun _ _ _ _ => trivial⟩
    · refine ⟨fun _ => rfl, rfl, ?_, by simp⟩
      intro t ht
      simp only [List.mem_singleton] at ht
      subst ht
      exact ⟨c1, h1, w1⟩
    · rw [hyok, iy]; simp [Op.size, Op.chans, Shape.size, prod]; ring
    · exact images_size (xs := [a, b]) (.cons ia (.cons ib .nil)) (by simp [oka, okb])
    · intro x hx
      simp only [List.mem_cons, List.not_mem_nil, or_false] at hx
      rcases hx with rfl | rfl
      · exact hpa
      · exact hpb
    · intro L _ _ _ idx road srcs hl
      exact add_text hl idx road

/-! ## cat -/

theorem cat_operands {xs : List (Nd ℝ)} {ss : List Shape} (h : List.Forall₂ Image xs ss) (hok : ∀ x ∈ xs, x.Ok) {zs : List (Nd ℝ)}
    (hzs : zs.map Nd.data = xs.map Nd.data) :
    ((ss.zip zs).mapM fun p => p.2.reshape3 p.1) = some (List.zipWith (fun (t : Nd ℝ) u => arrOf u t.data) xs ss) ∧ zs.length = ss.length := by
  induction h generalizing zs with
  | nil => cases zs <;> simp_all
  | @cons t s xs ss h _ ih =>
    cases zs with
    | nil => simp at hzs
    | cons z zs =>
      simp only [List.map_cons, List.cons.injEq] at hzs
      have := ih (fun x hx => hok x (by simp [hx])) hzs.2
      refine ⟨?_, by simp [this.2]⟩
      rw [List.zip_cons_cons, List.mapM_cons, Onnx.reshape3_ok hzs.1 (hok t (by simp)) h.shapeOf, this.1]
      rfl

/-- the dimensions of a concatenation of arrays -/
theorem concat_dims (a : Np.Axis) (l : List (Arr ℝ)) (acc : Arr ℝ) :
    (l.foldl (Np.concat2 a) acc).C = (if a = .c then acc.C + (l.map Arr.C).sum else acc.C) ∧
    (l.foldl (Np.concat2 a) acc).H = (if a = .h then acc.H + (l.map Arr.H).sum else acc.H) ∧
    (l.foldl (Np.concat2 a) acc).W = (if a = .w then acc.W + (l.map Arr.W).sum else acc.W) := by
  induction l generalizing acc with
  | nil => simp
  | cons x l ih =>
    obtain ⟨h1, h2, h3⟩ := ih (Np.concat2 a acc x)
    simp only [List.foldl_cons, h1, h2, h3]
    cases a <;> simp [Np.concat2] <;> ring

theorem concat_ok {k : Nat} {l : List (Nd ℝ)} {x y : Nd ℝ} (hx : x.Ok) (hy : l.foldlM (Onnx.Spec.concat2 k) x = some y) : y.Ok ∧ y.dims.length = x.dims.length := by
  induction l generalizing x with
  | nil => simp at hy; subst hy; exact ⟨hx, rfl⟩
  | cons t l ih =>
    rw [List.foldlM_cons] at hy
    obtain ⟨x', hx', hy⟩ := Option.bind_eq_some_iff.mp hy
    unfold Onnx.Spec.concat2 at hx'
    simp only [Option.ite_none_right_eq_some, Option.some.injEq] at hx'
    obtain ⟨_, rfl⟩ := hx'
    obtain ⟨h1, h2⟩ := ih (Onnx.mk_ok _ _) hy
    exact ⟨h1, by rw [h2]; simp [mk]⟩

theorem zip_dims {xs : List (Nd ℝ)} {ss : List Shape} (h : List.Forall₂ Image xs ss) :
    (List.zipWith (fun (t : Nd ℝ) u => arrOf u t.data) xs ss).map (fun a => (⟨a.C, a.H, a.W⟩ : Shape)) = ss := by
  induction h with
  | nil => rfl
  | @cons t s xs ss _ _ ih => rw [List.zipWith_cons_cons, List.map_cons, ih]; rfl

theorem cat_ok {xs : List (Nd ℝ)} {y : Nd ℝ} {axis : Int} (hb : ∀ x ∈ xs, x.dims.head? = some 1 ∧ x.dims.length = 4) (hok : ∀ x ∈ xs, x.Ok)
    (h2 : 2 ≤ xs.length) (hax : 1 ≤ axis) (hy : Spec.cat axis xs = some y) :
    ∃ op, createCat axis (xs.map Nd.dims) y.dims = some op ∧ Fusing op ∧ Gives M op (xs.map Nd.data) y.data ∧ Coded op (xs.map Nd.data) y.data := by
  obtain ⟨ss, hss⟩ : ∃ ss, List.Forall₂ Image xs ss := by
    clear hy h2 hok
    induction xs with
    | nil => exact ⟨[], .nil⟩
    | cons x xs ih =>
      obtain ⟨ss, h⟩ := ih fun x hx => hb x (by simp [hx])
      obtain ⟨s, hs⟩ := image_of (hb x (by simp)).1 (hb x (by simp)).2
      exact ⟨s :: ss, .cons hs h⟩
  have hshape := images_shape4 hss
  have hsz := images_size hss hok
  have hop := fun zs => cat_operands (zs := zs) hss hok
  unfold Spec.cat at hy
  obtain ⟨x0, hx, hy0⟩ := Option.bind_eq_some_iff.mp hy
  clear hy
  obtain ⟨k, hk, hy⟩ := Option.bind_eq_some_iff.mp hy0
  clear hy0
  cases hss with
  | nil => simp at hx
  | @cons x s xr sr h1 hr =>
    obtain rfl : x = x0 := by simpa using hx
    simp only [List.tail_cons] at hy
    have hkk : k < 4 ∧ (k : Int) = axis := by
      unfold Onnx.Spec.axis? at hk
      rw [(hb _ (by simp)).2] at hk
      split at hk
      · simp at hk; omega
      · split at hk
        · omega
        · simp at hk
    obtain ⟨hk4, rfl⟩ := hkk
    obtain ⟨a, hnp⟩ : ∃ a, npAxis (k : Int) = some a := by
      have : k = 1 ∨ k = 2 ∨ k = 3 := by omega
      rcases this with rfl | rfl | rfl
      · exact ⟨.c, rfl⟩
      · exact ⟨.h, rfl⟩
      · exact ⟨.w, rfl⟩
    have hl4 := (hb x (by simp)).2
    have his : Onnx.AxisIs x.dims k a := Onnx.npAxis_is (by omega) (by rw [hl4]; simpa using hnp)
    have hxd : x.data = tensor3 s.C s.H s.W (arrOf s x.data).v := (arrOf_flat (by rw [hok x (by simp), Onnx.shapeOf_size h1.shapeOf])).symm
    obtain ⟨r1, r2⟩ := Onnx.concat_fold (images_shapeOf hr) h1.shapeOf his hxd rfl rfl rfl hy
    have r3 := Keras.concat_fold_dims (images_shapeOf hr) h1.shapeOf his hxd rfl rfl rfl hy
    obtain ⟨d1, d2, d3⟩ := concat_dims a (List.zipWith (fun (t : Nd ℝ) u => arrOf u t.data) xr sr) (arrOf s x.data)
    have hzd := zip_dims hr
    obtain ⟨yok, yl⟩ := concat_ok (hok x (by simp)) hy
    have iy := image_shape r3 (yl.trans hl4)
    have hsums : ∀ f : Shape → Nat, ((List.zipWith (fun (t : Nd ℝ) u => arrOf u t.data) xr sr).map fun z => f ⟨z.C, z.H, z.W⟩) = sr.map f := by
      intro f
      conv => rhs; rw [← hzd, List.map_map]
      rfl
    have hsC := hsums Shape.C
    have hsH := hsums Shape.H
    have hsW := hsums Shape.W
    simp only at hsC hsH hsW
    have hall : ∀ t ∈ sr, (a ≠ .c → t.C = s.C) ∧ (a ≠ .h → t.H = s.H) ∧ (a ≠ .w → t.W = s.W) := by
      intro t ht
      rw [← hzd] at ht
      obtain ⟨z, hz, rfl⟩ := List.mem_map.mp ht
      exact r2 z hz
    simp only [List.zipWith_cons_cons] at hop
    generalize List.zipWith (fun (t : Nd ℝ) u => arrOf u t.data) xr sr = zw at *
    have e1 : (arrOf s x.data).C = s.C := rfl
    have e2 : (arrOf s x.data).H = s.H := rfl
    have e3 : (arrOf s x.data).W = s.W := rfl
    rw [e1, show zw.map Arr.C = sr.map Shape.C from hsC] at d1
    rw [e2, show zw.map Arr.H = sr.map Shape.H from hsH] at d2
    rw [e3, show zw.map Arr.W = sr.map Shape.W from hsW] at d3
    simp only [d1, d2, d3] at iy
    have hg : ∀ M : CMath ℝ, Gives M (.concat a (s :: sr) id) ((x :: xr).map Nd.data) y.data := by
      intro M zs hzs
      obtain ⟨z1, z2⟩ := hop zs hzs
      have hl2 : 2 ≤ zs.length := by rw [z2]; have := hr.length_eq; simp at h2 ⊢; omega
      match zs, hl2 with
      | j0 :: j1 :: jl, _ =>
        refine ⟨ofArr (concatForward a id (arrOf s x.data) zw), ?_, ?_⟩
        · simp only [Op.forward, z1, Option.bind_eq_bind, Option.bind_some]
          rw [if_pos (by simpa using z2.symm)]
          exact if_pos r2
        · rw [← r1]; rfl
    refine ⟨.concat a (s :: sr) id, ?_, .concat _ _, hg M, ?_⟩
    · simp only [createCat, hshape, iy.shape4, hnp, Option.bind_eq_bind, Option.bind_some]
      refine if_pos ⟨?_, ?_, ?_, ?_, ?_⟩
      · rw [iy]; simp only [prod, List.foldr_cons, List.foldr_nil, Shape.size]; ring
      · intro t ht
        rcases List.mem_cons.mp ht with rfl | ht
        · exact ⟨fun h => by rw [if_neg h], fun h => by rw [if_neg h], fun h => by rw [if_neg h]⟩
        · obtain ⟨g1, g2, g3⟩ := hall t ht
          exact ⟨fun h => by rw [if_neg h, g1 h], fun h => by rw [if_neg h, g2 h], fun h => by rw [if_neg h, g3 h]⟩
      · intro h; rw [if_pos h]; simp
      · intro h; rw [if_pos h]; simp
      · intro h; rw [if_pos h]; simp
    · refine ⟨⟨?_, ?_⟩, ?_, hsz, ⟨fun _ _ => by simp, fun _ => by simp⟩, id, trivial, ?_, fun _ _ _ _ => trivial⟩
      · have := hr.length_eq; simp at h2 ⊢; omega
      · intro t ht u hu
        have key : ∀ t ∈ s :: sr, (a ≠ .c → t.C = s.C) ∧ (a ≠ .h → t.H = s.H) ∧ (a ≠ .w → t.W = s.W) := by
          intro t ht
          rcases List.mem_cons.mp ht with rfl | ht
          · exact ⟨fun _ => rfl, fun _ => rfl, fun _ => rfl⟩
          · exact hall t ht
        obtain ⟨g1, g2, g3⟩ := key t ht
        obtain ⟨k1, k2, k3⟩ := key u hu
        exact ⟨fun h => by rw [g1 h, k1 h], fun h => by rw [g2 h, k2 h], fun h => by rw [g3 h, k3 h]⟩
      · rw [yok, iy]
        cases a <;> simp [Op.size, Op.chans, Shape.size, prod, concatShape] <;> ring
      · intro L _ _ _ idx road srcs hl
        exact ⟨_, _, Emits.concat a _ .linear srcs⟩

/-! ## Pooling -/

theorem poolP_plain {C H W k s : Nat} {os : Shape} (f1 : (⟨H, k, s, 1, 0, 0⟩ : Onnx.Spec.Window).Fits) (f2 : (⟨W, k, s, 1, 0, 0⟩ : Onnx.Spec.Window).Fits)
    (hH : os.H = (⟨H, k, s, 1, 0, 0⟩ : Onnx.Spec.Window).out) (hW : os.W = (⟨W, k, s, 1, 0, 0⟩ : Onnx.Spec.Window).out) :
    poolP ⟨C, H, W⟩ os s k (.list [0, 0, 0, 0]) = some ⟨C, H, W, os.H, os.W, s, k, 0, 0, 0, 0⟩ ∧ (⟨C, H, W, os.H, os.W, s, k, 0, 0, 0, 0⟩ : PoolP).Accepted := by
  have hacc : (⟨C, H, W, os.H, os.W, s, k, 0, 0, 0, 0⟩ : PoolP).Accepted := by
    refine ⟨f1.2.1, f1.1, ?_, ?_⟩
    · rw [hH, fits_out f1]
    · rw [hW, fits_out f2]
  refine ⟨?_, hacc⟩
  simp only [poolP, computePadding, List.getElem?_cons_succ, List.getElem?_cons_zero, Option.bind_eq_bind, Option.bind_some, nat?, le_refl, if_true, Int.toNat_zero]
  exact if_pos hacc

theorem maxPool_ok {x y : Nd ℝ} {k s : Nat} (hb : x.dims.head? = some 1) (hok : x.Ok) (hpos : ∀ k ∈ x.dims, 0 < k)
    (hy : Spec.maxPool x (k, k) (s, s) (0, 0) (1, 1) = some y) :
    ∃ c, createPool x.dims y.dims k s (.list [0, 0, 0, 0]) = some c ∧ Gives M (.maxPool c id) [x.data] y.data ∧ Coded (.maxPool c id) [x.data] y.data := by
  unfold Spec.maxPool at hy
  split at hy
  case h_2 => simp at hy
  rename_i N C H W hxd
  simp only [Option.ite_none_right_eq_some] at hy
  obtain ⟨⟨f1, f2⟩, hy⟩ := hy
  rw [hxd] at hb hpos
  simp at hb; subst hb
  have hyd : y.dims = [1, C, (⟨H, k, s, 1, 0, 0⟩ : Onnx.Spec.Window).out, (⟨W, k, s, 1, 0, 0⟩ : Onnx.Spec.Window).out] := by
    obtain ⟨g, rfl, _⟩ := Keras.mkM_mk hy
    rfl
  have yok : y.Ok := by
    obtain ⟨g, rfl, _⟩ := Keras.mkM_mk hy
    exact Onnx.mk_ok _ _
  obtain ⟨hp, hacc⟩ := poolP_plain (C := C) (os := ⟨C, (⟨H, k, s, 1, 0, 0⟩ : Onnx.Spec.Window).out, (⟨W, k, s, 1, 0, 0⟩ : Onnx.Spec.Window).out⟩) f1 f2 rfl rfl
  have hshape : shapeOf x.dims = some ⟨C, H, W⟩ := by rw [hxd]; rfl
  have hg : ∀ M : CMath ℝ, Gives M (.maxPool ⟨C, H, W, (⟨H, k, s, 1, 0, 0⟩ : Onnx.Spec.Window).out, (⟨W, k, s, 1, 0, 0⟩ : Onnx.Spec.Window).out, s, k, 0, 0, 0, 0⟩ id)
      [x.data] y.data := by
    intro M zs hzs
    obtain ⟨z, rfl, hz⟩ := map_one hzs
    obtain ⟨r, hr, hrd⟩ := Onnx.mkM_fill (dims := [C, (⟨H, k, s, 1, 0, 0⟩ : Onnx.Spec.Window).out, (⟨W, k, s, 1, 0, 0⟩ : Onnx.Spec.Window).out])
      (d := [1, C, (⟨H, k, s, 1, 0, 0⟩ : Onnx.Spec.Window).out, (⟨W, k, s, 1, 0, 0⟩ : Onnx.Spec.Window).out]) (s := ⟨C, _, _⟩) rfl _ hy
    refine ⟨r, ?_, hrd⟩
    simp only [Op.forward, Onnx.reshape3_ok (s := ⟨C, H, W⟩) hz hok hshape, Option.bind_eq_bind, Option.bind_some]
    rw [← hr]
    apply Onnx.fill_congr
    intro f i j hf hi hj
    rw [maxPoolForward, Onnx.amax_max?]
    simp only [cut, List.length_cons, List.length_nil, Nat.sub_self, List.drop_zero]
    rw [Onnx.under_slice (Ho := (⟨H, k, s, 1, 0, 0⟩ : Onnx.Spec.Window).out) (Wo := (⟨W, k, s, 1, 0, 0⟩ : Onnx.Spec.Window).out) hxd f1 f2 hf hi hj]
  refine ⟨_, ?_, hg M, ?_⟩
  · simp only [createPool, hxd, hyd, shape4, Option.bind_eq_bind, Option.bind_some]
    exact (if_pos (by simp [prod]; ring)).trans hp
  · have hk0 : 0 < k := f1.1
    refine ⟨⟨rfl, hacc, hpos H (by simp), hpos W (by simp), rfl, hk0, hk0, hk0⟩, ?_, inSizes_of (M := M) rfl (hg M), ⟨fun _ _ => by simp, fun _ => by simp⟩, id, trivial, ?_, ?_⟩
    · rw [yok, hyd]; simp [Op.size, Op.chans, Shape.size, prod]; ring
    · intro L h1 h2 h3 idx road srcs hl
      obtain ⟨r, rfl⟩ := List.length_eq_one_iff.mp hl
      exact ⟨_, _, Emits.maxPool _ .linear r⟩
    · intro M zs hzs hmin
      obtain ⟨z, rfl, hz⟩ := map_one hzs
      intro i hi
      simp only [List.mem_singleton] at hi
      subst hi
      exact ⟨fun a ha => hmin x.data (by simp) a (hz ▸ ha), .inl ⟨rfl, rfl⟩⟩

theorem avgPool_ok {x y : Nd ℝ} (hb : x.dims.head? = some 1) (hsq : x.dims.getD 2 0 = x.dims.getD 3 0) (hok : x.Ok)
    (hy : Spec.adaptiveAvgPool x 1 1 = some y) :
    ∃ k c, x.dims.getLast? = some k ∧ createPool x.dims y.dims k 1 (.list [0, 0, 0, 0]) = some c ∧
      Gives M (.avgPool c id) [x.data] y.data ∧ Coded (.avgPool c id) [x.data] y.data := by
  unfold Spec.adaptiveAvgPool at hy
  split at hy
  case h_2 => simp at hy
  rename_i N C H W hxd
  simp only [Option.ite_none_right_eq_some, Option.some.injEq] at hy
  obtain ⟨⟨-, -, hH0, _⟩, rfl⟩ := hy
  rw [hxd] at hb hsq
  simp at hb hsq; subst hb hsq
  have f1 : (⟨H, H, 1, 1, 0, 0⟩ : Onnx.Spec.Window).Fits := ⟨hH0, le_refl _, le_refl _, by simp [Onnx.Spec.Window.span]; omega⟩
  have hout : (⟨H, H, 1, 1, 0, 0⟩ : Onnx.Spec.Window).out = 1 := by
    have : H + 0 + 0 - ((H - 1) * 1 + 1) = 0 := by omega
    simp only [Onnx.Spec.Window.out, Onnx.Spec.Window.span, this]
  obtain ⟨hp, hacc⟩ := poolP_plain (C := C) (os := ⟨C, 1, 1⟩) f1 f1 hout.symm hout.symm
  have hshape : shapeOf x.dims = some ⟨C, H, H⟩ := by rw [hxd]; rfl
  have hsl : ∀ f i j, i < 1 → j < 1 → avgPoolForward (⟨C, H, H, 1, 1, 1, H, 0, 0, 0, 0⟩ : PoolP) (arrOf ⟨C, H, H⟩ x.data).v f i j
      = some ((∑ a ∈ Finset.range H, ∑ b ∈ Finset.range H, (arrOf ⟨C, H, H⟩ x.data).v f a b) / ((H * H : Nat) : ℝ)) := by
    intro f i j hi hj
    obtain rfl : i = 0 := by omega
    obtain rfl : j = 0 := by omega
    have hs : slice (0 * 1) (0 * 1 + H) H = List.range H := by rw [Onnx.slice_eq (by omega)]; simp
    rw [avgPoolForward, Onnx.mean_eq]
    have hl : (poolSlice (⟨C, H, H, 1, 1, 1, H, 0, 0, 0, 0⟩ : PoolP) (arrOf ⟨C, H, H⟩ x.data).v f 0 0)
        = (List.range H).flatMap fun a => (List.range H).map fun b => (arrOf ⟨C, H, H⟩ x.data).v f a b := by
      simp only [poolSlice, poolPadded, ne_eq, not_true_eq_false, and_self, if_false, hs]
    have hlen : ((List.range H).flatMap fun a => (List.range H).map fun b => (arrOf ⟨C, H, H⟩ x.data).v f a b).length = H * H := by
      simp
    rw [hl, hlen, if_neg (Nat.mul_ne_zero (by omega) (by omega))]
    congr 2
    rw [List.flatMap_def, List.sum_flatten, List.map_map, ← Onnx.sum_range_list]
    congr 1
  have hfill : fill [C, 1, 1] C 1 1 (avgPoolForward (⟨C, H, H, 1, 1, 1, H, 0, 0, 0, 0⟩ : PoolP) (arrOf ⟨C, H, H⟩ x.data).v)
      = some ⟨[C, 1, 1], tensor3 C 1 1 fun f _ _ => (∑ a ∈ Finset.range H, ∑ b ∈ Finset.range H, (arrOf ⟨C, H, H⟩ x.data).v f a b) / ((H * H : Nat) : ℝ)⟩ := by
    exact fill_eq fun f i j _ hi hj => hsl f i j hi hj
  have hg : ∀ M : CMath ℝ, Gives M (.avgPool ⟨C, H, H, 1, 1, 1, H, 0, 0, 0, 0⟩ id) [x.data]
      (tensor3 C 1 1 fun f _ _ => (∑ a ∈ Finset.range H, ∑ b ∈ Finset.range H, (arrOf ⟨C, H, H⟩ x.data).v f a b) / ((H * H : Nat) : ℝ)) := by
    intro M zs hzs
    obtain ⟨z, rfl, hz⟩ := map_one hzs
    refine ⟨_, by simp only [Op.forward, Onnx.reshape3_ok (s := ⟨C, H, H⟩) hz hok hshape, Option.bind_eq_bind, Option.bind_some]; exact hfill, rfl⟩
  have hd : (tensor3 C 1 1 fun f _ _ => (∑ a ∈ Finset.range H, ∑ b ∈ Finset.range H, (arrOf ⟨C, H, H⟩ x.data).v f a b) / ((H * H : Nat) : ℝ)) =
      (mk [1, C, 1, 1] fun ix =>
        (∑ p ∈ Finset.Ico (ix.getD 2 0 * H / 1) (((ix.getD 2 0 + 1) * H + 1 - 1) / 1), ∑ q ∈ Finset.Ico (ix.getD 3 0 * H / 1) (((ix.getD 3 0 + 1) * H + 1 - 1) / 1),
          x.get [ix.getD 0 0, ix.getD 1 0, p, q]) /
          ((((((ix.getD 2 0 + 1) * H + 1 - 1) / 1) - ix.getD 2 0 * H / 1) * ((((ix.getD 3 0 + 1) * H + 1 - 1) / 1) - ix.getD 3 0 * H / 1) : Nat) : ℝ)).data := by
    show _ = (Onnx.indices [1, C, 1, 1]).map _
    rw [Onnx.indices_four]
    apply tensor3_congr
    intro f i j hf hi hj
    obtain rfl : i = 0 := by omega
    obtain rfl : j = 0 := by omega
    simp only [List.getD_cons_succ, List.getD_cons_zero, zero_mul, zero_add, one_mul, Nat.add_sub_cancel, Nat.div_one, Nat.sub_zero]
    congr 1
    rw [Finset.range_eq_Ico]
    apply Finset.sum_congr rfl; intro a ha'
    apply Finset.sum_congr rfl; intro e he
    rw [Finset.mem_Ico] at ha' he
    have hg := Onnx.get_cut x hshape (c := f) (i := a) (j := e) hf (by simp only; omega) (by simp only; omega)
    rw [hxd] at hg
    simp only [cut, List.length_cons, List.length_nil, List.drop_zero, Nat.sub_self] at hg
    rw [hg]
  rw [hd] at hg
  refine ⟨H, _, by rw [hxd]; rfl, ?_, hg M, ?_⟩
  · simp only [createPool, hxd, mk, shape4, Option.bind_eq_bind, Option.bind_some]
    exact (if_pos (by simp [prod])).trans hp
  · refine ⟨⟨rfl, hacc, hH0, hH0, rfl, rfl, hH0, hH0⟩, ?_, inSizes_of (M := M) rfl (hg M), ⟨fun _ _ => by simp, fun _ => by simp⟩, id, trivial, ?_, fun _ _ _ _ => trivial⟩
    · rw [Onnx.mk_ok]; simp [Op.size, Op.chans, Shape.size, prod, mk]
    · intro L h1 h2 h3 idx road srcs hl
      obtain ⟨r, rfl⟩ := List.length_eq_one_iff.mp hl
      exact ⟨_, _, Emits.avgPool _ .linear r⟩

end Verif.Torch

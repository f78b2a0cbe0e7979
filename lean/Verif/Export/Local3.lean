import Verif.Export.Local2

/-!
# An exported node against the layer it is exported from: element-wise layers and concatenation
-/

namespace Verif.Export
open Net Layers Graph
open Onnx (prod mk indices shapeOf cut Init OpType Attr)
open Torch (Gives map_one)
open scoped Classical

variable {M : CMath ℝ} {opset : Nat}

/-- the function of an element-wise layer that ONNX has as an operator of two operands -/
def Arith : BOp → (ℝ → ℝ → ℝ) → Prop
  | .add, f => f = (· + ·)
  | .sub, f => f = (· - ·)
  | .mul, f => f = (· * ·)
  | .div, f => f = (· / ·)
  | _, _ => False

theorem arith_cases {b : BOp} {op : ℝ → ℝ → ℝ} (h : Arith b op) :
    b = .add ∧ op = (· + ·) ∨ b = .sub ∧ op = (· - ·) ∨ b = .mul ∧ op = (· * ·) ∨ b = .div ∧ op = (· / ·) := by
  cases b <;> simp_all [Arith]

theorem arith_value {b : BOp} {op : ℝ → ℝ → ℝ} (h : Arith b op) (n : Onnx.Node) (hn : n.op = bopOp b) (x y : Nd ℝ) :
    Onnx.Spec.node opset n [some x, some y] = Onnx.bcast op x y := by
  rcases arith_cases h with ⟨rfl, rfl⟩ | ⟨rfl, rfl⟩ | ⟨rfl, rfl⟩ | ⟨rfl, rfl⟩ <;> simp only [Onnx.Spec.node, hn, bopOp, Onnx.Spec.arg2]

/-- the activation function is applied last -/
theorem broadcast_map {b : BOp} {op : ℝ → ℝ → ℝ} (h : Arith b op) (o : Shape) (ss : List Shape) (cst : Option (Arr ℝ)) (f : ℝ → ℝ) {zs : List (Nd ℝ)} {z : Nd ℝ}
    (hz : (Op.broadcast b o ss cst id : Op ℝ).forward M .first zs = some z) :
    ∃ z', (Op.broadcast b o ss cst f : Op ℝ).forward M .first zs = some z' ∧ z'.data = z.data.map f := by
  have key : ∀ as r, broadcastForward b id cst as = some r → broadcastForward b f cst as = some (r.map f) := by
    intro as r hr
    cases as with
    | nil => simp [broadcastForward] at hr
    | cons a as =>
      simp only [broadcastForward, Option.map_eq_some_iff] at hr ⊢
      obtain ⟨q, hq, rfl⟩ := hr
      exact ⟨q, hq, rfl⟩
  have go : (b ≠ .max ∧ b ≠ .min ∧ b ≠ .avg) := by rcases arith_cases h with ⟨rfl, _⟩ | ⟨rfl, _⟩ | ⟨rfl, _⟩ | ⟨rfl, _⟩ <;> simp
  have hfw : ∀ g : ℝ → ℝ, (Op.broadcast b o ss cst g : Op ℝ).forward M .first zs = (do
      let as ← (ss.zip zs).mapM fun p => p.2.reshape3 p.1
      if ss.length = zs.length then
        let r ← broadcastForward b g cst as
        pure (ofArr r)
      else none) := by
    intro g
    rcases arith_cases h with ⟨rfl, _⟩ | ⟨rfl, _⟩ | ⟨rfl, _⟩ | ⟨rfl, _⟩ <;> rfl
  rw [hfw] at hz ⊢
  obtain ⟨as, has, hz⟩ := Option.bind_eq_some_iff.mp hz
  simp only [Option.ite_none_right_eq_some] at hz
  obtain ⟨hl, hz⟩ := hz
  obtain ⟨r, hr, hz⟩ := Option.bind_eq_some_iff.mp hz
  cases hz
  refine ⟨ofArr (r.map f), by simp only [has, Option.bind_eq_bind, Option.bind_some, if_pos hl, key _ _ hr]; rfl, ?_⟩
  exact Torch.flat_map r f

/-- broadcasting to the dimensions of the first operand -/
theorem bcast_left {op : ℝ → ℝ → ℝ} {a b : Nd ℝ} (h : Onnx.bshape a.dims b.dims = some a.dims) : ∃ y, Onnx.bcast op a b = some y ∧ y.dims = a.dims ∧ y.Ok := by
  exact ⟨mk a.dims fun ix => op (a.bget ix) (b.bget ix), by simp only [Onnx.bcast, h, Option.bind_eq_bind, Option.bind_some], rfl, Onnx.mk_ok _ _⟩

/-- two operands -/
theorem two_good {b : BOp} {op : ℝ → ℝ → ℝ} (hb : Arith b op) (o : Shape) {s1 s2 : Shape} (f0 : ℝ → ℝ) (act : Act ℝ) {x y : Nd ℝ} (h1 : shapeOf x.dims = some s1)
    (h2 : shapeOf y.dims = some s2) (hx : x.Ok) (hy : y.Ok) (hbs : Onnx.bshape x.dims y.dims = some x.dims) :
    Good M opset ⟨.broadcast b o [s1, s2] none f0, act⟩ [x, y] x.dims := by
  obtain ⟨t, ht, hd, tok⟩ := bcast_left (op := op) hbs
  rw [← hd]
  refine good_of (by simp) ?_ ⟨tok, ?_⟩
  · intro i ins hl
    match ins, hl with
    | [p, q], _ =>
      refine ⟨bopOp b, [], [], [], ?_, .nil, ⟨[], rfl, by decide, by decide⟩, ?_⟩
      · rcases arith_cases hb with ⟨rfl, _⟩ | ⟨rfl, _⟩ | ⟨rfl, _⟩ | ⟨rfl, _⟩ <;> rfl
      · show Onnx.Spec.node opset _ [some x, some y] = _
        rw [arith_value hb _ rfl, ht]
  · intro f zs hzs
    match zs, (show zs.length = 2 by simpa using congrArg List.length hzs), hzs with
    | [i, j], _, hzs =>
      simp only [List.map_cons, List.map_nil, List.cons.injEq, and_true] at hzs
      obtain ⟨z, hz, hzd⟩ := Onnx.broadcast_two (M := M) (arith_cases hb) o h1 h2 hx hy ht (by rw [hd]; exact h1) hzs.1 hzs.2
      obtain ⟨z', h', e'⟩ := broadcast_map hb o [s1, s2] none f hz
      exact ⟨z', h', by rw [e', hzd]⟩

/-- the neutral element an element-wise layer with a single producer is exported with -/
def neutral : BOp → ℝ
  | .add | .sub => 0
  | _ => 1

theorem neutral_right {b : BOp} {op : ℝ → ℝ → ℝ} (hb : Arith b op) (v : ℝ) : op v (neutral b) = v := by
  rcases arith_cases hb with ⟨rfl, rfl⟩ | ⟨rfl, rfl⟩ | ⟨rfl, rfl⟩ | ⟨rfl, rfl⟩ <;> simp [neutral]

theorem bdim_one (n : Nat) : Onnx.bdim n 1 = some n := by unfold Onnx.bdim; split <;> simp_all

theorem bshape_nil {d : List Nat} {s : Shape} (h : shapeOf d = some s) : Onnx.bshape d [] = some d := by
  rcases Onnx.shapeOf_cases h with ⟨rfl, rfl⟩ | ⟨_, rfl, rfl⟩ | ⟨_, _, rfl, rfl⟩ | ⟨_, _, _, rfl, rfl⟩ | ⟨_, _, _, rfl, rfl⟩ <;>
    simp [Onnx.bshape, Onnx.padTo, Onnx.bdims, bdim_one, List.replicate]

/-- the layer with one producer and no constant -/
theorem one_forward {b : BOp} {op : ℝ → ℝ → ℝ} (hb : Arith b op) (o : Shape) {s1 : Shape} {x i : Nd ℝ} (h1 : shapeOf x.dims = some s1) (hx : x.Ok) (hi : i.data = x.data) :
    ∃ z, (Op.broadcast b o [s1] none id : Op ℝ).forward M .first [i] = some z ∧ z.data = x.data := by
  have hr := Onnx.reshape3_ok (i := i) hi hx h1
  have hflat : (arrOf s1 x.data).flat = x.data := arrOf_flat (by rw [hx, Onnx.shapeOf_size h1])
  have key : ∃ z, broadcastForward b id none [arrOf s1 x.data] = some z ∧ z.flat = (arrOf s1 x.data).flat := by
    rcases arith_cases hb with ⟨rfl, rfl⟩ | ⟨rfl, rfl⟩ | ⟨rfl, rfl⟩ | ⟨rfl, rfl⟩
    · exact ⟨_, rfl, rfl⟩
    · obtain ⟨z, hz, hf⟩ := Onnx.binop_neutral (· - ·) 0 (fun v => sub_zero v) (arrOf s1 x.data)
      exact ⟨z, by simp [broadcastForward, hz]; rfl, hf⟩
    · obtain ⟨z, hz, hf⟩ := Onnx.binop_neutral (· * ·) 1 (fun v => mul_one v) (arrOf s1 x.data)
      exact ⟨z, by simp [broadcastForward, hz]; rfl, hf⟩
    · obtain ⟨z, hz, hf⟩ := Onnx.binop_neutral (· / ·) 1 (fun v => div_one v) (arrOf s1 x.data)
      exact ⟨z, by simp [broadcastForward, hz]; rfl, hf⟩
  obtain ⟨z, hz, hf⟩ := key
  refine ⟨ofArr z, ?_, hf.trans hflat⟩
  rcases arith_cases hb with ⟨rfl, rfl⟩ | ⟨rfl, rfl⟩ | ⟨rfl, rfl⟩ | ⟨rfl, rfl⟩ <;> simp [Op.forward, hr, hz]

theorem one_good {b : BOp} {op : ℝ → ℝ → ℝ} (hb : Arith b op) (o : Shape) {s1 : Shape} (f0 : ℝ → ℝ) (act : Act ℝ) {x : Nd ℝ} (h1 : shapeOf x.dims = some s1) (hx : x.Ok) :
    Good M opset ⟨.broadcast b o [s1] none f0, act⟩ [x] x.dims := by
  obtain ⟨t, ht, hd, tok⟩ := bcast_left (op := op) (a := x) (b := ⟨[], [neutral b]⟩) (bshape_nil h1)
  have htd : t.data = x.data := by
    obtain ⟨s, hs, _, -, -, -, hdat⟩ := Onnx.bcast_arr h1 (show shapeOf (⟨[], [neutral b]⟩ : Nd ℝ).dims = some ⟨1, 1, 1⟩ from rfl) ht
    rw [hd, h1] at hs; cases hs
    have hflat : (arrOf s1 x.data).flat = x.data := arrOf_flat (by rw [hx, Onnx.shapeOf_size h1])
    rw [hdat]
    refine Eq.trans ?_ hflat
    show _ = tensor3 s1.C s1.H s1.W _
    apply tensor3_congr
    intro c i j hc hi hj
    have h1 : ∀ {d k : Nat}, k < d → Np.bidx d k = k := by
      intro d k hk; unfold Np.bidx; split
      · omega
      · rfl
    have hn : Np.bget (arrOf ⟨1, 1, 1⟩ (⟨[], [neutral b]⟩ : Nd ℝ).data) c i j = neutral b := by simp [Np.bget, Np.bidx, arrOf, at3]
    rw [hn, neutral_right hb]
    simp only [Np.bget, show (arrOf s1 x.data).C = s1.C from rfl, show (arrOf s1 x.data).H = s1.H from rfl, show (arrOf s1 x.data).W = s1.W from rfl, h1 hc, h1 hi, h1 hj]
  rw [← hd]
  refine good_of (by simp) ?_ ⟨tok, ?_⟩
  · intro i ins hl
    obtain ⟨x0, rfl⟩ := List.length_eq_one_iff.mp hl
    refine ⟨bopOp b, [floats _ [] [neutral b]], [], _, ?_, .cons (floats_array _ _ _ (by simp [prod])) .nil, ⟨["_constant"], rfl, by decide, by decide⟩, ?_⟩
    · rcases arith_cases hb with ⟨rfl, _⟩ | ⟨rfl, _⟩ | ⟨rfl, _⟩ | ⟨rfl, _⟩ <;> rfl
    · show Onnx.Spec.node opset _ [some x, some ⟨[], [neutral b]⟩] = _
      rw [arith_value hb _ rfl, ht]
  · intro f zs hzs
    obtain ⟨z, rfl, hz⟩ := map_one hzs
    obtain ⟨w, hw, hwd⟩ := one_forward (M := M) hb o h1 hx hz
    obtain ⟨z', h', e'⟩ := broadcast_map hb o [s1] none f hw
    exact ⟨z', h', by rw [e', hwd, htd]⟩

/-- a constant operand whose axes of length one come first: removing them changes nothing -/
theorem cst_good {b : BOp} {op : ℝ → ℝ → ℝ} (hb : Arith b op) (hne : b ≠ .add) (o : Shape) {s1 : Shape} (k : Arr ℝ) (f0 : ℝ → ℝ) (act : Act ℝ) {x : Nd ℝ}
    (h1 : shapeOf x.dims = some s1) (hx : x.Ok) (hk : shapeOf ([k.C, k.H, k.W].filter (· ≠ 1)) = some ⟨k.C, k.H, k.W⟩)
    (hbs : Onnx.bshape x.dims ([k.C, k.H, k.W].filter (· ≠ 1)) = some x.dims) :
    Good M opset ⟨.broadcast b o [s1] (some k) f0, act⟩ [x] x.dims := by
  obtain ⟨t, ht, hd, tok⟩ := bcast_left (op := op) (a := x) (b := ⟨[k.C, k.H, k.W].filter (· ≠ 1), k.flat⟩) hbs
  obtain ⟨s, hs, _, hC, hH, hW, hdat⟩ := Onnx.bcast_arr h1 (b := ⟨[k.C, k.H, k.W].filter (· ≠ 1), k.flat⟩) hk ht
  rw [hd, h1] at hs; cases hs
  have hlen : k.flat.length = prod ([k.C, k.H, k.W].filter (· ≠ 1)) := by
    rw [Onnx.shapeOf_size hk]; simp [Arr.flat, tensor3_length, Shape.size]
  have hbin : ∃ z, Np.binop op (arrOf s1 x.data) k = some z ∧ z.flat = t.data := by
    refine ⟨⟨s1.C, s1.H, s1.W, fun f i j => op (Np.bget (arrOf s1 x.data) f i j) (Np.bget k f i j)⟩, ?_, ?_⟩
    · simp only [Np.binop, show (arrOf s1 x.data).C = s1.C from rfl, show (arrOf s1 x.data).H = s1.H from rfl, show (arrOf s1 x.data).W = s1.W from rfl, hC, hH, hW]
    · rw [hdat]
      simp only [Arr.flat]
      apply tensor3_congr
      intro c i j hc hi hj
      congr 1
      have hb1 : ∀ {a b r q : Nat}, Np.bdim a b = some r → q < r → Np.bidx b q < b := by
        intro a b r q h hq
        unfold Np.bdim at h
        unfold Np.bidx
        split_ifs at h ⊢ with e1 e2 e3 e4 <;> simp at h <;> omega
      have := Onnx.arrOf_tensor3 ⟨k.C, k.H, k.W⟩ k.v (hb1 hC hc) (hb1 hH hi) (hb1 hW hj)
      simp only [Np.bget] at this ⊢
      exact this.symm
  obtain ⟨z0, hz0, hzf⟩ := hbin
  rw [← hd]
  refine good_of (by simp) ?_ ⟨tok, ?_⟩
  · intro i ins hl
    obtain ⟨x0, rfl⟩ := List.length_eq_one_iff.mp hl
    refine ⟨bopOp b, [floats _ ([k.C, k.H, k.W].filter (· ≠ 1)) k.flat], [], _, ?_, .cons (floats_array _ _ _ hlen) .nil, ⟨["_constant"], rfl, by decide, by decide⟩, ?_⟩
    · rcases arith_cases hb with ⟨rfl, _⟩ | ⟨rfl, _⟩ | ⟨rfl, _⟩ | ⟨rfl, _⟩ <;> rfl
    · show Onnx.Spec.node opset _ [some x, some ⟨[k.C, k.H, k.W].filter (· ≠ 1), k.flat⟩] = _
      rw [arith_value hb _ rfl, ht]
  · intro f zs hzs
    obtain ⟨z, rfl, hz⟩ := map_one hzs
    have hr := Onnx.reshape3_ok (i := z) hz hx h1
    have hw : (Op.broadcast b o [s1] (some k) id : Op ℝ).forward M .first [z] = some (ofArr z0) := by
      rcases arith_cases hb with ⟨rfl, rfl⟩ | ⟨rfl, rfl⟩ | ⟨rfl, rfl⟩ | ⟨rfl, rfl⟩
      · exact absurd rfl hne
      all_goals simp [Op.forward, hr, broadcastForward, hz0]; rfl
    obtain ⟨z', h', e'⟩ := broadcast_map hb o [s1] (some k) f hw
    exact ⟨z', h', by rw [e', ← hzf]; rfl⟩

/-! ## Concatenation -/

/-- images that agree outside of one axis can be put one after the other -/
theorem concat_exists (a : Np.Axis) (k : Nat) (hk : axisInt a = k) {l : List (Nd ℝ)} {sr : List Shape} (hl : List.Forall₂ Torch.Image l sr) {x : Nd ℝ} {s : Shape} (hx : Torch.Image x s)
    (hall : ∀ t ∈ sr, (a ≠ .c → t.C = s.C) ∧ (a ≠ .h → t.H = s.H) ∧ (a ≠ .w → t.W = s.W)) : ∃ y, l.foldlM (Onnx.Spec.concat2 k) x = some y := by
  induction hl generalizing x s with
  | nil => exact ⟨x, rfl⟩
  | @cons z u l sr hz hl ih =>
    obtain ⟨g1, g2, g3⟩ := hall u (by simp)
    have hstep : ∃ y s', Onnx.Spec.concat2 k x z = some y ∧ Torch.Image y s' ∧ (a ≠ .c → s'.C = s.C) ∧ (a ≠ .h → s'.H = s.H) ∧ (a ≠ .w → s'.W = s.W) := by
      unfold Onnx.Spec.concat2
      unfold Torch.Image at *
      cases a <;> simp only [axisInt] at hk
      · obtain rfl : k = 1 := by omega
        rw [if_pos (by rw [hx, hz]; simp [g2, g3])]
        exact ⟨_, ⟨s.C + u.C, s.H, s.W⟩, rfl, by simp [mk, hx, hz], by simp, by simp, by simp⟩
      · obtain rfl : k = 2 := by omega
        rw [if_pos (by rw [hx, hz]; simp [g1, g3])]
        exact ⟨_, ⟨s.C, s.H + u.H, s.W⟩, rfl, by simp [mk, hx, hz], by simp, by simp, by simp⟩
      · obtain rfl : k = 3 := by omega
        rw [if_pos (by rw [hx, hz]; simp [g1, g2])]
        exact ⟨_, ⟨s.C, s.H, s.W + u.W⟩, rfl, by simp [mk, hx, hz], by simp, by simp, by simp⟩
    obtain ⟨y, s', hy, iy, e1, e2, e3⟩ := hstep
    rw [List.foldlM_cons, hy]
    refine ih iy fun t ht => ?_
    obtain ⟨f1, f2, f3⟩ := hall t (by simp [ht])
    exact ⟨fun h => (f1 h).trans (e1 h).symm, fun h => (f2 h).trans (e2 h).symm, fun h => (f3 h).trans (e3 h).symm⟩

theorem concat_good (a : Np.Axis) {xs : List (Nd ℝ)} {s : Shape} {sr : List Shape} (f0 : ℝ → ℝ) (act : Act ℝ) (h : List.Forall₂ Torch.Image xs (s :: sr)) (h2 : 1 ≤ sr.length)
    (hok : ∀ x ∈ xs, x.Ok) (hall : ∀ t ∈ sr, (a ≠ .c → t.C = s.C) ∧ (a ≠ .h → t.H = s.H) ∧ (a ≠ .w → t.W = s.W)) :
    Good M opset ⟨.concat a (s :: sr) f0, act⟩ xs [1, (concatShape a (s :: sr)).C, (concatShape a (s :: sr)).H, (concatShape a (s :: sr)).W] := by
  obtain ⟨k, hk, hnp⟩ : ∃ k : Nat, axisInt a = k ∧ Onnx.npAxis (k : Int) = some a := by
    cases a
    · exact ⟨1, rfl, rfl⟩
    · exact ⟨2, rfl, rfl⟩
    · exact ⟨3, rfl, rfl⟩
  cases h with
  | @cons x _ xr _ h1 hr =>
  obtain ⟨y, hy⟩ := concat_exists a k hk hr h1 hall
  have hl4 : x.dims.length = 4 := by rw [h1]; rfl
  have hk4 : k < 4 := by cases a <;> simp only [axisInt] at hk <;> omega
  have his : Onnx.AxisIs x.dims k a := Onnx.npAxis_is (by omega) (by rw [hl4]; simpa using hnp)
  have hxd : x.data = tensor3 s.C s.H s.W (arrOf s x.data).v := (arrOf_flat (by rw [hok x (by simp), Onnx.shapeOf_size h1.shapeOf])).symm
  obtain ⟨r1, r2⟩ := Onnx.concat_fold (Torch.images_shapeOf hr) h1.shapeOf his hxd rfl rfl rfl hy
  have r3 := Keras.concat_fold_dims (Torch.images_shapeOf hr) h1.shapeOf his hxd rfl rfl rfl hy
  obtain ⟨d1, d2, d3⟩ := Torch.concat_dims a (List.zipWith (fun (t : Nd ℝ) u => arrOf u t.data) xr sr) (arrOf s x.data)
  have hzd := Torch.zip_dims hr
  obtain ⟨yok, yl⟩ := Torch.concat_ok (hok x (by simp)) hy
  have iy := Torch.image_shape r3 (yl.trans hl4)
  have hsums : ∀ f : Shape → Nat, ((List.zipWith (fun (t : Nd ℝ) u => arrOf u t.data) xr sr).map fun z => f ⟨z.C, z.H, z.W⟩) = sr.map f := by
    intro f
    conv => rhs; rw [← hzd, List.map_map]
    rfl
  have hsC := hsums Shape.C
  have hsH := hsums Shape.H
  have hsW := hsums Shape.W
  simp only at hsC hsH hsW
  have hop := fun zs => Torch.cat_operands (zs := zs) (.cons h1 hr) hok
  simp only [List.zipWith_cons_cons] at hop
  generalize List.zipWith (fun (t : Nd ℝ) u => arrOf u t.data) xr sr = zw at *
  have e1 : (arrOf s x.data).C = s.C := rfl
  have e2 : (arrOf s x.data).H = s.H := rfl
  have e3 : (arrOf s x.data).W = s.W := rfl
  rw [e1, show zw.map Arr.C = sr.map Shape.C from hsC] at d1
  rw [e2, show zw.map Arr.H = sr.map Shape.H from hsH] at d2
  rw [e3, show zw.map Arr.W = sr.map Shape.W from hsW] at d3
  simp only [d1, d2, d3] at iy
  have hyd : y.dims = [1, (concatShape a (s :: sr)).C, (concatShape a (s :: sr)).H, (concatShape a (s :: sr)).W] := by
    rw [iy]; cases a <;> simp [concatShape]
  rw [← hyd]
  refine good_of (by simp) ?_ ⟨yok, ?_⟩
  · intro i ins hl
    refine ⟨.Concat, [], _, [], rfl, .nil, ⟨[], rfl, by decide, by decide⟩, ?_⟩
    show (do Onnx.Spec.concat _ (← List.mapM id (List.map some ((x :: xr) ++ [])))) = _
    rw [List.append_nil, mapM_some id (fun o => o.getD x) _ (by simp)]
    simp only [Option.bind_eq_bind, Option.bind_some, List.map_map, Function.comp_def, Option.getD_some, List.map_id']
    unfold Onnx.Spec.concat
    simp only [List.head?_cons, Option.bind_eq_bind, Option.bind_some, List.tail_cons, hl4]
    rw [show Onnx.Node.int? _ "axis" = some (axisInt a) from rfl]
    simp only [Option.bind_some, hk]
    have : Onnx.Spec.axis? 4 (k : Int) = some k := by
      unfold Onnx.Spec.axis?
      rw [if_pos (by omega)]; simp
    rw [this, Option.bind_some, hy]
  · intro f zs hzs
    obtain ⟨z1, z2⟩ := hop zs hzs
    have hl2 : 2 ≤ zs.length := by rw [z2]; simp; omega
    match zs, hl2 with
    | j0 :: j1 :: jl, _ =>
      refine ⟨ofArr (concatForward a f (arrOf s x.data) zw), ?_, ?_⟩
      · simp only [setAct, Op.forward, z1, Option.bind_eq_bind, Option.bind_some]
        rw [if_pos (by simpa using z2.symm)]
        exact if_pos r2
      · rw [← r1]
        exact Torch.flat_map (concatForward a id (arrOf s x.data) zw) f

end Verif.Export

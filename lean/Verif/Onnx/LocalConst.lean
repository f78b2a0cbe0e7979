import Verif.Onnx.Supported

/-!
# C58: element-wise operators with an initializer

What the layer made for Mul, Sub or Div of a computed tensor `a` and an initializer `k` returns, in all cases: the importer
combines `k` with a constant full of the neutral element `e` (`c = op(e, k)`), drops `c` if one of its elements is `e`, and the
layer applies the operator once more.
-/

namespace Verif.Onnx
open Net Layers
open scoped Classical

/-- the three operators with their neutral element -/
def Neutral (bop : BOp) (op : ℝ → ℝ → ℝ) (e : ℝ) : Prop :=
  bop = .sub ∧ op = (· - ·) ∧ e = 0 ∨ bop = .mul ∧ op = (· * ·) ∧ e = 1 ∨ bop = .div ∧ op = (· / ·) ∧ e = 1

theorem Neutral.right {bop : BOp} {op : ℝ → ℝ → ℝ} {e : ℝ} (h : Neutral bop op e) (v : ℝ) : op v e = v := by
  rcases h with ⟨_, rfl, rfl⟩ | ⟨_, rfl, rfl⟩ | ⟨_, rfl, rfl⟩ <;> simp

theorem Neutral.forward {bop : BOp} {op : ℝ → ℝ → ℝ} {e : ℝ} (h : Neutral bop op e) (cst : Option (Arr ℝ)) (x : Arr ℝ) :
    broadcastForward bop id cst [x] = (Np.binop op x (cst.getD ⟨1, 1, 1, fun _ _ _ => e⟩)).map (Arr.map id) := by
  rcases h with ⟨rfl, rfl, rfl⟩ | ⟨rfl, rfl, rfl⟩ | ⟨rfl, rfl, rfl⟩ <;> simp [broadcastForward]

/-- the elements of the constant -/
theorem const_elems {op : ℝ → ℝ → ℝ} {e : ℝ} {d0 : List Nat} {k c : Nd ℝ} {s0 sk : Shape} (h0 : shapeOf d0 = some s0) (hk : shapeOf k.dims = some sk)
    (h : bcast op (mk d0 fun _ => e) k = some c) :
    ∃ sc, shapeOf c.dims = some sc ∧ c.Ok ∧ Np.bdim s0.C sk.C = some sc.C ∧ Np.bdim s0.H sk.H = some sc.H ∧ Np.bdim s0.W sk.W = some sc.W ∧
      c.data = tensor3 sc.C sc.H sc.W fun f i j => op e (Np.bget (arrOf sk k.data) f i j) := by
  obtain ⟨sc, h1, h2, h3, h4, h5, h6⟩ := bcast_arr (a := mk d0 fun _ => e) h0 hk h
  refine ⟨sc, h1, h2, h3, h4, h5, ?_⟩
  rw [h6]
  apply tensor3_congr
  intro f i j hf hi hj
  have : Np.bget (arrOf s0 (mk d0 fun _ => e).data) f i j = e := by
    simp only [mk, indices_cut h0]
    exact arrOf_tensor3 s0 _ (bidx_lt_left h3 hf) (bidx_lt_left h4 hi) (bidx_lt_left h5 hj)
  rw [this]

/-- an element of an array is at some position -/
theorem mem_arr {k : Nd ℝ} {sk : Shape} (hk : shapeOf k.dims = some sk) (ok : k.Ok) {v : ℝ} (hv : v ∈ k.data) :
    ∃ f i j, f < sk.C ∧ i < sk.H ∧ j < sk.W ∧ (arrOf sk k.data).v f i j = v := by
  obtain ⟨p, hp, rfl⟩ := List.mem_iff_getElem.mp hv
  rw [ok, shapeOf_size hk] at hp
  unfold Shape.size at hp
  have hw : 0 < sk.W := Nat.pos_of_ne_zero fun h => by simp [h] at hp
  have hh : 0 < sk.H := Nat.pos_of_ne_zero fun h => by simp [h] at hp
  refine ⟨p / sk.W / sk.H, p / sk.W % sk.H, p % sk.W, ?_, Nat.mod_lt _ hh, Nat.mod_lt _ hw, ?_⟩
  · rw [Nat.div_div_eq_div_mul]
    apply Nat.div_lt_of_lt_mul
    calc p < sk.C * sk.H * sk.W := hp
      _ = sk.W * sk.H * sk.C := by ring
  · show k.data.getD (at3 sk.H sk.W (p / sk.W / sk.H) (p / sk.W % sk.H) (p % sk.W)) 0 = _
    have : at3 sk.H sk.W (p / sk.W / sk.H) (p / sk.W % sk.H) (p % sk.W) = p := by
      unfold at3
      rw [Nat.mod_add_div, Nat.mod_add_div]
    rw [this, List.getD_eq_getElem?_getD, List.getElem?_eq_getElem, Option.getD_some]

theorem bidx_self {d k : Nat} (hk : k < d) : Np.bidx d k = k := by
  unfold Np.bidx; split
  · omega
  · rfl

theorem bidx_bidx {c k f : Nat} (h : c = 1 → k = 1) : Np.bidx k (Np.bidx c f) = Np.bidx k f := by
  unfold Np.bidx
  split
  · rfl
  · split
    · rename_i h1 h2; exact absurd (h h2) h1
    · rfl

section
variable {M : CMath ℝ} {bop : BOp} {op : ℝ → ℝ → ℝ} {e : ℝ} {m : Model} {dyn : String → Prop} {E : Spec.Env} {n : Node} {made : Made}
  {x₁ x₂ xa xk : String} {a k : Nd ℝ}

/-- the pieces of `createBin` on a tensor and an initializer -/
theorem createBin_const (hk : Known m dyn E) (hdec : Declared m) (h : createBin m n bop op e = some made)
    (hin : n.inputs = [x₁, x₂]) (hxs : (x₁ = xa ∧ x₂ = xk) ∨ (x₁ = xk ∧ x₂ = xa)) (hda : m.init? xa = none ∧ dyn xa) (hdk : (m.init? xk).isSome)
    (hEa : E xa = some a) (hEk : E xk = some k) {sk : Shape} (hsk : shapeOf k.dims = some sk) :
    ∃ d0 s0 sa c os, shapeOf d0 = some s0 ∧ 0 < prod d0 ∧ shapeOf a.dims = some sa ∧ (s0 = sa ∨ s0 = ⟨1, 1, 1⟩ ∨ s0 = sk) ∧
      bcast op (mk d0 fun _ => e) k = some c ∧
      (if ∀ v ∈ c.data, v ≠ e then (do let r ← arr4 c; some (Op.broadcast bop os [sa] (some r) id, [xa]))
        else some (Op.broadcast bop os [sa] none id, [xa]) : Option Made) = some made := by
  obtain ⟨i, hi⟩ := Option.isSome_iff_exists.mp hdk
  obtain ⟨k', hk1, hk2⟩ := hk.init _ _ hi
  rw [hEk] at hk2; cases hk2
  have hra := hk.decl _ _ hda.2 hEa
  simp only [createBin, Option.bind_eq_bind, Option.bind_eq_some_iff] at h
  obtain ⟨x, hx, o, _, os, _, ⟨c, names⟩, hcn, ss, hss, hm⟩ := h
  have hx' : x = xa ∨ x = xk := by
    simp only [Node.input?, hin, List.getElem?_cons_zero, Option.some.injEq] at hx
    rcases hxs with ⟨h1, _⟩ | ⟨h1, _⟩ <;> simp [← hx, h1]
  have hfold : bcast op (mk (m.shape x) fun _ => e) k = some c ∧ names = [xa] := by
    rcases hxs with ⟨rfl, rfl⟩ | ⟨rfl, rfl⟩ <;>
      simp [hin, foldInit, hda.1, hi, hk1, Option.bind_eq_some_iff] at hcn <;> exact ⟨hcn.1, hcn.2.symm⟩
  obtain ⟨hc, rfl⟩ := hfold
  simp only [List.mapM_cons, List.mapM_nil, Option.bind_eq_bind, Option.bind_eq_some_iff, Option.pure_def, Option.some.injEq] at hss
  obtain ⟨sa, hsa, _, rfl, rfl⟩ := hss
  simp only [Model.shape, hra] at hsa
  obtain ⟨hd0, hsa⟩ := shape_of_known hsa
  have h0 : (∃ s0, shapeOf (m.shape x) = some s0 ∧ (s0 = sa ∨ s0 = ⟨1, 1, 1⟩ ∨ s0 = sk)) := by
    simp only [Model.shape, shapeOf_extend]
    rcases hx' with rfl | rfl
    · exact ⟨sa, by rw [hra]; exact hsa, .inl rfl⟩
    · rcases hdec _ _ hi with hr | hr
      · exact ⟨⟨1, 1, 1⟩, by rw [hr]; rfl, .inr (.inl rfl)⟩
      · exact ⟨sk, by rw [hr, init_dims hk1]; exact hsk, .inr (.inr rfl)⟩
  obtain ⟨s0, h0, hs0⟩ := h0
  exact ⟨m.shape x, s0, sa, c, os, h0, shape_prod_pos m x, hsa, hs0, hc, hm⟩

/-- If no element of `k` gives the neutral element, the layer returns `op(a, op(e, k))`. -/
theorem const_kept (hop : Neutral bop op e) (hk : Known m dyn E) (hdec : Declared m) (h : createBin m n bop op e = some made)
    (hin : n.inputs = [x₁, x₂]) (hxs : (x₁ = xa ∧ x₂ = xk) ∨ (x₁ = xk ∧ x₂ = xa)) (hda : m.init? xa = none ∧ dyn xa) (hdk : (m.init? xk).isSome)
    (hEa : E xa = some a) (hEk : E xk = some k) {sk : Shape} (hsk : shapeOf k.dims = some sk)
    (hv : ∀ v ∈ k.data, op e v ≠ e) {y : Nd ℝ} (hy : bcast (fun u v => op u (op e v)) a k = some y) : Correct M E made.1 made.2 y := by
  obtain ⟨d0, s0, sa, c, os, h0, hp0, ha, hs0, hc, hm⟩ := createBin_const hk hdec h hin hxs hda hdk hEa hEk hsk
  have oka := hk.ok _ _ hEa
  have okk := hk.ok _ _ hEk
  obtain ⟨sc, hsc, okc, c1, c2, c3, hcd⟩ := const_elems h0 hsk hc
  obtain ⟨s, hs, _, y1, y2, y3, hyd⟩ := bcast_arr ha hsk hy
  have b1 := bdim_const (sa := sa.C) (by rcases hs0 with rfl | rfl | rfl <;> simp) c1 y1
  have b2 := bdim_const (sa := sa.H) (by rcases hs0 with rfl | rfl | rfl <;> simp) c2 y2
  have b3 := bdim_const (sa := sa.W) (by rcases hs0 with rfl | rfl | rfl <;> simp) c3 y3
  have hall : ∀ v ∈ c.data, v ≠ e := by
    intro v hvc
    rw [hcd] at hvc
    simp only [tensor3, List.mem_flatMap, List.mem_map, List.mem_range] at hvc
    obtain ⟨f, hf, p, hp, q, hq, rfl⟩ := hvc
    exact hv _ (bget_mem hsk okk (bidx_lt_right c1 hf) (bidx_lt_right c2 hp) (bidx_lt_right c3 hq))
  rw [if_pos hall] at hm
  have har : arr4 c = some (arrOf sc c.data) := by
    have : batch1 (pad4 c.dims) = some sc := hsc
    simp [arr4, this]
  simp only [har, Option.bind_eq_bind, Option.bind_some, Option.some.injEq] at hm
  subst hm
  refine ⟨by simp, fun ins hins => ?_⟩
  obtain ⟨i, t, rfl, hE, hd⟩ := forall2_one hins
  rw [hEa] at hE; cases hE
  have hr := reshape3_ok (i := i) hd oka ha
  have hbin : Np.binop op (arrOf sa a.data) (arrOf sc c.data) = some ⟨s.C, s.H, s.W, fun f i j =>
      op (Np.bget (arrOf sa a.data) f i j) (Np.bget (arrOf sc c.data) f i j)⟩ := by
    have e1 : (arrOf sa a.data).C = sa.C := rfl
    have e2 : (arrOf sa a.data).H = sa.H := rfl
    have e3 : (arrOf sa a.data).W = sa.W := rfl
    have e4 : (arrOf sc c.data).C = sc.C := rfl
    have e5 : (arrOf sc c.data).H = sc.H := rfl
    have e6 : (arrOf sc c.data).W = sc.W := rfl
    simp [Np.binop, e1, e2, e3, e4, e5, e6, b1.1, b2.1, b3.1]
  have hfw : broadcastForward bop id (some (arrOf sc c.data)) [arrOf sa a.data] = some ⟨s.C, s.H, s.W, fun f i j =>
      op (Np.bget (arrOf sa a.data) f i j) (Np.bget (arrOf sc c.data) f i j)⟩ := by
    rw [hop.forward]; simp [hbin, Arr.map]
  refine ⟨⟨[s.C, s.H, s.W], tensor3 s.C s.H s.W fun f i j => op (Np.bget (arrOf sa a.data) f i j) (Np.bget (arrOf sc c.data) f i j)⟩, ?_, ?_⟩
  · show (Op.broadcast bop os [sa] (some (arrOf sc c.data)) id : Op ℝ).forward M .first [i] = _
    rcases hop with ⟨rfl, _, _⟩ | ⟨rfl, _, _⟩ | ⟨rfl, _, _⟩ <;> simp [Op.forward, hr, hfw] <;> rfl
  · rw [hyd]
    apply tensor3_congr
    intro f p q hf hp hq
    show op (Np.bget (arrOf sa a.data) f p q) (Np.bget (arrOf sc c.data) f p q) = _
    congr 1
    have hd : (arrOf sc c.data).v (Np.bidx sc.C f) (Np.bidx sc.H p) (Np.bidx sc.W q)
        = op e (Np.bget (arrOf sk k.data) (Np.bidx sc.C f) (Np.bidx sc.H p) (Np.bidx sc.W q)) := by
      rw [hcd]
      exact arrOf_tensor3 sc _ (bidx_lt_right b1.1 hf) (bidx_lt_right b2.1 hp) (bidx_lt_right b3.1 hq)
    show (arrOf sc c.data).v (Np.bidx sc.C f) (Np.bidx sc.H p) (Np.bidx sc.W q) = _
    rw [hd]
    congr 1
    show (arrOf sk k.data).v (Np.bidx sk.C (Np.bidx sc.C f)) (Np.bidx sk.H (Np.bidx sc.H p)) (Np.bidx sk.W (Np.bidx sc.W q)) = _
    rw [bidx_bidx b1.2.1, bidx_bidx b2.2.1, bidx_bidx b3.2.1]
    rfl

/-- If an element of `k` gives the neutral element, the whole of `k` is dropped: the layer returns `a`. -/
theorem const_dropped (hop : Neutral bop op e) (hk : Known m dyn E) (hdec : Declared m) (h : createBin m n bop op e = some made)
    (hin : n.inputs = [x₁, x₂]) (hxs : (x₁ = xa ∧ x₂ = xk) ∨ (x₁ = xk ∧ x₂ = xa)) (hda : m.init? xa = none ∧ dyn xa) (hdk : (m.init? xk).isSome)
    (hEa : E xa = some a) (hEk : E xk = some k) {sk : Shape} (hsk : shapeOf k.dims = some sk)
    (hv : ∃ v ∈ k.data, op e v = e) : Correct M E made.1 made.2 a := by
  obtain ⟨d0, s0, sa, c, os, h0, hp0, ha, hs0, hc, hm⟩ := createBin_const hk hdec h hin hxs hda hdk hEa hEk hsk
  have oka := hk.ok _ _ hEa
  have okk := hk.ok _ _ hEk
  obtain ⟨sc, hsc, okc, c1, c2, c3, hcd⟩ := const_elems h0 hsk hc
  obtain ⟨v, hv, hve⟩ := hv
  have hex : ¬ ∀ v ∈ c.data, v ≠ e := by
    intro hall
    obtain ⟨f, p, q, hf, hp, hq, hg⟩ := mem_arr hsk okk hv
    rw [shapeOf_size h0] at hp0
    have p0 : 0 < s0.C ∧ 0 < s0.H ∧ 0 < s0.W := by
      unfold Shape.size at hp0
      refine ⟨?_, ?_, ?_⟩ <;> (apply Nat.pos_of_ne_zero; intro h; simp [h] at hp0)
    have up : ∀ {a b c f : Nat}, 0 < a → f < b → Np.bdim a b = some c → f < c := by
      intro a b c f h1 h2 h
      have := bdim_cases h
      omega
    refine hall e ?_ rfl
    rw [hcd]
    simp only [tensor3, List.mem_flatMap, List.mem_map, List.mem_range]
    refine ⟨f, up p0.1 hf c1, p, up p0.2.1 hp c2, q, up p0.2.2 hq c3, ?_⟩
    show op e ((arrOf sk k.data).v (Np.bidx sk.C f) (Np.bidx sk.H p) (Np.bidx sk.W q)) = e
    rw [bidx_self hf, bidx_self hp, bidx_self hq, hg, hve]
  rw [if_neg hex] at hm
  simp only [Option.some.injEq] at hm
  subst hm
  refine ⟨by simp, fun ins hins => ?_⟩
  obtain ⟨i, t, rfl, hE, hd⟩ := forall2_one hins
  rw [hEa] at hE; cases hE
  have hr := reshape3_ok (i := i) hd oka ha
  obtain ⟨z, hz, hf⟩ := binop_neutral op e hop.right (arrOf sa a.data)
  have hfw : broadcastForward bop id none [arrOf sa a.data] = some z := by
    rw [hop.forward]; simp [hz, Arr.map]
  refine ⟨ofArr z, ?_, ?_⟩
  · rcases hop with ⟨rfl, _, _⟩ | ⟨rfl, _, _⟩ | ⟨rfl, _, _⟩ <;> simp [Op.forward, hr, hfw]
  · show z.flat = _
    rw [hf]
    exact arrOf_flat (by rw [oka, shapeOf_size ha])

end

/-! ## C58 -/

section
variable {M : CMath ℝ} {m : Model} {dyn : String → Prop} {E : Spec.Env} {n : Node} {made : Made} {x₁ x₂ xa xk : String} {a k y : Nd ℝ} {sk : Shape}

/-- **C58** Mul: right if no element of the initializer is 1. -/
theorem C58_mul_partial (hk : Known m dyn E) (hdec : Declared m) (hop : n.op = .Mul) (h : create m n = some made)
    (hin : n.inputs = [x₁, x₂]) (hxs : (x₁ = xa ∧ x₂ = xk) ∨ (x₁ = xk ∧ x₂ = xa)) (hda : m.init? xa = none ∧ dyn xa) (hdk : (m.init? xk).isSome)
    (hEa : E xa = some a) (hEk : E xk = some k) (hsk : shapeOf k.dims = some sk) (hv : ∀ v ∈ k.data, v ≠ 1)
    (hy : bcast (· * ·) a k = some y) : Correct M E made.1 made.2 y := by
  simp only [create, hop] at h
  refine const_kept (.inr (.inl ⟨rfl, rfl, rfl⟩)) hk hdec h hin hxs hda hdk hEa hEk hsk (fun v hm => by simpa using hv v hm) ?_
  simpa using hy

/-- **C58** Mul: an initializer with one element 1 is ignored altogether. -/
theorem C58_mul_ignores (hk : Known m dyn E) (hdec : Declared m) (hop : n.op = .Mul) (h : create m n = some made)
    (hin : n.inputs = [x₁, x₂]) (hxs : (x₁ = xa ∧ x₂ = xk) ∨ (x₁ = xk ∧ x₂ = xa)) (hda : m.init? xa = none ∧ dyn xa) (hdk : (m.init? xk).isSome)
    (hEa : E xa = some a) (hEk : E xk = some k) (hsk : shapeOf k.dims = some sk) (hv : (1 : ℝ) ∈ k.data) : Correct M E made.1 made.2 a := by
  simp only [create, hop] at h
  exact const_dropped (.inr (.inl ⟨rfl, rfl, rfl⟩)) hk hdec h hin hxs hda hdk hEa hEk hsk ⟨1, hv, by simp⟩

/-- **C58** Sub of an initializer without element 0, on either side, adds it. -/
theorem C58_sub_adds (hk : Known m dyn E) (hdec : Declared m) (hop : n.op = .Sub) (h : create m n = some made)
    (hin : n.inputs = [x₁, x₂]) (hxs : (x₁ = xa ∧ x₂ = xk) ∨ (x₁ = xk ∧ x₂ = xa)) (hda : m.init? xa = none ∧ dyn xa) (hdk : (m.init? xk).isSome)
    (hEa : E xa = some a) (hEk : E xk = some k) (hsk : shapeOf k.dims = some sk) (hv : ∀ v ∈ k.data, v ≠ 0)
    (hy : bcast (· + ·) a k = some y) : Correct M E made.1 made.2 y := by
  simp only [create, hop] at h
  refine const_kept (.inl ⟨rfl, rfl, rfl⟩) hk hdec h hin hxs hda hdk hEa hEk hsk (fun v hm => by simpa using hv v hm) ?_
  simpa using hy

/-- **C58** Sub: an initializer with one element 0 is ignored altogether. -/
theorem C58_sub_ignores (hk : Known m dyn E) (hdec : Declared m) (hop : n.op = .Sub) (h : create m n = some made)
    (hin : n.inputs = [x₁, x₂]) (hxs : (x₁ = xa ∧ x₂ = xk) ∨ (x₁ = xk ∧ x₂ = xa)) (hda : m.init? xa = none ∧ dyn xa) (hdk : (m.init? xk).isSome)
    (hEa : E xa = some a) (hEk : E xk = some k) (hsk : shapeOf k.dims = some sk) (hv : (0 : ℝ) ∈ k.data) : Correct M E made.1 made.2 a := by
  simp only [create, hop] at h
  exact const_dropped (.inl ⟨rfl, rfl, rfl⟩) hk hdec h hin hxs hda hdk hEa hEk hsk ⟨0, hv, by simp⟩

/-- **C58** Div by an initializer, or of an initializer, without element 1 multiplies by it. -/
theorem C58_div_multiplies (hk : Known m dyn E) (hdec : Declared m) (hop : n.op = .Div) (h : create m n = some made)
    (hin : n.inputs = [x₁, x₂]) (hxs : (x₁ = xa ∧ x₂ = xk) ∨ (x₁ = xk ∧ x₂ = xa)) (hda : m.init? xa = none ∧ dyn xa) (hdk : (m.init? xk).isSome)
    (hEa : E xa = some a) (hEk : E xk = some k) (hsk : shapeOf k.dims = some sk) (hv : ∀ v ∈ k.data, v ≠ 1)
    (hy : bcast (· * ·) a k = some y) : Correct M E made.1 made.2 y := by
  simp only [create, hop] at h
  refine const_kept (.inr (.inr ⟨rfl, rfl, rfl⟩)) hk hdec h hin hxs hda hdk hEa hEk hsk (fun v hm => by simpa using hv v hm) ?_
  simpa using hy

/-- Two different values cannot both be what a layer returns. -/
theorem Correct.unique {op : Op ℝ} {names : List String} {y z : Nd ℝ} (h1 : Correct M E op names y) (h2 : Correct M E op names z)
    (hdef : ∀ s ∈ names, ∃ t, E s = some t) : y.data = z.data := by
  have hins : List.Forall₂ (fun s (i : Nd ℝ) => ∃ t, E s = some t ∧ i.data = t.data) names (names.map fun s => (E s).getD ⟨[], []⟩) := by
    rw [List.forall₂_map_right_iff, List.forall₂_same]
    intro s hs
    obtain ⟨t, ht⟩ := hdef s hs
    exact ⟨t, ht, by rw [ht]; rfl⟩
  obtain ⟨a, ha, ha'⟩ := h1.2 _ hins
  obtain ⟨b, hb, hb'⟩ := h2.2 _ hins
  rw [ha] at hb; cases hb
  rw [← ha', ← hb']

end

end Verif.Onnx

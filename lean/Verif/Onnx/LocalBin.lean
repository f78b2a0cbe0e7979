import Verif.Onnx.Local

/-!
# Element-wise operators made by the importer
-/

namespace Verif.Onnx
open Net Layers
open scoped Classical

theorem arrOf_tensor3 (s : Shape) (v : Nat → Nat → Nat → ℝ) {f i j : Nat} (hf : f < s.C) (hi : i < s.H) (hj : j < s.W) :
    (arrOf s (tensor3 s.C s.H s.W v)).v f i j = v f i j := by
  simp only [arrOf]
  have hl : at3 s.H s.W f i j < (tensor3 s.C s.H s.W v).length := by rw [tensor3_length]; exact at3_lt hf hi hj
  rw [List.getD_eq_getElem?_getD, List.getElem?_eq_getElem hl, Option.getD_some, tensor3_get _ _ _ _ hf hi hj]

theorem forall2_two {E : Spec.Env} {x y : String} {ins : List (Nd ℝ)}
    (h : List.Forall₂ (fun s (i : Nd ℝ) => ∃ t, E s = some t ∧ i.data = t.data) [x, y] ins) :
    ∃ i j a b, ins = [i, j] ∧ E x = some a ∧ E y = some b ∧ i.data = a.data ∧ j.data = b.data := by
  cases h with
  | cons h1 h2 =>
    cases h2 with
    | cons h2 h3 =>
      cases h3
      obtain ⟨a, ha, ha'⟩ := h1
      obtain ⟨b, hb, hb'⟩ := h2
      exact ⟨_, _, a, b, rfl, ha, hb, ha', hb'⟩

theorem bdim_self (a : Nat) : Np.bdim a a = some a := by simp [Np.bdim]
theorem bdim_one (a : Nat) : Np.bdim a 1 = some a := by
  unfold Np.bdim; split <;> rename_i h
  · rfl
  · simp

theorem bdim_idem {a b c : Nat} (h : Np.bdim a b = some c) : Np.bdim a c = some c ∧ (c = 1 → b = 1) := by
  unfold Np.bdim at h ⊢
  split at h
  · simp_all
  · split at h
    · simp_all
    · split at h <;> simp_all

/-- a neutral constant does not change the result -/
theorem binop_neutral (op : ℝ → ℝ → ℝ) (e : ℝ) (he : ∀ v, op v e = v) (r : Arr ℝ) :
    ∃ z, Np.binop op r ⟨1, 1, 1, fun _ _ _ => e⟩ = some z ∧ z.flat = r.flat := by
  refine ⟨⟨r.C, r.H, r.W, fun f i j => op (Np.bget r f i j) e⟩, by simp [Np.binop, bdim_one, Np.bget], ?_⟩
  simp only [Arr.flat]
  apply tensor3_congr
  intro f i j hf hi hj
  rw [he]
  have h1 : ∀ {d k : Nat}, k < d → Np.bidx d k = k := by
    intro d k hk; unfold Np.bidx; split
    · omega
    · rfl
  simp only [Np.bget, h1 hf, h1 hi, h1 hj]

/-- the binary operators as numpy computes them on two arrays, the result having the shape of the first -/
theorem broadcast_two {M : CMath ℝ} {bop : BOp} {op : ℝ → ℝ → ℝ}
    (hop : bop = .add ∧ op = (· + ·) ∨ bop = .sub ∧ op = (· - ·) ∨ bop = .mul ∧ op = (· * ·) ∨ bop = .div ∧ op = (· / ·))
    {a b y i j : Nd ℝ} {sa sb : Shape} (os : Shape) (ha : shapeOf a.dims = some sa) (hb : shapeOf b.dims = some sb)
    (oka : a.Ok) (okb : b.Ok) (hy : bcast op a b = some y) (hsh : shapeOf y.dims = some sa)
    (hi : i.data = a.data) (hj : j.data = b.data) :
    ∃ z, (Op.broadcast bop os [sa, sb] none id : Op ℝ).forward M .first [i, j] = some z ∧ z.data = y.data := by
  obtain ⟨s, hs, _, hC, hH, hW, hd⟩ := bcast_arr ha hb hy
  rw [hsh] at hs; cases hs
  have hin : Np.inplace op (arrOf sa a.data) (arrOf sb b.data) = some ⟨sa.C, sa.H, sa.W, fun f i j =>
      op (Np.bget (arrOf sa a.data) f i j) (Np.bget (arrOf sb b.data) f i j)⟩ := by
    have h1 : (arrOf sa a.data).C = sa.C := rfl
    have h2 : (arrOf sa a.data).H = sa.H := rfl
    have h3 : (arrOf sa a.data).W = sa.W := rfl
    have h4 : (arrOf sb b.data).C = sb.C := rfl
    have h5 : (arrOf sb b.data).H = sb.H := rfl
    have h6 : (arrOf sb b.data).W = sb.W := rfl
    simp [Np.inplace, Np.binop, h1, h2, h3, h4, h5, h6, hC, hH, hW]
  have hr1 := reshape3_ok (i := i) hi oka ha
  have hr2 := reshape3_ok (i := j) hj okb hb
  rcases hop with ⟨rfl, rfl⟩ | ⟨rfl, rfl⟩ | ⟨rfl, rfl⟩ | ⟨rfl, rfl⟩
  · refine ⟨_, by simp [Op.forward, hr1, hr2, broadcastForward, hin]; rfl, ?_⟩
    rw [hd]; rfl
  · obtain ⟨z, hz, hf⟩ := binop_neutral (· - ·) 0 (fun v => sub_zero v) ⟨sa.C, sa.H, sa.W, fun f i j =>
      Np.bget (arrOf sa a.data) f i j - Np.bget (arrOf sb b.data) f i j⟩
    refine ⟨_, by simp [Op.forward, hr1, hr2, broadcastForward, hin, hz]; rfl, ?_⟩
    rw [hd]; exact hf
  · obtain ⟨z, hz, hf⟩ := binop_neutral (· * ·) 1 (fun v => mul_one v) ⟨sa.C, sa.H, sa.W, fun f i j =>
      Np.bget (arrOf sa a.data) f i j * Np.bget (arrOf sb b.data) f i j⟩
    refine ⟨_, by simp [Op.forward, hr1, hr2, broadcastForward, hin, hz]; rfl, ?_⟩
    rw [hd]; exact hf
  · obtain ⟨z, hz, hf⟩ := binop_neutral (· / ·) 1 (fun v => div_one v) ⟨sa.C, sa.H, sa.W, fun f i j =>
      Np.bget (arrOf sa a.data) f i j / Np.bget (arrOf sb b.data) f i j⟩
    refine ⟨_, by simp [Op.forward, hr1, hr2, broadcastForward, hin, hz]; rfl, ?_⟩
    rw [hd]; exact hf

/-- the names a node reads are those of initializers or of tensors with declared dimensions -/
def Named (m : Model) (dyn : String → Prop) (n : Node) : Prop := ∀ s ∈ n.inputs, s ≠ "" → (m.init? s).isSome ∨ dyn s

theorem input_mem {n : Node} {k : Nat} {s : String} (h : n.input? k = some s) : s ∈ n.inputs := List.mem_of_getElem? h

theorem Known.collect {m : Model} {dyn : String → Prop} {E : Spec.Env} (hk : Known m dyn E) {s : String} {t : Nd ℝ}
    (hs : (m.init? s).isSome ∨ dyn s) (hE : E s = some t) : m.collect s = some t.dims := by
  unfold Model.collect
  cases hi : m.init? s with
  | some i =>
    obtain ⟨t', h1, h2⟩ := hk.init s i hi
    rw [hE] at h2; cases h2
    simp [h1]
  | none => simp [hk.decl s t (by simpa [hi] using hs) hE]

/-- two arguments and their names -/
theorem args_two {E : Spec.Env} {n : Node} {a b : Nd ℝ} (h : Spec.args E n = some [some a, some b]) :
    ∃ x y, n.inputs = [x, y] ∧ E x = some a ∧ E y = some b ∧ x ≠ "" ∧ y ≠ "" := by
  have hl := args_length h
  match hn : n.inputs, hl with
  | [x, y], _ =>
    refine ⟨x, y, rfl, ?_⟩
    have h0 := args_get h (k := 0) (s := x) (by simp [Node.input?, hn])
    have h1 := args_get h (k := 1) (s := y) (by simp [Node.input?, hn])
    rcases h0 with ⟨_, h0⟩ | ⟨t, h0a, h0b, h0c⟩
    · simp at h0
    · rcases h1 with ⟨_, h1⟩ | ⟨u, h1a, h1b, h1c⟩
      · simp at h1
      · simp at h0c h1c
        subst h0c h1c
        exact ⟨h0b, h1b, h0a, h1a⟩

theorem args_one {E : Spec.Env} {n : Node} {a : Nd ℝ} (h : Spec.args E n = some [some a]) :
    ∃ x, n.inputs = [x] ∧ E x = some a ∧ x ≠ "" := by
  have hl := args_length h
  match hn : n.inputs, hl with
  | [x], _ =>
    refine ⟨x, rfl, ?_⟩
    have h0 := args_get h (k := 0) (s := x) (by simp [Node.input?, hn])
    rcases h0 with ⟨_, h0⟩ | ⟨t, h0a, h0b, h0c⟩
    · simp at h0
    · simp at h0c
      subst h0c
      exact ⟨h0b, h0a⟩

theorem correct_add {M : CMath ℝ} {m : Model} {dyn : String → Prop} {E : Spec.Env} (hk : Known m dyn E) {n : Node} {made : Made}
    (h : createAdd m n = some made) {a b y : Nd ℝ} (ha : Spec.args E n = some [some a, some b]) (hn : Named m dyn n)
    (hy : bcast (· + ·) a b = some y) (hsh : shapeOf y.dims = shapeOf a.dims) : Correct M E made.1 made.2 y := by
  obtain ⟨x₁, x₂, hin, h1, h2, e1, e2⟩ := args_two ha
  simp only [createAdd, Option.bind_eq_bind, Option.bind_eq_some_iff, Option.some.injEq, hin, List.mapM_cons, List.mapM_nil,
    Option.pure_def] at h
  obtain ⟨o, _, os, _, _, ⟨sa, ⟨d1, hd1, hs1⟩, _, ⟨sb, ⟨d2, hd2, hs2⟩, _, rfl, rfl⟩, rfl⟩, rfl⟩ := h
  rw [hk.collect (hn x₁ (by simp [hin]) e1) h1] at hd1; cases hd1
  rw [hk.collect (hn x₂ (by simp [hin]) e2) h2] at hd2; cases hd2
  refine ⟨by simp, fun ins hins => ?_⟩
  simp only [] at hins
  obtain ⟨i, j, a', b', rfl, h1', h2', hi, hj⟩ := forall2_two hins
  rw [h1] at h1'; cases h1'
  rw [h2] at h2'; cases h2'
  exact broadcast_two (.inl ⟨rfl, rfl⟩) os hs1 hs2 (hk.ok _ _ h1) (hk.ok _ _ h2) hy (by rw [hsh]; exact hs1) hi hj

/-! ## Div, Mul, Sub -/

theorem mk_const (d : List Nat) (e : ℝ) {v : ℝ} (h : v ∈ (mk d fun _ => e).data) : v = e := by
  simp only [mk, List.mem_map] at h
  obtain ⟨_, _, rfl⟩ := h
  rfl

/-- declared dimensions are not zero -/
theorem rawShape_pos (m : Model) (s : String) : ∀ d ∈ m.rawShape s, 0 < d := by
  intro d hd
  simp only [Model.rawShape, List.mem_map] at hd
  obtain ⟨a, _, rfl⟩ := hd
  split <;> omega

theorem prod_pos {d : List Nat} (h : ∀ x ∈ d, 0 < x) : 0 < prod d := by
  induction d with
  | nil => simp [prod]
  | cons a d ih =>
    simp only [prod, List.foldr_cons]
    exact Nat.mul_pos (h a (by simp)) (ih fun x hx => h x (by simp [hx]))

theorem shape_prod_pos (m : Model) (s : String) : 0 < prod (m.shape s) := by
  unfold Model.shape extend4
  split
  · simp [prod]
  · have := prod_padTo 4 (m.rawShape s)
    unfold padTo at this
    rw [this]
    exact prod_pos (rawShape_pos m s)

theorem mk_nonempty {d : List Nat} (h : 0 < prod d) (v : List Nat → ℝ) : (mk d v).data ≠ [] := by
  intro hh
  have := mk_ok d v
  unfold Nd.Ok at this
  rw [hh] at this
  simp [mk] at this
  omega

/-- two tensors computed by nodes -/
theorem correct_bin_dyn {M : CMath ℝ} {m : Model} {dyn : String → Prop} {E : Spec.Env} (hk : Known m dyn E) {n : Node} {made : Made}
    {bop : BOp} {op : ℝ → ℝ → ℝ} {e : ℝ}
    (hop : bop = .sub ∧ op = (· - ·) ∨ bop = .mul ∧ op = (· * ·) ∨ bop = .div ∧ op = (· / ·))
    (h : createBin m n bop op e = some made) {a b y : Nd ℝ} (ha : Spec.args E n = some [some a, some b])
    (hn : ∀ s ∈ n.inputs, m.init? s = none ∧ dyn s) (hy : bcast op a b = some y) (hsh : shapeOf y.dims = shapeOf a.dims) :
    Correct M E made.1 made.2 y := by
  obtain ⟨x₁, x₂, hin, h1, h2, e1, e2⟩ := args_two ha
  have n1 := hn x₁ (by simp [hin])
  have n2 := hn x₂ (by simp [hin])
  simp only [createBin, Option.bind_eq_bind, Option.bind_eq_some_iff] at h
  obtain ⟨x, hx, o, _, os, _, ⟨c, names⟩, hcn, ss, h, hm⟩ := h
  simp only [hin, List.foldlM_cons, List.foldlM_nil, foldInit, n1.1, n2.1, Option.bind_eq_bind, Option.bind_some,
    Option.pure_def, List.nil_append, Option.some.injEq, Prod.mk.injEq] at hcn
  obtain ⟨rfl, rfl⟩ := hcn
  simp only [List.singleton_append, List.mapM_cons, List.mapM_nil, Option.bind_eq_bind, Option.bind_eq_some_iff, Option.pure_def,
    Option.some.injEq] at h
  obtain ⟨sa, hs1, _, ⟨sb, hs2, _, rfl, rfl⟩, rfl⟩ := h
  have hne : ¬ ∀ v ∈ (mk (m.shape x) fun _ => e).data, v ≠ e := by
    obtain ⟨v, hv⟩ := List.exists_mem_of_ne_nil _ (mk_nonempty (shape_prod_pos m x) fun _ => e)
    exact fun hh => hh v hv (mk_const _ _ hv)
  rw [if_neg hne] at hm
  simp only [Option.some.injEq] at hm
  subst hm
  refine ⟨by simp, fun ins hins => ?_⟩
  simp only [List.singleton_append] at hins
  obtain ⟨i, j, a', b', rfl, h1', h2', hi, hj⟩ := forall2_two hins
  rw [h1] at h1'; cases h1'
  rw [h2] at h2'; cases h2'
  simp only [Model.shape, hk.decl _ _ n1.2 h1] at hs1
  simp only [Model.shape, hk.decl _ _ n2.2 h2] at hs2
  have hs1' := (shape_of_known hs1).2
  exact broadcast_two (.inr hop) os hs1' (shape_of_known hs2).2 (hk.ok _ _ h1) (hk.ok _ _ h2) hy (by rw [hsh]; exact hs1') hi hj

/-! ## Mul by an initializer -/

theorem bdim_cases {a b c : Nat} (h : Np.bdim a b = some c) : (a = b ∧ c = a) ∨ (a = 1 ∧ c = b) ∨ (b = 1 ∧ c = a) := by
  unfold Np.bdim at h
  split at h
  · simp_all
  · split at h
    · simp_all
    · split at h <;> simp_all

theorem bdim_const {s0 sa sk c s : Nat} (h0 : s0 = sa ∨ s0 = 1 ∨ s0 = sk) (hc : Np.bdim s0 sk = some c) (hs : Np.bdim sa sk = some s) :
    Np.bdim sa c = some s ∧ (c = 1 → sk = 1) ∧ (c ≠ 1 → s = c) := by
  have h1 := bdim_cases hc
  have h2 := bdim_cases hs
  refine ⟨?_, by omega, by omega⟩
  have h3 : c = sk ∨ (c = sa ∧ s = sa) := by omega
  rcases h3 with rfl | ⟨rfl, rfl⟩
  · exact hs
  · exact bdim_self _

theorem bidx_lt_left {a b c f : Nat} (hb : Np.bdim a b = some c) (hf : f < c) : Np.bidx a f < a := by
  have := bdim_cases hb
  unfold Np.bidx
  split <;> omega

theorem bidx_lt_right {a b c f : Nat} (hb : Np.bdim a b = some c) (hf : f < c) : Np.bidx b f < b := by
  have := bdim_cases hb
  unfold Np.bidx
  split <;> omega

/-- the elements of a non-empty product of the initial constant and an initializer -/
theorem mul_const {d0 : List Nat} {k c : Nd ℝ} {s0 sk : Shape} (h0 : shapeOf d0 = some s0) (hk : shapeOf k.dims = some sk)
    (h : bcast (· * ·) (mk d0 fun _ => 1) k = some c) :
    ∃ sc, shapeOf c.dims = some sc ∧ c.Ok ∧ Np.bdim s0.C sk.C = some sc.C ∧ Np.bdim s0.H sk.H = some sc.H ∧ Np.bdim s0.W sk.W = some sc.W ∧
      c.data = tensor3 sc.C sc.H sc.W fun f i j => Np.bget (arrOf sk k.data) f i j := by
  obtain ⟨sc, h1, h2, h3, h4, h5, h6⟩ := bcast_arr (a := mk d0 fun _ => 1) h0 hk h
  refine ⟨sc, h1, h2, h3, h4, h5, ?_⟩
  rw [h6]
  apply tensor3_congr
  intro f i j hf hi hj
  have : Np.bget (arrOf s0 (mk d0 fun _ => (1 : ℝ)).data) f i j = 1 := by
    simp only [mk, indices_cut h0]
    exact arrOf_tensor3 s0 _ (bidx_lt_left h3 hf) (bidx_lt_left h4 hi) (bidx_lt_left h5 hj)
  rw [this, one_mul]

/-- elements read from an initializer are elements of it -/
theorem bget_mem {k : Nd ℝ} {sk : Shape} (hk : shapeOf k.dims = some sk) (ok : k.Ok) {f i j : Nat} (hf : Np.bidx sk.C f < sk.C)
    (hi : Np.bidx sk.H i < sk.H) (hj : Np.bidx sk.W j < sk.W) : Np.bget (arrOf sk k.data) f i j ∈ k.data := by
  have hl : at3 sk.H sk.W (Np.bidx sk.C f) (Np.bidx sk.H i) (Np.bidx sk.W j) < k.data.length := by
    rw [ok, shapeOf_size hk]; exact at3_lt hf hi hj
  have : Np.bget (arrOf sk k.data) f i j = k.data[at3 sk.H sk.W (Np.bidx sk.C f) (Np.bidx sk.H i) (Np.bidx sk.W j)] := by
    show k.data.getD (at3 sk.H sk.W (Np.bidx sk.C f) (Np.bidx sk.H i) (Np.bidx sk.W j)) 0 = _
    rw [List.getD_eq_getElem?_getD, List.getElem?_eq_getElem hl, Option.getD_some]
  rw [this]
  exact List.getElem_mem _

/-- The layer made for the product of a tensor `a` and an initializer `k`: the factor is kept if none of its elements is
1, and dropped if one of them is; what it computes is right in the first case, and in the second if all are. -/
theorem broadcast_mul_const {M : CMath ℝ} {a k c y i : Nd ℝ} {sa sk s0 : Shape} {d0 : List Nat} (os : Shape)
    (h0 : shapeOf d0 = some s0) (ha : shapeOf a.dims = some sa) (hk : shapeOf k.dims = some sk) (oka : a.Ok) (okk : k.Ok)
    (hs0 : s0 = sa ∨ s0 = ⟨1, 1, 1⟩ ∨ s0 = sk) (hc : bcast (· * ·) (mk d0 fun _ => 1) k = some c)
    (hy : bcast (· * ·) a k = some y) (hi : i.data = a.data)
    (hv : (∀ v ∈ k.data, v ≠ 1) ∨ (k.data ≠ [] ∧ 0 < prod d0 ∧ (∀ v ∈ k.data, v = 1) ∧ shapeOf y.dims = some sa)) {names : List String} {made : Made}
    (hm : (if ∀ v ∈ c.data, v ≠ 1 then (do let r ← arr4 c; some (Op.broadcast .mul os [sa] (some r) id, names))
      else some (Op.broadcast .mul os [sa] none id, names) : Option Made) = some made) :
    made.2 = names ∧ ∃ z, made.1.forward M .first [i] = some z ∧ z.data = y.data := by
  obtain ⟨sc, hsc, okc, c1, c2, c3, hcd⟩ := mul_const h0 hk hc
  obtain ⟨s, hs, _, y1, y2, y3, hyd⟩ := bcast_arr ha hk hy
  have hr := reshape3_ok (i := i) hi oka ha
  have b1 := bdim_const (sa := sa.C) (by rcases hs0 with rfl | rfl | rfl <;> simp) c1 y1
  have b2 := bdim_const (sa := sa.H) (by rcases hs0 with rfl | rfl | rfl <;> simp) c2 y2
  have b3 := bdim_const (sa := sa.W) (by rcases hs0 with rfl | rfl | rfl <;> simp) c3 y3
  rcases hv with hv | ⟨hne, hp, hv, hsy⟩
  · have hall : ∀ v ∈ c.data, v ≠ 1 := by
      intro v hvc
      rw [hcd] at hvc
      simp only [tensor3, List.mem_flatMap, List.mem_map, List.mem_range] at hvc
      obtain ⟨f, hf, p, hp, q, hq, rfl⟩ := hvc
      exact hv _ (bget_mem hk okk (bidx_lt_right c1 hf) (bidx_lt_right c2 hp) (bidx_lt_right c3 hq))
    rw [if_pos hall] at hm
    have har : arr4 c = some (arrOf sc c.data) := by
      have : batch1 (pad4 c.dims) = some sc := hsc
      simp [arr4, this]
    simp only [har, Option.bind_eq_bind, Option.bind_some, Option.some.injEq] at hm
    subst hm
    refine ⟨rfl, ?_⟩
    have hbin : Np.binop (· * ·) (arrOf sa a.data) (arrOf sc c.data) = some ⟨s.C, s.H, s.W, fun f i j =>
        Np.bget (arrOf sa a.data) f i j * Np.bget (arrOf sc c.data) f i j⟩ := by
      have e1 : (arrOf sa a.data).C = sa.C := rfl
      have e2 : (arrOf sa a.data).H = sa.H := rfl
      have e3 : (arrOf sa a.data).W = sa.W := rfl
      have e4 : (arrOf sc c.data).C = sc.C := rfl
      have e5 : (arrOf sc c.data).H = sc.H := rfl
      have e6 : (arrOf sc c.data).W = sc.W := rfl
      simp [Np.binop, e1, e2, e3, e4, e5, e6, b1.1, b2.1, b3.1]
    refine ⟨_, by simp [Op.forward, hr, broadcastForward, hbin]; rfl, ?_⟩
    rw [hyd]
    apply tensor3_congr
    intro f p q hf hp hq
    show Np.bget (arrOf sa a.data) f p q * Np.bget (arrOf sc c.data) f p q = _
    congr 1
    have hd : (arrOf sc c.data).v (Np.bidx sc.C f) (Np.bidx sc.H p) (Np.bidx sc.W q)
        = Np.bget (arrOf sk k.data) (Np.bidx sc.C f) (Np.bidx sc.H p) (Np.bidx sc.W q) := by
      rw [hcd]
      exact arrOf_tensor3 sc _ (bidx_lt_right b1.1 hf) (bidx_lt_right b2.1 hp) (bidx_lt_right b3.1 hq)
    show (arrOf sc c.data).v (Np.bidx sc.C f) (Np.bidx sc.H p) (Np.bidx sc.W q) = _
    rw [hd]
    have bb : ∀ {c k f : Nat}, (c = 1 → k = 1) → Np.bidx k (Np.bidx c f) = Np.bidx k f := by
      intro c k f h
      unfold Np.bidx
      split
      · rfl
      · split
        · rename_i h1 h2; exact absurd (h h2) h1
        · rfl
    show (arrOf sk k.data).v (Np.bidx sk.C (Np.bidx sc.C f)) (Np.bidx sk.H (Np.bidx sc.H p)) (Np.bidx sk.W (Np.bidx sc.W q)) = _
    rw [bb b1.2.1, bb b2.2.1, bb b3.2.1]
    rfl
  · have hex : ¬ ∀ v ∈ c.data, v ≠ 1 := by
      intro hall
      have hlen : 0 < k.data.length := List.length_pos_of_ne_nil hne
      rw [okk, shapeOf_size hk] at hlen
      rw [shapeOf_size h0] at hp
      have p1 : 0 < sk.C ∧ 0 < sk.H ∧ 0 < sk.W := by
        unfold Shape.size at hlen
        refine ⟨?_, ?_, ?_⟩ <;> (apply Nat.pos_of_ne_zero; intro h; simp [h] at hlen)
      have p0 : 0 < s0.C ∧ 0 < s0.H ∧ 0 < s0.W := by
        unfold Shape.size at hp
        refine ⟨?_, ?_, ?_⟩ <;> (apply Nat.pos_of_ne_zero; intro h; simp [h] at hp)
      have pos : ∀ {a b c : Nat}, 0 < a → 0 < b → Np.bdim a b = some c → 0 < c := by
        intro a b c h1 h2 h
        unfold Np.bdim at h
        split at h
        · simp_all
        · split at h
          · simp_all
          · split at h <;> simp_all
      have q1 := pos p0.1 p1.1 c1
      have q2 := pos p0.2.1 p1.2.1 c2
      have q3 := pos p0.2.2 p1.2.2 c3
      refine hall (Np.bget (arrOf sk k.data) 0 0 0) ?_ ?_
      · rw [hcd]
        simp only [tensor3, List.mem_flatMap, List.mem_map, List.mem_range]
        exact ⟨0, q1, 0, q2, 0, q3, rfl⟩
      · exact hv _ (bget_mem hk okk (bidx_lt_right c1 q1) (bidx_lt_right c2 q2) (bidx_lt_right c3 q3))
    rw [if_neg hex] at hm
    simp only [Option.some.injEq] at hm
    subst hm
    refine ⟨rfl, ?_⟩
    obtain ⟨z, hz, hf⟩ := binop_neutral (· * ·) (1 : ℝ) (fun v => mul_one v) (arrOf sa a.data)
    refine ⟨_, by simp [Op.forward, hr, broadcastForward, hz]; rfl, ?_⟩
    rw [hs] at hsy; cases hsy
    rw [hyd]
    show z.flat = _
    rw [hf]
    simp only [Arr.flat]
    apply tensor3_congr
    intro f p q hf hp hq
    rw [hv _ (bget_mem hk okk (bidx_lt_right y1 hf) (bidx_lt_right y2 hp) (bidx_lt_right y3 hq)), mul_one]
    have h1 : ∀ {d k : Nat}, k < d → Np.bidx d k = k := by
      intro d k hk; unfold Np.bidx; split
      · omega
      · rfl
    show _ = (arrOf sa a.data).v (Np.bidx sa.C f) (Np.bidx sa.H p) (Np.bidx sa.W q)
    rw [h1 (show f < sa.C from hf), h1 (show p < sa.H from hp), h1 (show q < sa.W from hq)]

theorem bdim_comm (a b : Nat) : bdim a b = bdim b a := by
  unfold bdim
  split
  · simp_all
  · split
    · split <;> simp_all
    · split
      · simp_all
      · split <;> simp_all [eq_comm]

theorem bdims_comm (a b : List Nat) : bdims a b = bdims b a := by
  induction a generalizing b with
  | nil => cases b <;> rfl
  | cons x a ih =>
    cases b with
    | nil => rfl
    | cons y b => simp only [bdims, bdim_comm x y, ih b]

theorem bcast_mul_comm (a b : Nd ℝ) : bcast (· * ·) a b = bcast (· * ·) b a := by
  have : bshape a.dims b.dims = bshape b.dims a.dims := by
    simp only [bshape, bdims_comm, Nat.max_comm]
  simp only [bcast, this, mul_comm]

/-- what the importer knows of an initializer: it is not declared, or declared with its own dimensions -/
def Declared (m : Model) : Prop := ∀ s i, m.init? s = some i → m.rawShape s = [] ∨ m.rawShape s = i.dims

theorem init_dims {i : Init} {t : Nd ℝ} (h : i.array = some t) : i.dims = t.dims := by
  unfold Init.array at h
  split at h
  · cases h; rfl
  · simp at h

theorem prod_extend (d : List Nat) : prod (extend4 d) = prod d := by
  unfold extend4
  split
  · simp_all
  · exact prod_padTo 4 d

theorem shapeOf_extend {d : List Nat} : shapeOf (extend4 d) = shapeOf d := by
  unfold extend4
  split
  · simp_all
  · rename_i h
    unfold shapeOf pad4 padTo
    congr 1
    simp only [List.length_append, List.length_replicate]
    rw [show 4 - (4 - d.length + d.length) = 0 by omega]
    rfl

/-- Mul of a computed tensor and an initializer, on either side -/
theorem correct_mul_init {M : CMath ℝ} {m : Model} {dyn : String → Prop} {E : Spec.Env} (hk : Known m dyn E) (hdec : Declared m)
    {n : Node} {made : Made} (h : createBin m n .mul (· * ·) 1 = some made) {x₁ x₂ xa xk : String} {a k y : Nd ℝ} (hin : n.inputs = [x₁, x₂])
    (hxs : (x₁ = xa ∧ x₂ = xk) ∨ (x₁ = xk ∧ x₂ = xa)) (hda : m.init? xa = none ∧ dyn xa) (hdk : (m.init? xk).isSome)
    (hEa : E xa = some a) (hEk : E xk = some k) (hskx : ∃ sk, shapeOf k.dims = some sk) (hy : bcast (· * ·) a k = some y)
    (hv : (∀ v ∈ k.data, v ≠ 1) ∨ (k.data ≠ [] ∧ (∀ v ∈ k.data, v = 1) ∧ shapeOf y.dims = shapeOf a.dims)) :
    Correct M E made.1 made.2 y := by
  obtain ⟨i, hi⟩ := Option.isSome_iff_exists.mp hdk
  obtain ⟨k', hk1, hk2⟩ := hk.init _ _ hi
  rw [hEk] at hk2; cases hk2
  have hra := hk.decl _ _ hda.2 hEa
  have oka := hk.ok _ _ hEa
  have okk := hk.ok _ _ hEk
  simp only [createBin, Option.bind_eq_bind, Option.bind_eq_some_iff] at h
  obtain ⟨x, hx, o, _, os, _, ⟨c, names⟩, hcn, ss, hss, hm⟩ := h
  -- the tensor whose shape is that of the initial constant
  have hx' : x = xa ∨ x = xk := by
    simp only [Node.input?, hin, List.getElem?_cons_zero, Option.some.injEq] at hx
    rcases hxs with ⟨h1, _⟩ | ⟨h1, _⟩ <;> simp [← hx, h1]
  have hfold : bcast (· * ·) (mk (m.shape x) fun _ => 1) k = some c ∧ names = [xa] := by
    rcases hxs with ⟨rfl, rfl⟩ | ⟨rfl, rfl⟩ <;>
      simp [hin, foldInit, hda.1, hi, hk1, Option.bind_eq_some_iff] at hcn <;> exact ⟨hcn.1, hcn.2.symm⟩
  obtain ⟨hc, rfl⟩ := hfold
  simp only [List.mapM_cons, List.mapM_nil, Option.bind_eq_bind, Option.bind_eq_some_iff, Option.pure_def, Option.some.injEq] at hss
  obtain ⟨sa, hsa, _, rfl, rfl⟩ := hss
  simp only [Model.shape, hra] at hsa
  obtain ⟨hd0, hsa⟩ := shape_of_known hsa
  obtain ⟨sk, hsk⟩ := hskx
  have h0 : (∃ s0, shapeOf (m.shape x) = some s0 ∧ (s0 = sa ∨ s0 = ⟨1, 1, 1⟩ ∨ s0 = sk)) := by
    simp only [Model.shape, shapeOf_extend]
    rcases hx' with rfl | rfl
    · exact ⟨sa, by rw [hra]; exact hsa, .inl rfl⟩
    · rcases hdec _ _ hi with hr | hr
      · exact ⟨⟨1, 1, 1⟩, by rw [hr]; rfl, .inr (.inl rfl)⟩
      · exact ⟨sk, by rw [hr, init_dims hk1]; exact hsk, .inr (.inr rfl)⟩
  obtain ⟨s0, h0, hs0⟩ := h0
  have hv' : (∀ v ∈ k.data, v ≠ 1) ∨ (k.data ≠ [] ∧ 0 < prod (m.shape x) ∧ (∀ v ∈ k.data, v = 1) ∧ shapeOf y.dims = some sa) := by
    rcases hv with hv | ⟨v1, v2, v3⟩
    · exact .inl hv
    · exact .inr ⟨v1, shape_prod_pos m x, v2, by rw [v3, hsa]⟩
  have key := fun (i : Nd ℝ) (hi : i.data = a.data) =>
    broadcast_mul_const (M := M) (made := made) (names := [xa]) os h0 hsa hsk oka okk hs0 hc hy hi hv' hm
  have hn := (key a rfl).1
  refine ⟨by simp [hn], fun ins hins => ?_⟩
  rw [hn] at hins
  obtain ⟨i, t, rfl, hE, hd⟩ := forall2_one hins
  rw [hEa] at hE; cases hE
  exact (key i hd).2

end Verif.Onnx

import Verif.Layers.Broadcast
import Mathlib.Algebra.Order.Ring.Rat
import Mathlib.Algebra.Field.Rat

/-!
# C14: element-wise layers with broadcasting
-/

namespace Verif.Layers
open Prog
variable {α : Type}

/-! ## Specification -/

/-- The value the layer must have at `(f, i, j)`: the operands (each broadcast to the output shape)
are combined from left to right; the average divides their sum by their number; a constant operand
of Subtract, Multiply, Divide comes last. -/
def broadcastSpec [Field α] [LinearOrder α] (op : BOp) (act : α → α) (cst : Option (Arr α))
    (x : Arr α) (xs : List (Arr α)) (f i j : Nat) : α :=
  let s := xs.foldl (fun s y => op.fn s (Np.bget y f i j)) (Np.bget x f i j)
  act (match op, cst with
    | .avg, _ => s / ((xs.length + 1 : Nat) : α)
    | .sub, some c => s - Np.bget c f i j
    | .mul, some c => s * Np.bget c f i j
    | .div, some c => s / Np.bget c f i j
    | _, _ => s)

/-- array `o` of the memory holds the tensor `x` -/
def Feeds (m : Mem α) (o : Operand) (x : Arr α) : Prop :=
  o.buf ≠ .temp ∧ o.C = x.C ∧ o.H = x.H ∧ o.W = x.W ∧ Holds m o.buf x.flat

/-! ## Generated code -/

theorem mod_bidx {d D i : Nat} (h : d = 1 ∨ d = D) (hi : i < D) : i % d = Np.bidx d i := by
  unfold Np.bidx
  rcases h with h | h
  · subst h; simp; omega
  · subst h; rw [Nat.mod_eq_of_lt hi]; split <;> omega

theorem bidx_lt {d D i : Nat} (h : d = 1 ∨ d = D) (hi : i < D) : Np.bidx d i < d := by
  unfold Np.bidx; split <;> omega

theorem read_evals {m : Mem α} {o : Operand} {x : Arr α} {C H W f i j : Nat} (hx : Feeds m o x)
    (hfit : fits C H W x) (hf : f < C) (hi : i < H) (hj : j < W) :
    Evals .temp m (o.read f i j) (Np.bget x f i j) := by
  obtain ⟨h1, h2, h3, h4, h5⟩ := hx
  unfold Operand.read Np.bget
  rw [h2, h3, h4, mod_bidx hfit.1 hf, mod_bidx hfit.2.1 hi, mod_bidx hfit.2.2 hj]
  exact Evals.load3 h1 h5 (bidx_lt hfit.1 hf) (bidx_lt hfit.2.1 hi) (bidx_lt hfit.2.2 hj) rfl

theorem chain_evals {m : Mem α} (op : α → α → α) {C H W f i j : Nat} (hf : f < C) (hi : i < H)
    (hj : j < W) {os : List Operand} {xs : List (Arr α)} (h : List.Forall₂ (Feeds m) os xs)
    (hfit : ∀ x ∈ xs, fits C H W x) (a : α) :
    Evals .temp m (chain op f i j os a) (xs.foldl (fun s y => op s (Np.bget y f i j)) a) := by
  induction h generalizing a with
  | nil => exact Evals.pure _ _ _
  | cons h1 h2 ih =>
    exact (read_evals h1 (hfit _ (by simp)) hf hi hj).bind (ih (fun x hx => hfit x (by simp [hx])) _)

theorem chainTemp_run {m : Mem α} (op : α → α → α) {C H W f i j : Nat} (hf : f < C) (hi : i < H)
    (hj : j < W) (hadr : at3 H W f i j < m.size .temp)
    {os : List Operand} {xs : List (Arr α)} (h : List.Forall₂ (Feeds m) os xs)
    (hfit : ∀ x ∈ xs, fits C H W x) (u : Nat → Option α) (a : α) :
    chainTemp op H W f i j os (m.upd .temp (overW u (single (at3 H W f i j) a)))
      = some ((), m.upd .temp (overW u (single (at3 H W f i j)
          (xs.foldl (fun s y => op s (Np.bget y f i j)) a)))) := by
  induction h generalizing a with
  | nil => rfl
  | cons h1 h2 ih =>
    refine (andThen_run (load_cell hadr)).trans ?_
    refine (andThen_run (read_evals h1 (hfit _ (by simp)) hf hi hj _)).trans ?_
    refine (andThen_run (store_cell hadr)).trans ?_
    exact ih (fun x hx => hfit x (by simp [hx])) _

theorem chainTemp_stores {m : Mem α} (op : α → α → α) {C H W f i j : Nat} (hf : f < C) (hi : i < H)
    (hj : j < W) (hadr : at3 H W f i j < m.size .temp) {o : Operand} {x : Arr α}
    (hx : Feeds m o x) (hxf : fits C H W x)
    {os : List Operand} {xs : List (Arr α)} (h : List.Forall₂ (Feeds m) os xs)
    (hfit : ∀ x ∈ xs, fits C H W x) :
    Stores .temp m (do
      let x ← o.read f i j
      store .temp (at3 H W f i j : Int) x
      chainTemp op H W f i j os) (at3 H W f i j)
      (xs.foldl (fun s y => op s (Np.bget y f i j)) (Np.bget x f i j)) := by
  refine Stores.bind (read_evals hx hxf hf hi hj) fun u => ?_
  refine (andThen_run (store_upd hadr)).trans ?_
  rw [Mem.upd_upd, Mem.upd_upd]
  exact chainTemp_run op hf hi hj hadr h hfit u _

/-- **C14, generated code.** For every operator, number of operands, broadcastable family of shapes
and memory, the generated code leaves the broadcast element-wise result in the output array. -/
theorem C14_broadcast_code [Field α] [LinearOrder α] (op : BOp) (C H W size road : Nat) (act : α → α)
    (o : Operand) (os : List Operand) (co : Option Operand)
    (x : Arr α) (xs : List (Arr α)) (cst : Option (Arr α)) (m : Mem α)
    (hsize : size = C * H * W)
    (hx : Feeds m o x) (hxs : List.Forall₂ (Feeds m) os xs)
    (hc : Option.Rel (Feeds m) co cst) (hadd : op = .add → cst = none)
    (hfit : ∀ y ∈ x :: xs, fits C H W y) (hcfit : ∀ c ∈ cst, fits C H W c)
    (ht : size ≤ m.size .temp) (ho : size ≤ m.size (.out road)) :
    Computes (broadcastCode op C H W size act (o :: os) co road) m (.out road)
      (tensor3 C H W (broadcastSpec op act cst x xs)) := by
  refine kernel3 (h := act) hsize ht ho fun f i j hf hi hj hadr => ?_
  have hx' := hfit x (by simp)
  have hxs' : ∀ y ∈ xs, fits C H W y := fun y hy => hfit y (by simp [hy])
  have hread := read_evals hx hx' hf hi hj
  have hchain := fun a => chain_evals (op.fn (α := α)) hf hi hj hxs hxs' a
  have hlen : os.length = xs.length := hxs.length_eq
  cases op
  case max => exact chainTemp_stores _ hf hi hj hadr hx hx' hxs hxs'
  case min => exact chainTemp_stores _ hf hi hj hadr hx hx' hxs hxs'
  case avg =>
    refine Stores.bind hread (Stores.bind (hchain _) (Stores.store rfl hadr ?_))
    rw [hlen]
  case add =>
    have h0 := hadd rfl; subst h0
    cases hc
    exact Stores.bind hread (Stores.bind (hchain _) (Stores.store rfl hadr rfl))
  case sub =>
    cases hc with
    | none => exact Stores.bind hread (Stores.bind (hchain _) (Stores.store rfl hadr rfl))
    | some hc =>
      exact Stores.bind hread (Stores.bind (hchain _) (Stores.bind
        (read_evals hc (hcfit _ rfl) hf hi hj) (Stores.store rfl hadr rfl)))
  case mul =>
    cases hc with
    | none => exact Stores.bind hread (Stores.bind (hchain _) (Stores.store rfl hadr rfl))
    | some hc =>
      exact Stores.bind hread (Stores.bind (hchain _) (Stores.bind
        (read_evals hc (hcfit _ rfl) hf hi hj) (Stores.store rfl hadr rfl)))
  case div =>
    cases hc with
    | none => exact Stores.bind hread (Stores.bind (hchain _) (Stores.store rfl hadr rfl))
    | some hc =>
      exact Stores.bind hread (Stores.bind (hchain _) (Stores.bind
        (read_evals hc (hcfit _ rfl) hf hi hj) (Stores.store rfl hadr rfl)))

/-! ## Python reference -/

theorem bdim_fits {a b C : Nat} (ha : a = 1 ∨ a = C) (hb : b = 1 ∨ b = C) :
    ∃ c, Np.bdim a b = some c ∧ (c = 1 ∨ c = C) ∧ (a = C ∨ b = C → c = C) ∧
      (∀ i, Np.bidx a (Np.bidx c i) = Np.bidx a i) ∧ ∀ i, Np.bidx b (Np.bidx c i) = Np.bidx b i := by
  unfold Np.bdim Np.bidx
  by_cases h1 : a = b
  · subst h1; refine ⟨a, by simp, ha, by simp, ?_, ?_⟩ <;> intro i <;> by_cases h : a = 1 <;> simp [h]
  · by_cases h2 : a = 1
    · subst h2
      have : b = C := by omega
      subst this
      refine ⟨b, by simp [h1], by simp, by simp, ?_, ?_⟩ <;> intro i <;> simp <;>
        (by_cases h : b = 1 <;> simp [h])
    · have : b = 1 := by omega
      subst this
      have : a = C := by omega
      subst this
      refine ⟨a, by simp [h1], by simp, by simp, ?_, ?_⟩ <;> intro i <;> simp [h2]

/-- numpy's binary operation on operands that fit the output shape -/
theorem binop_fits (op : α → α → α) {C H W : Nat} {x y : Arr α} (hx : fits C H W x) (hy : fits C H W y) :
    ∃ z, Np.binop op x y = some z ∧ fits C H W z ∧
      (x.C = C ∨ y.C = C → z.C = C) ∧ (x.H = H ∨ y.H = H → z.H = H) ∧ (x.W = W ∨ y.W = W → z.W = W) ∧
      ∀ f i j, Np.bget z f i j = op (Np.bget x f i j) (Np.bget y f i j) := by
  obtain ⟨c, e1, d1, a1, i1, i1'⟩ := bdim_fits hx.1 hy.1
  obtain ⟨h, e2, d2, a2, i2, i2'⟩ := bdim_fits hx.2.1 hy.2.1
  obtain ⟨w, e3, d3, a3, i3, i3'⟩ := bdim_fits hx.2.2 hy.2.2
  refine ⟨⟨c, h, w, fun f i j => op (Np.bget x f i j) (Np.bget y f i j)⟩,
    by simp only [Np.binop, e1, e2, e3], ⟨d1, d2, d3⟩, a1, a2, a3, ?_⟩
  intro f i j
  simp only [Np.bget, i1, i2, i3, i1', i2', i3']

theorem inplace_binop {op : α → α → α} {x y z : Arr α} (h : Np.inplace op x y = some z) :
    Np.binop op x y = some z := by
  unfold Np.inplace at h
  split at h
  · split at h <;> simp_all
  · simp at h

theorem foldlM_inplace {op : α → α → α} {xs : List (Arr α)} {x z : Arr α}
    (h : xs.foldlM (Np.inplace op) x = some z) : xs.foldlM (Np.binop op) x = some z := by
  induction xs generalizing x with
  | nil => exact h
  | cons y ys ih =>
    simp only [List.foldlM_cons, Option.bind_eq_bind, Option.bind_eq_some_iff] at h ⊢
    obtain ⟨r, h1, h2⟩ := h
    exact ⟨r, inplace_binop h1, ih h2⟩

/-- a chain of numpy operations on operands that fit -/
theorem foldlM_binop (op : α → α → α) {C H W : Nat} (xs : List (Arr α)) {x : Arr α}
    (hx : fits C H W x) (hxs : ∀ y ∈ xs, fits C H W y) :
    ∃ z, xs.foldlM (Np.binop op) x = some z ∧ fits C H W z ∧
      ((∃ y ∈ x :: xs, y.C = C) → z.C = C) ∧ ((∃ y ∈ x :: xs, y.H = H) → z.H = H) ∧
      ((∃ y ∈ x :: xs, y.W = W) → z.W = W) ∧
      ∀ f i j, Np.bget z f i j = xs.foldl (fun s y => op s (Np.bget y f i j)) (Np.bget x f i j) := by
  induction xs generalizing x with
  | nil => exact ⟨x, rfl, hx, by simp, by simp, by simp, fun _ _ _ => rfl⟩
  | cons y ys ih =>
    obtain ⟨r, e, hr, r1, r2, r3, hv⟩ := binop_fits op hx (hxs y (by simp))
    obtain ⟨z, e', hz, z1, z2, z3, hv'⟩ := ih hr (fun y hy => hxs y (by simp [hy]))
    simp only [List.mem_cons, exists_eq_or_imp] at z1 z2 z3 ⊢
    refine ⟨z, by simp [List.foldlM_cons, e, e'], hz, ?_, ?_, ?_, ?_⟩
    · rintro (h | h | h)
      · exact z1 (Or.inl (r1 (Or.inl h)))
      · exact z1 (Or.inl (r1 (Or.inr h)))
      · exact z1 (Or.inr h)
    · rintro (h | h | h)
      · exact z2 (Or.inl (r2 (Or.inl h)))
      · exact z2 (Or.inl (r2 (Or.inr h)))
      · exact z2 (Or.inr h)
    · rintro (h | h | h)
      · exact z3 (Or.inl (r3 (Or.inl h)))
      · exact z3 (Or.inl (r3 (Or.inr h)))
      · exact z3 (Or.inr h)
    · intro f i j; rw [hv', hv]; rfl

/-- elements of an array that has the full output shape are its own broadcast -/
theorem bget_full {x : Arr α} {f i j : Nat} (hf : f < x.C) (hi : i < x.H) (hj : j < x.W) :
    Np.bget x f i j = x.v f i j := by
  have : ∀ {d i : Nat}, i < d → Np.bidx d i = i := by
    intro d i h; unfold Np.bidx; split <;> omega
  simp only [Np.bget, this hf, this hi, this hj]

/-- **C14, reference.** Whenever the Python reference returns an array (numpy raises when the first
operand of an in-place operation is smaller than the result), it has the output shape and the
specified elements. -/
theorem C14_broadcast_forward [Field α] [LinearOrder α] (op : BOp) (act : α → α) (C H W : Nat)
    (x : Arr α) (xs : List (Arr α)) (cst : Option (Arr α)) (r : Arr α)
    (hop : (op = .add ∨ op = .max ∨ op = .min ∨ op = .avg) → cst = none)
    (hfit : ∀ y ∈ x :: xs, fits C H W y) (hcfit : ∀ c ∈ cst, fits C H W c)
    (hatt : attains C H W ((x :: xs) ++ cst.toList))
    (h : broadcastForward op act cst (x :: xs) = some r) :
    r.C = C ∧ r.H = H ∧ r.W = W ∧ r.flat = tensor3 C H W (broadcastSpec op act cst x xs) := by
  have hx' := hfit x (by simp)
  have hxs' : ∀ y ∈ xs, fits C H W y := fun y hy => hfit y (by simp [hy])
  -- the chain of operations on the producers
  have hch : ∀ (o : α → α → α) (z : Arr α), xs.foldlM (Np.binop o) x = some z →
      fits C H W z ∧ ((∃ y ∈ x :: xs, y.C = C) → z.C = C) ∧ ((∃ y ∈ x :: xs, y.H = H) → z.H = H) ∧
      ((∃ y ∈ x :: xs, y.W = W) → z.W = W) ∧
      ∀ f i j, Np.bget z f i j = xs.foldl (fun s y => o s (Np.bget y f i j)) (Np.bget x f i j) := by
    intro o z hz
    obtain ⟨z', e, h1⟩ := foldlM_binop o xs hx' hxs'
    rw [hz] at e; cases e; exact h1
  -- operators without constant
  have fin : ∀ (z : Arr α) (k : α → α), z.C = C → z.H = H → z.W = W →
      (∀ f i j, f < C → i < H → j < W → k (Np.bget z f i j) = broadcastSpec op act cst x xs f i j) →
      (z.map k).C = C ∧ (z.map k).H = H ∧ (z.map k).W = W ∧
        (z.map k).flat = tensor3 C H W (broadcastSpec op act cst x xs) := by
    intro z k h1 h2 h3 hv
    subst h1 h2 h3
    refine ⟨rfl, rfl, rfl, ?_⟩
    unfold Arr.flat
    apply tensor3_congr
    intro f i j hf hi hj
    rw [← hv f i j hf hi hj, bget_full (x := z) hf hi hj]
    rfl
  -- operators with (possibly neutral) constant
  have fin2 : ∀ (o : α → α → α) (e : α) (z z' : Arr α), xs.foldlM (Np.inplace o) x = some z →
      (∀ a, o a e = a) →
      Np.binop o z (cst.getD ⟨1, 1, 1, fun _ _ _ => e⟩) = some z' →
      (∀ f i j, f < C → i < H → j < W →
        act (match cst with
          | none => xs.foldl (fun s y => o s (Np.bget y f i j)) (Np.bget x f i j)
          | some c => o (xs.foldl (fun s y => o s (Np.bget y f i j)) (Np.bget x f i j)) (Np.bget c f i j))
        = broadcastSpec op act cst x xs f i j) →
      (z'.map act).C = C ∧ (z'.map act).H = H ∧ (z'.map act).W = W ∧
        (z'.map act).flat = tensor3 C H W (broadcastSpec op act cst x xs) := by
    intro o e z z' hz he hz' hv
    obtain ⟨hzf, d1, d2, d3, hzv⟩ := hch o z (foldlM_inplace hz)
    have hcf : fits C H W (cst.getD ⟨1, 1, 1, fun _ _ _ => e⟩) := by
      cases cst with
      | none => exact ⟨Or.inl rfl, Or.inl rfl, Or.inl rfl⟩
      | some c => exact hcfit c rfl
    obtain ⟨z'', e2, _, c1, c2, c3, hv2⟩ := binop_fits o hzf hcf
    rw [hz'] at e2; cases e2
    have hmem : ∀ (P : Arr α → Prop), (∃ y ∈ (x :: xs) ++ cst.toList, P y) →
        (∃ y ∈ x :: xs, P y) ∨ ∃ c, cst = some c ∧ P c := by
      rintro P ⟨y, hy, hP⟩
      rcases List.mem_append.1 hy with hy | hy
      · exact Or.inl ⟨y, hy, hP⟩
      · exact Or.inr ⟨y, by simpa [eq_comm] using hy, hP⟩
    refine fin z' act ?_ ?_ ?_ ?_
    · rcases hmem _ hatt.1 with h | ⟨c, rfl, hh⟩
      · exact c1 (Or.inl (d1 h))
      · exact c1 (Or.inr hh)
    · rcases hmem _ hatt.2.1 with h | ⟨c, rfl, hh⟩
      · exact c2 (Or.inl (d2 h))
      · exact c2 (Or.inr hh)
    · rcases hmem _ hatt.2.2 with h | ⟨c, rfl, hh⟩
      · exact c3 (Or.inl (d3 h))
      · exact c3 (Or.inr hh)
    · intro f i j hf hi hj
      rw [← hv f i j hf hi hj, hv2, hzv]
      cases cst with
      | none => simp [Np.bget, he]
      | some c => rfl
  simp only [broadcastForward, Option.map_eq_some_iff] at h
  obtain ⟨z, hz, rfl⟩ := h
  cases op <;> simp only at hz
  case max =>
    have hc := hop (by simp); subst hc
    simp only [Option.toList_none, List.append_nil] at hatt
    obtain ⟨_, d1, d2, d3, hv⟩ := hch _ z hz
    exact fin z act (d1 hatt.1) (d2 hatt.2.1) (d3 hatt.2.2) (fun f i j _ _ _ => by rw [hv]; rfl)
  case min =>
    have hc := hop (by simp); subst hc
    simp only [Option.toList_none, List.append_nil] at hatt
    obtain ⟨_, d1, d2, d3, hv⟩ := hch _ z hz
    exact fin z act (d1 hatt.1) (d2 hatt.2.1) (d3 hatt.2.2) (fun f i j _ _ _ => by rw [hv]; rfl)
  case add =>
    have hc := hop (by simp); subst hc
    simp only [Option.toList_none, List.append_nil] at hatt
    obtain ⟨_, d1, d2, d3, hv⟩ := hch _ z (foldlM_inplace hz)
    exact fin z act (d1 hatt.1) (d2 hatt.2.1) (d3 hatt.2.2) (fun f i j _ _ _ => by rw [hv]; rfl)
  case avg =>
    have hc := hop (by simp); subst hc
    simp only [Option.toList_none, List.append_nil] at hatt
    rw [Option.map_eq_some_iff] at hz
    obtain ⟨z, hz, rfl⟩ := hz
    obtain ⟨_, d1, d2, d3, hv⟩ := hch _ z (foldlM_inplace hz)
    have := fin z (fun s => act (s / ((xs.length + 1 : Nat) : α)))
      (d1 hatt.1) (d2 hatt.2.1) (d3 hatt.2.2) (fun f i j _ _ _ => by rw [hv]; rfl)
    exact this
  case sub =>
    simp only [Option.bind_eq_bind, Option.bind_eq_some_iff] at hz
    obtain ⟨z0, h1, h2⟩ := hz
    refine fin2 _ 0 z0 z h1 (by simp) h2 (fun f i j _ _ _ => ?_)
    cases cst <;> rfl
  case mul =>
    simp only [Option.bind_eq_bind, Option.bind_eq_some_iff] at hz
    obtain ⟨z0, h1, h2⟩ := hz
    refine fin2 _ 1 z0 z h1 (by simp) h2 (fun f i j _ _ _ => ?_)
    cases cst <;> rfl
  case div =>
    simp only [Option.bind_eq_bind, Option.bind_eq_some_iff] at hz
    obtain ⟨z0, h1, h2⟩ := hz
    refine fin2 _ 1 z0 z h1 (by simp) h2 (fun f i j _ _ _ => ?_)
    cases cst <;> rfl

/-- The in-place reference does return when the first operand already has the output shape (and
Maximum/Minimum always do, see `foldlM_binop`). -/
theorem C14_forward_defined [Field α] [LinearOrder α] (op : BOp) (act : α → α) (C H W : Nat)
    (x : Arr α) (xs : List (Arr α)) (cst : Option (Arr α))
    (hfull : (op ≠ .max ∧ op ≠ .min) → x.C = C ∧ x.H = H ∧ x.W = W)
    (hfit : ∀ y ∈ x :: xs, fits C H W y) (hcfit : ∀ c ∈ cst, fits C H W c) :
    ∃ r, broadcastForward op act cst (x :: xs) = some r := by
  have hx' := hfit x (by simp)
  have hxs' : ∀ y ∈ xs, fits C H W y := fun y hy => hfit y (by simp [hy])
  have hin : ∀ (o : α → α → α) (ys : List (Arr α)) (w : Arr α), w.C = C → w.H = H → w.W = W →
      (∀ y ∈ ys, fits C H W y) → ∃ z, ys.foldlM (Np.inplace o) w = some z ∧ fits C H W z := by
    intro o ys
    induction ys with
    | nil => intro w h1 h2 h3 _; exact ⟨w, rfl, Or.inr h1, Or.inr h2, Or.inr h3⟩
    | cons y ys ih =>
      intro w h1 h2 h3 hys
      obtain ⟨z, e, _, c1, c2, c3, _⟩ := binop_fits o (x := w)
        ⟨Or.inr h1, Or.inr h2, Or.inr h3⟩ (hys y (by simp))
      have e' : Np.inplace o w y = some z := by
        unfold Np.inplace; rw [e]
        simp [c1 (Or.inl h1), c2 (Or.inl h2), c3 (Or.inl h3), h1, h2, h3]
      obtain ⟨z', e2, h⟩ := ih z (c1 (Or.inl h1)) (c2 (Or.inl h2)) (c3 (Or.inl h3))
        (fun y hy => hys y (by simp [hy]))
      exact ⟨z', by simp [List.foldlM_cons, e', e2], h⟩
  have hcst : ∀ e : α, fits C H W (cst.getD ⟨1, 1, 1, fun _ _ _ => e⟩) := by
    intro e
    cases cst with
    | none => exact ⟨Or.inl rfl, Or.inl rfl, Or.inl rfl⟩
    | some c => exact hcfit c rfl
  cases op
  case max => obtain ⟨z, e, _⟩ := foldlM_binop max xs hx' hxs'; exact ⟨_, by simp [broadcastForward, e]; rfl⟩
  case min => obtain ⟨z, e, _⟩ := foldlM_binop min xs hx' hxs'; exact ⟨_, by simp [broadcastForward, e]; rfl⟩
  case add =>
    obtain ⟨h1, h2, h3⟩ := hfull (by simp)
    obtain ⟨z, e, _⟩ := hin (· + ·) xs x h1 h2 h3 hxs'; exact ⟨_, by simp [broadcastForward, e]; rfl⟩
  case avg =>
    obtain ⟨h1, h2, h3⟩ := hfull (by simp)
    obtain ⟨z, e, _⟩ := hin (· + ·) xs x h1 h2 h3 hxs'; exact ⟨_, by simp [broadcastForward, e]; rfl⟩
  case sub =>
    obtain ⟨h1, h2, h3⟩ := hfull (by simp)
    obtain ⟨z, e, hz⟩ := hin (· - ·) xs x h1 h2 h3 hxs'
    obtain ⟨z', e', _⟩ := binop_fits (· - ·) hz (hcst 0)
    exact ⟨_, by simp [broadcastForward, e, e']; rfl⟩
  case mul =>
    obtain ⟨h1, h2, h3⟩ := hfull (by simp)
    obtain ⟨z, e, hz⟩ := hin (· * ·) xs x h1 h2 h3 hxs'
    obtain ⟨z', e', _⟩ := binop_fits (· * ·) hz (hcst 1)
    exact ⟨_, by simp [broadcastForward, e, e']; rfl⟩
  case div =>
    obtain ⟨h1, h2, h3⟩ := hfull (by simp)
    obtain ⟨z, e, hz⟩ := hin (· / ·) xs x h1 h2 h3 hxs'
    obtain ⟨z', e', _⟩ := binop_fits (· / ·) hz (hcst 1)
    exact ⟨_, by simp [broadcastForward, e, e']; rfl⟩

/-- **C14.** Whenever the reference returns, the generated code leaves the reference's array in the
output array. -/
theorem C14_broadcast [Field α] [LinearOrder α] (op : BOp) (C H W size road : Nat) (act : α → α)
    (o : Operand) (os : List Operand) (co : Option Operand)
    (x : Arr α) (xs : List (Arr α)) (cst : Option (Arr α)) (m : Mem α) (r : Arr α)
    (hsize : size = C * H * W)
    (hx : Feeds m o x) (hxs : List.Forall₂ (Feeds m) os xs)
    (hc : Option.Rel (Feeds m) co cst)
    (hop : (op = .add ∨ op = .max ∨ op = .min ∨ op = .avg) → cst = none)
    (hfit : ∀ y ∈ x :: xs, fits C H W y) (hcfit : ∀ c ∈ cst, fits C H W c)
    (hatt : attains C H W ((x :: xs) ++ cst.toList))
    (ht : size ≤ m.size .temp) (ho : size ≤ m.size (.out road))
    (h : broadcastForward op act cst (x :: xs) = some r) :
    Computes (broadcastCode op C H W size act (o :: os) co road) m (.out road) r.flat := by
  rw [(C14_broadcast_forward op act C H W x xs cst r hop hfit hcfit hatt h).2.2.2]
  exact C14_broadcast_code op C H W size road act o os co x xs cst m hsize hx hxs hc
    (fun h => hop (Or.inl h)) hfit hcfit ht ho

/-- `[1,2] * [10] * constant [3,4]`, the first operand living in the output array. -/
example : Computes (broadcastCode .mul 1 1 2 2 id [⟨.out 0, 1, 1, 2⟩, ⟨.cst 0, 1, 1, 1⟩]
      (some ⟨.par .constant 5, 1, 1, 2⟩) 0)
    ⟨fun _ => 2, fun b a => match b with
      | .out 0 => (a : Rat) + 1 | .cst 0 => 10 | .par .constant 5 => (a : Rat) + 3 | _ => 0⟩ (.out 0)
    [30, 80] := by
  have h := C14_broadcast (α := Rat) .mul 1 1 2 2 0 id ⟨.out 0, 1, 1, 2⟩ [⟨.cst 0, 1, 1, 1⟩]
    (some ⟨.par .constant 5, 1, 1, 2⟩)
    ⟨1, 1, 2, fun _ _ j => (j : Rat) + 1⟩ [⟨1, 1, 1, fun _ _ _ => 10⟩]
    (some ⟨1, 1, 2, fun _ _ j => (j : Rat) + 3⟩)
    ⟨fun _ => 2, fun b a => match b with
      | .out 0 => (a : Rat) + 1 | .cst 0 => 10 | .par .constant 5 => (a : Rat) + 3 | _ => 0⟩ _
    (by rfl) ⟨by simp, rfl, rfl, rfl, ?_⟩ (.cons ⟨by simp, rfl, rfl, rfl, ?_⟩ .nil)
    (.some ⟨by simp, rfl, rfl, rfl, ?_⟩) (by simp) (by simp [fits]) (by simp [fits]) (by simp [attains])
    (by simp) (by simp) rfl
  · refine Eq.mp (congrArg (Computes _ _ _) ?_) h
    simp [Arr.flat, tensor3, Arr.map, Np.bget, Np.bidx, List.range_succ]
    norm_num
  all_goals
    refine holds_tensor3.2 ⟨by simp, ?_⟩
    intro f i j hf hi hj
    have h1 : f = 0 := by simp at hf; exact hf
    have h2 : i = 0 := by simp at hi; exact hi
    subst h1 h2
    simp [at3]

/-- Finding: when the first operand is the small one, the reference raises although the generated
code computes the sum; swapping the operands makes the reference return. -/
theorem C14_forward_raises_small_first :
    (broadcastForward (α := Rat) .add id none [⟨1, 1, 1, fun _ _ _ => 1⟩, ⟨1, 1, 2, fun _ _ _ => 2⟩]).isNone
    ∧ (broadcastForward (α := Rat) .add id none
        [⟨1, 1, 2, fun _ _ _ => 2⟩, ⟨1, 1, 1, fun _ _ _ => 1⟩]).isSome := by
  constructor <;> rfl

end Verif.Layers

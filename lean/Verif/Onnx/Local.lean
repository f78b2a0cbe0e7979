import Verif.Onnx.Spec
import Verif.Onnx.TensorFacts
import Verif.Props.Activations
import Verif.Props.Graph

/-!
# A layer made by the importer against the node it is made for

`Correct`: the layer, given the values of the tensors whose names the importer records, returns the value of the node.
-/

namespace Verif.Onnx
open Net Layers
open scoped Classical

/-- The layer `op` with the inputs `names` returns `y` when the producers hold the values of these tensors; only the
elements count, since arrays of the reference interpreter do not always have the rank of the ONNX tensor. -/
def Correct (M : CMath ℝ) (E : Spec.Env) (op : Op ℝ) (names : List String) (y : Nd ℝ) : Prop :=
  names ≠ [] ∧ ∀ ins : List (Nd ℝ), List.Forall₂ (fun s i => ∃ t, E s = some t ∧ i.data = t.data) names ins →
    ∃ z, op.forward M .first ins = some z ∧ z.data = y.data

/-- What is known of the tensors: initializers have the value of their array; the declared dimensions of the tensors in
`dyn` (the inputs and the outputs of nodes) are those of their values. -/
structure Known (m : Model) (dyn : String → Prop) (E : Spec.Env) : Prop where
  init : ∀ s i, m.init? s = some i → ∃ t, i.array = some t ∧ E s = some t
  decl : ∀ s t, dyn s → E s = some t → m.rawShape s = t.dims
  ok : ∀ s t, E s = some t → t.Ok

theorem forall2_one {E : Spec.Env} {x : String} {ins : List (Nd ℝ)}
    (h : List.Forall₂ (fun s (i : Nd ℝ) => ∃ t, E s = some t ∧ i.data = t.data) [x] ins) :
    ∃ i t, ins = [i] ∧ E x = some t ∧ i.data = t.data := by
  cases h with
  | cons h1 h2 =>
    cases h2
    obtain ⟨t, h1, h3⟩ := h1
    exact ⟨_, t, rfl, h1, h3⟩

theorem reshape3_ok {i t : Nd ℝ} {s : Shape} (hd : i.data = t.data) (hok : t.Ok) (hs : shapeOf t.dims = some s) :
    i.reshape3 s = some (arrOf s t.data) := by
  simp [Nd.reshape3, hd, show t.data.length = s.size by rw [hok, shapeOf_size hs]]

theorem reshape1_ok {i t : Nd ℝ} {n : Nat} (hd : i.data = t.data) (hn : t.data.length = n) :
    i.reshape1 n = some fun a => t.data.getD a 0 := by
  simp [Nd.reshape1, hd, hn]

theorem shape_pad {d : List Nat} (hd : d ≠ []) : extend4 d = pad4 d := by simp [extend4, hd, pad4, padTo]

/-- `get_shape` gives the shape of a tensor with at least one dimension -/
theorem shape_of_known {d : List Nat} {s : Shape} (h : batch1 (extend4 d) = some s) : d ≠ [] ∧ shapeOf d = some s := by
  have hd : d ≠ [] := by rintro rfl; simp [extend4, batch1] at h
  rw [shape_pad hd] at h
  exact ⟨hd, h⟩

/-! ## Activations -/

theorem clipFn_eq (lo hi : Option ℝ) : clipFn lo hi = Spec.clip lo hi := by
  funext z; cases lo <;> cases hi <;> rfl

theorem compute_math (a : Act ℝ) (ha : a.accepted) : a.compute = a.math := funext fun z => C29_reference a ha z

theorem Known.clipBound {m : Model} {dyn : String → Prop} {E : Spec.Env} (hk : Known m dyn E) {s : String} {b : Option ℝ}
    (h : clipBound m s = some b) {a : Option (Nd ℝ)} (ha : (if s = "" then some none else (E s).map some) = some a)
    {c : Option ℝ} (hc : Spec.bound a = some c) : b = c := by
  unfold Onnx.clipBound at h
  split at h
  · rename_i hs
    simp only [hs, if_true, Option.some.injEq] at ha h
    subst ha h
    simpa [Spec.bound] using hc
  · rename_i hs
    simp only [hs, if_false] at ha
    simp only [Option.bind_eq_bind, Option.bind_eq_some_iff] at h
    obtain ⟨i, hi, t, ht, h⟩ := h
    obtain ⟨t', ht', hE⟩ := hk.init s i hi
    rw [ht] at ht'; cases ht'
    rw [hE] at ha
    simp only [Option.map_some, Option.some.injEq] at ha
    subst ha
    unfold Spec.bound at hc
    split at h
    · rename_i v vs _ hd
      simp only [hd, List.head?_cons, Option.map_some] at hc
      split at hc <;> simp_all
    · simp at h

theorem arg1_some {as : List (Option (Nd ℝ))} {f : Nd ℝ → Option (Nd ℝ)} {y : Nd ℝ} (h : Spec.arg1 as f = some y) :
    ∃ x, as = [some x] ∧ f x = some y := by
  unfold Spec.arg1 at h; split at h
  · exact ⟨_, rfl, h⟩
  · simp at h

theorem arg2_some {as : List (Option (Nd ℝ))} {f : Nd ℝ → Nd ℝ → Option (Nd ℝ)} {y : Nd ℝ} (h : Spec.arg2 as f = some y) :
    ∃ a b, as = [some a, some b] ∧ f a b = some y := by
  unfold Spec.arg2 at h; split at h
  · exact ⟨_, _, rfl, h⟩
  · simp at h

theorem arg3_some {as : List (Option (Nd ℝ))} {f : Nd ℝ → Nd ℝ → Option (Nd ℝ) → Option (Nd ℝ)} {y : Nd ℝ} (h : Spec.arg3 as f = some y) :
    ∃ a b c, (as = [some a, some b] ∧ c = none ∨ as = [some a, some b, c]) ∧ f a b c = some y := by
  unfold Spec.arg3 at h; split at h
  · exact ⟨_, _, _, .inl ⟨rfl, rfl⟩, h⟩
  · exact ⟨_, _, _, .inr rfl, h⟩
  · simp at h

/-- the arguments of a node -/
theorem args_get {E : Spec.Env} {n : Node} {as : List (Option (Nd ℝ))} (h : Spec.args E n = some as) {k : Nat} {s : String}
    (hs : n.input? k = some s) : (s = "" ∧ as[k]? = some none) ∨ ∃ t, s ≠ "" ∧ E s = some t ∧ as[k]? = some (some t) := by
  unfold Spec.args at h
  unfold Node.input? at hs
  generalize n.inputs = l at h hs
  induction l generalizing k as with
  | nil => simp at hs
  | cons a l ih =>
    rw [List.mapM_cons] at h
    simp only [Option.bind_eq_bind, Option.bind_eq_some_iff, Option.pure_def, Option.some.injEq] at h
    obtain ⟨b, hb, bs, hbs, rfl⟩ := h
    cases k with
    | succ k => simpa using ih hbs (by simpa using hs)
    | zero =>
      simp only [List.getElem?_cons_zero, Option.some.injEq] at hs ⊢
      subst hs
      by_cases ha : a = ""
      · left; simpa [ha, eq_comm] using hb
      · right
        simp only [ha, if_false, Option.map_eq_some_iff] at hb
        obtain ⟨t, ht, rfl⟩ := hb
        exact ⟨t, ha, ht, rfl⟩

theorem args_length {E : Spec.Env} {n : Node} {as : List (Option (Nd ℝ))} (h : Spec.args E n = some as) :
    as.length = n.inputs.length := by
  unfold Spec.args at h
  generalize n.inputs = l at h
  induction l generalizing as with
  | nil => simp at h; simp [← h]
  | cons a l ih =>
    rw [List.mapM_cons] at h
    simp only [Option.bind_eq_bind, Option.bind_eq_some_iff, Option.pure_def, Option.some.injEq] at h
    obtain ⟨b, _, bs, hbs, rfl⟩ := h
    simp [ih hbs]

theorem correct_activation {M : CMath ℝ} {m : Model} {dyn : String → Prop} {E : Spec.Env} (hk : Known m dyn E) {n : Node} {made : Made}
    (h : createActivation m n = some made) {as : List (Option (Nd ℝ))} (ha : Spec.args E n = some as) {v : Nat} {y : Nd ℝ}
    (hy : Spec.node v n as = some y) : Correct M E made.1 made.2 y := by
  simp only [createActivation, Option.bind_eq_bind, Option.bind_eq_some_iff, Option.some.injEq] at h
  obtain ⟨x, hx, o, _, f, hf, rfl⟩ := h
  refine ⟨by simp, fun ins hins => ?_⟩
  obtain ⟨i, t, rfl, hE, hd⟩ := forall2_one hins
  refine ⟨⟨i.dims, i.data.map f⟩, rfl, ?_⟩
  simp only [hd]
  have h0 := args_get ha hx
  have key : ∀ g : ℝ → ℝ, (∀ as', as = some t :: as' → y = Spec.unary g t → f = g) → ∀ t' as', as = some t' :: as' → y = Spec.unary g t' → t.data.map f = y.data := by
    intro g hg t' as' he hyy
    subst he hyy
    rcases h0 with ⟨_, h0⟩ | ⟨t'', _, h0', h0⟩
    · simp at h0
    · simp only [List.getElem?_cons_zero, Option.some.injEq] at h0
      subst h0
      rw [hE] at h0'
      cases h0'
      rw [hg _ rfl rfl]
      rfl
  cases hop : n.op <;> simp only [activation, hop, Option.some.injEq, reduceCtorEq] at hf <;>
    simp only [Spec.node, hop] at hy
  case Relu =>
    obtain ⟨t', rfl, hy⟩ := arg1_some hy
    have hy := Option.some.inj hy
    refine key (fun v => max 0 v) (fun _ _ _ => ?_) t' _ rfl hy.symm
    subst hf; rfl
  case Tanh =>
    obtain ⟨t', rfl, hy⟩ := arg1_some hy
    have hy := Option.some.inj hy
    refine key Real.tanh (fun _ _ _ => ?_) _ _ rfl hy.symm
    rw [← hf, compute_math .tanh trivial]; rfl
  case Sigmoid =>
    obtain ⟨t', rfl, hy⟩ := arg1_some hy
    have hy := Option.some.inj hy
    refine key (fun v => 1 / (1 + Real.exp (-v))) (fun _ _ _ => ?_) _ _ rfl hy.symm
    rw [← hf, compute_math .sigmoid trivial]
    funext z
    simp [Act.math, Real.sigmoid]
  case Exp =>
    obtain ⟨t', rfl, hy⟩ := arg1_some hy
    have hy := Option.some.inj hy
    refine key Real.exp (fun _ _ _ => ?_) _ _ rfl hy.symm
    subst hf; rfl
  case Log =>
    obtain ⟨t', rfl, hy⟩ := arg1_some hy
    have hy := Option.some.inj hy
    refine key Real.log (fun _ _ _ => ?_) _ _ rfl hy.symm
    subst hf; rfl
  case LeakyRelu =>
    obtain ⟨t', rfl, hy⟩ := arg1_some hy
    have hy := Option.some.inj hy
    refine key _ (fun _ _ _ => ?_) _ _ rfl hy.symm
    simp only [Option.ite_none_right_eq_some, Option.some.injEq] at hf
    rw [← hf.2]
    rfl
  case Clip =>
    simp only [Option.bind_eq_bind, Option.bind_eq_some_iff] at hf
    obtain ⟨s1, hs1, lo, hlo, s2, hs2, hi, hhi, hf⟩ := hf
    simp only [Option.ite_none_right_eq_some, Option.some.injEq] at hf
    split at hy
    case h_2 => simp at hy
    rename_i t' rest
    simp only [Option.bind_eq_bind, Option.bind_eq_some_iff, Option.some.injEq] at hy
    obtain ⟨lo', hlo', hi', hhi', hy⟩ := hy
    refine key _ (fun _ _ _ => ?_) t' rest rfl hy.symm
    rw [← hf.2, clipFn_eq]
    have g1 := args_get ha hs1
    have g2 := args_get ha hs2
    have e1 : (if s1 = "" then some none else (E s1).map some) = some (rest.getD 0 none) := by
      rcases g1 with ⟨h1, h2⟩ | ⟨_, h1, h2, h3⟩
      · rw [List.getElem?_cons_succ] at h2; simp [h1, h2]
      · rw [List.getElem?_cons_succ] at h3; simp [h1, h2, h3]
    have e2 : (if s2 = "" then some none else (E s2).map some) = some (rest.getD 1 none) := by
      rcases g2 with ⟨h1, h2⟩ | ⟨_, h1, h2, h3⟩
      · rw [List.getElem?_cons_succ] at h2; simp [h1, h2]
      · rw [List.getElem?_cons_succ] at h3; simp [h1, h2, h3]
    rw [hk.clipBound hlo e1 hlo', hk.clipBound hhi e2 hhi']

end Verif.Onnx

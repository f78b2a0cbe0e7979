import Verif.Keras.Local2

/-!
# The layers that the importer renders faithfully
-/

namespace Verif.Keras
open Net Layers
open Onnx (prod indices mk)
open scoped Classical

/-- the layer without softmax, which the importer makes a layer of its own -/
def Kind.plain : Kind → Kind
  | .dense ws a => .dense ws a.plain
  | .conv2D ws f k s d p g a => .conv2D ws f k s d p g a.plain
  | k => k

/-- The restrictions under which a layer of kind `k` on the operands `xs` is rendered faithfully: Dense on vectors; Conv2D with equal strides,
without dilation and without softmax; pooling with square windows and no padding; arithmetic on operands that broadcast to the shape of the
first; maxima and minima of equal shapes; a positive axis for Concatenate; the last axis for BatchNormalization. -/
def Supported (k : Kind) (xs : List (Nd ℝ)) : Prop :=
  match k with
  | .dense _ _ => ∀ x ∈ xs, ∃ n, x.dims = [n]
  | .conv2D _ _ _ strides dilation _ _ a => strides.2 = strides.1 ∧ dilation = (1, 1) ∧ a ≠ .softmax
  | .maxPooling2D size strides padding | .averagePooling2D size strides padding => ∀ x ∈ xs, PlainPool size strides padding x
  | .flatten | .zeroPadding2D _ => True
  | .add | .multiply | .subtract => SameShape xs
  | .maximum | .minimum => ∀ x ∈ xs, ∀ z ∈ xs, z.dims = x.dims
  | .concatenate axis => 0 < axis
  | .batchNormalization axis _ _ _ _ => axis = -1 ∨ axis = 3
  | .average | .inputLayer | .reshape _ | .dropout | .other => False

theorem Supported.not_input {k : Kind} {xs : List (Nd ℝ)} (h : Supported k xs) : k.isInput = false := by
  cases k <;> first | rfl | exact absurd h id

theorem Supported.not_skipped {k : Kind} {xs : List (Nd ℝ)} (h : Supported k xs) : k.skipped = false := by
  cases k <;> first | rfl | exact absurd h id

theorem one_some {xs : List (Nd ℝ)} {f : Nd ℝ → Option (Nd ℝ)} {y : Nd ℝ} (h : Spec.one xs f = some y) : ∃ x, xs = [x] ∧ f x = some y := by
  unfold Spec.one at h
  split at h
  · exact ⟨_, rfl, h⟩
  · simp at h

/-- a layer that is not softmaxed is its own plain form -/
theorem plain_self {k : Kind} (h : k.softmaxed = false) : k.plain = k := by
  cases k <;> simp_all [Kind.plain, Kind.softmaxed, Kind.activation?, Activation.plain]

/-- a Dense layer with softmax is the layer without it, and then softmax -/
theorem plain_softmax {k : Kind} {xs : List (Nd ℝ)} {y : Nd ℝ} (h : Spec.layer k xs = some y) (hsup : Supported k xs)
    (hs : k.softmaxed = true) : ∃ y0, Spec.layer k.plain xs = some y0 ∧ Spec.softmax y0 = some y := by
  cases k <;> simp [Kind.softmaxed, Kind.activation?] at hs
  · subst hs
    simp only [Spec.layer] at h
    obtain ⟨x, rfl, h⟩ := one_some h
    unfold Spec.dense at h
    obtain ⟨⟨w, b⟩, hkb, h⟩ := Option.bind_eq_some_iff.mp h
    simp only at h
    split at h
    · rename_i i o hd
      simp only [Option.ite_none_right_eq_some] at h
      refine ⟨_, ?_, h.2⟩
      simp only [Kind.plain, Activation.plain, if_true, Spec.layer, Spec.one]
      unfold Spec.dense
      rw [hkb]
      simp only [Option.bind_eq_bind, Option.bind_some]
      rw [hd]
      simp only
      rw [if_pos h.1]
      rfl
    · simp at h
  · exact absurd hs hsup.2.2

variable {M : CMath ℝ}

/-- the layer made by the importer returns the value of the Keras layer without softmax -/
theorem layer_correct (hsqrt : M.sqrt = Real.sqrt) {l : Layer} {op : Op ℝ} (h : create l = some op) {xs : List (Nd ℝ)} {y : Nd ℝ}
    (hy : Spec.layer l.kind.plain xs = some y) (hin : l.inShapes = xs.map Nd.dims) (hok : ∀ x ∈ xs, x.Ok) (hpos : ∀ x ∈ xs, ∀ k ∈ x.dims, 0 < k)
    (hs : Supported l.kind xs) : Returns M op xs y ∧ Ranked op y := by
  have hin1 : ∀ {x}, xs = [x] → l.inShapes.head? = some x.dims := by intro x hx; rw [hin, hx]; rfl
  unfold create at h
  cases hk : l.kind <;> rw [hk] at h hy hs <;> simp only [Kind.plain, Spec.layer] at hy <;> simp only [Supported] at hs <;> simp only at h
  case dense ws a =>
    obtain ⟨x, rfl, hy⟩ := one_some hy
    obtain ⟨n, hn⟩ := hs x (by simp)
    exact correct_dense h hy hn
  case conv2D ws f k s d p g a =>
    simp only [Option.ite_none_right_eq_some] at hy
    obtain ⟨x, rfl, hy'⟩ := one_some hy.2
    exact correct_conv h hy' (hin1 rfl) hs.1 hs.2.1 (hpos x (by simp))
  case maxPooling2D size strides padding =>
    obtain ⟨c, hc, rfl⟩ := Option.map_eq_some_iff.mp h
    obtain ⟨x, rfl, hy⟩ := one_some hy
    exact correct_maxPool hc hy (hin1 rfl) (hs x (by simp)) (hpos x (by simp))
  case averagePooling2D size strides padding =>
    obtain ⟨c, hc, rfl⟩ := Option.map_eq_some_iff.mp h
    obtain ⟨x, rfl, hy⟩ := one_some hy
    exact correct_averagePool hc hy (hin1 rfl) (hs x (by simp)) (hpos x (by simp))
  case flatten =>
    obtain ⟨x, rfl, hy'⟩ := one_some hy
    exact correct_flatten h (by simpa using hy'.symm) (hin1 rfl)
  case add => exact correct_arith (.inl ⟨rfl, rfl⟩) h hin hy hs
  case multiply => exact correct_arith (.inr (.inr ⟨rfl, rfl⟩)) h hin hy hs
  case subtract =>
    simp only [Option.ite_none_right_eq_some] at hy
    exact correct_arith (.inr (.inl ⟨rfl, rfl⟩)) h hin hy.2 hs
  case maximum => exact correct_extremum (.inl ⟨rfl, rfl⟩) h hin hy hs
  case minimum => exact correct_extremum (.inr ⟨rfl, rfl⟩) h hin hy hs
  case concatenate axis => exact correct_concat hs h hin hy hok
  case zeroPadding2D p =>
    obtain ⟨x, rfl, hy⟩ := one_some hy
    exact correct_zeroPadding h hy (hin1 rfl)
  case batchNormalization axis eps scale center ws =>
    obtain ⟨x, rfl, hy⟩ := one_some hy
    exact correct_batchNorm hsqrt hs h hy (hin1 rfl)
  all_goals exact absurd hs id

/-- only Dense layers have a softmax among the supported ones -/
theorem softmax_rank {k : Kind} {xs : List (Nd ℝ)} {y : Nd ℝ} (hs : Supported k xs) (hsm : k.softmaxed = true) (hy : Spec.layer k.plain xs = some y) :
    ∃ n, y.dims = [n] := by
  cases k <;> simp [Kind.softmaxed, Kind.activation?] at hsm
  · subst hsm
    simp only [Kind.plain, Activation.plain, if_true, Spec.layer] at hy
    obtain ⟨x, rfl, hy⟩ := one_some hy
    obtain ⟨n, hn⟩ := hs x (by simp)
    unfold Spec.dense at hy
    obtain ⟨⟨w, b⟩, hkb, hy⟩ := Option.bind_eq_some_iff.mp hy
    simp only at hy
    split at hy
    · rename_i i o hd
      simp only [Option.ite_none_right_eq_some, Spec.act, Option.some.injEq] at hy
      rw [← hy.2, hn]
      exact ⟨o, rfl⟩
    · simp at hy
  · exact absurd hsm hs.2.2

/-- the values of layers have as many elements as their dimensions say -/
theorem softmax_dims {x y : Nd ℝ} (h : Spec.softmax x = some y) : y.dims = x.dims := by
  unfold Spec.softmax at h
  split at h
  · simp at h
  · simp only [Option.some.injEq] at h
    rw [← h]; rfl

end Verif.Keras

import Verif.Onnx.Supported

/-!
# The values of an ONNX model have as many elements as their dimensions say
-/

namespace Verif.Onnx
open Net
open scoped Classical

theorem mkM_ok {d : List Nat} {v : List Nat → Option ℝ} {y : Nd ℝ} (h : Spec.mkM d v = some y) : y.Ok := by
  unfold Spec.mkM at h
  rw [Option.map_eq_some_iff] at h
  obtain ⟨l, hl, rfl⟩ := h
  show l.length = _
  rw [mapM_some_length hl, length_indices]

theorem reshaped_ok {x y : Nd ℝ} {d : List Nat} (hx : x.Ok) (h : Spec.reshaped x d = some y) : y.Ok ∧ y.data = x.data := by
  unfold Spec.reshaped at h
  split at h
  · rename_i e
    cases h
    exact ⟨by unfold Nd.Ok at *; simpa [e] using hx, rfl⟩
  · simp at h

theorem concat_ok {a : Nat} {l : List (Nd ℝ)} {x y : Nd ℝ} (hx : x.Ok) (h : l.foldlM (Spec.concat2 a) x = some y) : y.Ok := by
  induction l generalizing x with
  | nil => cases h; exact hx
  | cons t l ih =>
    rw [List.foldlM_cons] at h
    obtain ⟨z, hz, h⟩ := Option.bind_eq_some_iff.mp h
    refine ih ?_ h
    unfold Spec.concat2 at hz
    simp only [Option.ite_none_right_eq_some, Option.some.injEq] at hz
    rw [← hz.2]
    exact mk_ok _ _

theorem bcast_ok {op : ℝ → ℝ → ℝ} {a b y : Nd ℝ} (h : bcast op a b = some y) : y.Ok := by
  unfold bcast at h
  obtain ⟨d, _, h⟩ := Option.bind_eq_some_iff.mp h
  cases h
  exact mk_ok _ _

theorem unary_ok {f : ℝ → ℝ} {x : Nd ℝ} (hx : x.Ok) : (Spec.unary f x).Ok := by simpa [Nd.Ok, Spec.unary] using hx

/-- nodes that only change the dimensions -/
theorem bypass_data {v : Nat} {n : Node} {as : List (Option (Nd ℝ))} {y : Nd ℝ} (hok : ∀ t, some t ∈ as → t.Ok)
    (hop : n.op = .Dropout ∨ n.op = .Flatten ∨ n.op = .Reshape ∨ n.op = .Unsqueeze) (h : Spec.node v n as = some y) :
    ∃ x, as.head? = some (some x) ∧ y.data = x.data ∧ y.Ok := by
  rcases hop with hop | hop | hop | hop <;> simp only [Spec.node, hop] at h
  · obtain ⟨o, ho, h⟩ := Option.bind_eq_some_iff.mp h
    simp only [id] at h
    subst h
    have : some y ∈ as := by
      cases as <;> simp at ho
      simp [ho]
    exact ⟨y, ho, rfl, hok y this⟩
  · obtain ⟨x, rfl, h⟩ := arg1_some h
    unfold Spec.flatten at h
    obtain ⟨k, _, h⟩ := Option.bind_eq_some_iff.mp h
    obtain ⟨h1, h2⟩ := reshaped_ok (hok x (by simp)) h
    exact ⟨x, rfl, h2, h1⟩
  · obtain ⟨x, s, rfl, h⟩ := arg2_some h
    obtain ⟨h1, h2⟩ := reshaped_ok (hok x (by simp)) h
    exact ⟨x, rfl, h2, h1⟩
  · have key : ∀ x axes, x.Ok → Spec.unsqueeze x axes = some y → y.Ok ∧ y.data = x.data := by
      intro x axes hx h
      unfold Spec.unsqueeze at h
      obtain ⟨k, _, h⟩ := Option.bind_eq_some_iff.mp h
      simp only [Option.ite_none_right_eq_some] at h
      exact reshaped_ok hx h.2
    split at h
    · obtain ⟨h1, h2⟩ := key _ _ (hok _ (by simp)) h
      exact ⟨_, rfl, h2, h1⟩
    · obtain ⟨h1, h2⟩ := key _ _ (hok _ (by simp)) h
      exact ⟨_, rfl, h2, h1⟩
    · simp at h

theorem node_ok {v : Nat} {n : Node} {as : List (Option (Nd ℝ))} {y : Nd ℝ} (hok : ∀ t, some t ∈ as → t.Ok) (h : Spec.node v n as = some y) : y.Ok := by
  have hby : (n.op = .Dropout ∨ n.op = .Flatten ∨ n.op = .Reshape ∨ n.op = .Unsqueeze) → y.Ok := fun e =>
    let ⟨_, _, _, h⟩ := bypass_data hok e h; h
  by_cases e : n.op = .Dropout ∨ n.op = .Flatten ∨ n.op = .Reshape ∨ n.op = .Unsqueeze
  · exact hby e
  cases hop : n.op
  all_goals try (exact absurd hop (by tauto))
  all_goals simp only [Spec.node, hop] at h
  all_goals try contradiction
  case Softmax =>
    obtain ⟨x, has, h'⟩ := arg1_some h; clear h hby; subst has; rename' h' => h
    split at h
    · unfold Spec.softmax13 at h
      obtain ⟨k, _, h⟩ := Option.bind_eq_some_iff.mp h
      cases h; exact mk_ok _ _
    · unfold Spec.softmax1 at h
      obtain ⟨k, _, h⟩ := Option.bind_eq_some_iff.mp h
      cases h; exact mk_ok _ _
  case BatchNormalization =>
    split at h
    · unfold Spec.batchNorm at h
      split at h
      · simp only [Option.ite_none_right_eq_some, Option.some.injEq] at h
        rw [← h.2]; exact mk_ok _ _
      · simp at h
    · simp at h
  case Conv =>
    obtain ⟨x, w, b, _, h⟩ := arg3_some h
    unfold Spec.conv at h
    split at h
    · obtain ⟨k, _, h⟩ := Option.bind_eq_some_iff.mp h
      simp only [Option.ite_none_right_eq_some, Option.some.injEq] at h
      rw [← h.2]; exact mk_ok _ _
    · simp at h
  case Pad =>
    obtain ⟨x, w, b, _, h⟩ := arg3_some h
    unfold Spec.pad at h
    obtain ⟨k, _, h⟩ := Option.bind_eq_some_iff.mp h
    simp only [Option.ite_none_right_eq_some] at h
    exact mkM_ok h.2
  case Concat =>
    obtain ⟨xs, hxs, hc⟩ := Option.bind_eq_some_iff.mp h
    have := mapM_id_some hxs
    subst this
    unfold Spec.concat at hc
    obtain ⟨x, hx, h⟩ := Option.bind_eq_some_iff.mp hc
    obtain ⟨_, _, h⟩ := Option.bind_eq_some_iff.mp h
    obtain ⟨_, _, h⟩ := Option.bind_eq_some_iff.mp h
    refine concat_ok (hok x ?_) h
    cases xs <;> simp at hx
    simp [hx]
  case Gather =>
    obtain ⟨a, b, has, h'⟩ := arg2_some h; clear h hby; subst has; rename' h' => h
    unfold Spec.gather at h
    obtain ⟨_, _, h⟩ := Option.bind_eq_some_iff.mp h
    obtain ⟨_, _, h⟩ := Option.bind_eq_some_iff.mp h
    cases h; exact mk_ok _ _
  case GatherElements =>
    obtain ⟨a, b, has, h'⟩ := arg2_some h; clear h hby; subst has; rename' h' => h
    unfold Spec.gatherElements at h
    obtain ⟨_, _, h⟩ := Option.bind_eq_some_iff.mp h
    obtain ⟨_, _, h⟩ := Option.bind_eq_some_iff.mp h
    simp only [Option.ite_none_right_eq_some, Option.some.injEq] at h
    rw [← h.2]; exact mk_ok _ _
  case Gemm =>
    obtain ⟨x, w, b, _, h⟩ := arg3_some h
    simp only [Spec.gemm] at h
    split at h
    · simp only [Option.ite_none_right_eq_some, Option.some.injEq] at h
      rw [← h.2]; exact mk_ok _ _
    · simp at h
  case MatMul =>
    obtain ⟨a, b, has, h'⟩ := arg2_some h; clear h hby; subst has; rename' h' => h
    unfold Spec.matmul at h
    split at h
    · simp only [Option.ite_none_right_eq_some] at h
      obtain ⟨_, _, h⟩ := Option.bind_eq_some_iff.mp h.2
      cases h; exact mk_ok _ _
    · simp at h
  case Transpose =>
    obtain ⟨x, has, h'⟩ := arg1_some h; clear h hby; subst has; rename' h' => h
    simp only [Spec.transpose, Option.ite_none_right_eq_some, Option.some.injEq] at h
    rw [← h.2]; exact mk_ok _ _
  case MaxPool =>
    obtain ⟨x, has, h'⟩ := arg1_some h; clear h hby; subst has; rename' h' => h
    unfold Spec.maxPool at h
    split at h
    · obtain ⟨_, _, h⟩ := Option.bind_eq_some_iff.mp h
      obtain ⟨_, _, h⟩ := Option.bind_eq_some_iff.mp h
      obtain ⟨_, _, h⟩ := Option.bind_eq_some_iff.mp h
      simp only [Option.ite_none_right_eq_some] at h
      exact mkM_ok h.2
    · simp at h
  case AveragePool =>
    obtain ⟨x, has, h'⟩ := arg1_some h; clear h hby; subst has; rename' h' => h
    unfold Spec.averagePool at h
    split at h
    · obtain ⟨_, _, h⟩ := Option.bind_eq_some_iff.mp h
      obtain ⟨_, _, h⟩ := Option.bind_eq_some_iff.mp h
      obtain ⟨_, _, h⟩ := Option.bind_eq_some_iff.mp h
      simp only [Option.ite_none_right_eq_some] at h
      exact mkM_ok h.2
    · simp at h
  case GlobalAveragePool =>
    obtain ⟨x, has, h'⟩ := arg1_some h; clear h hby; subst has; rename' h' => h
    unfold Spec.globalAveragePool at h
    split at h
    · split at h
      · simp at h
      · cases h; exact mk_ok _ _
    · simp at h
  case Add => obtain ⟨a, b, has, h'⟩ := arg2_some h; clear h hby; subst has; rename' h' => h; exact bcast_ok h
  case Mul => obtain ⟨a, b, has, h'⟩ := arg2_some h; clear h hby; subst has; rename' h' => h; exact bcast_ok h
  case Div => obtain ⟨a, b, has, h'⟩ := arg2_some h; clear h hby; subst has; rename' h' => h; exact bcast_ok h
  case Sub => obtain ⟨a, b, has, h'⟩ := arg2_some h; clear h hby; subst has; rename' h' => h; exact bcast_ok h
  case Clip =>
    split at h
    · obtain ⟨_, _, h⟩ := Option.bind_eq_some_iff.mp h
      obtain ⟨_, _, h⟩ := Option.bind_eq_some_iff.mp h
      cases h; exact unary_ok (hok _ (by simp))
    · simp at h
  case Constant =>
    split at h
    · simp only [Option.ite_none_right_eq_some, Option.some.injEq] at h
      rw [← h.2]; exact h.1.2
    · simp at h
  case Shape =>
    obtain ⟨x, has, h'⟩ := arg1_some h; clear h hby; subst has; rename' h' => h
    cases h; simp [Nd.Ok, prod]
  all_goals
    obtain ⟨x, has, h'⟩ := arg1_some h; clear h hby; subst has; rename' h' => h
    cases h
    exact unary_ok (hok _ (by simp))

end Verif.Onnx

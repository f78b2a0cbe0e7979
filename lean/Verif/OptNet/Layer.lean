import Verif.OptNet.Sem
import Verif.Net.Ops2

/-!
# One layer: the reference in terms of its elements, and its activation function
-/

namespace Verif.OptNet
open Net Layers Opt Export
open scoped Classical

theorem mapM_reshape_congr : ∀ (ss : List Shape) (xs ys : List (Nd ℝ)), xs.map Nd.data = ys.map Nd.data →
    ((ss.zip xs).mapM fun p => p.2.reshape3 p.1) = (ss.zip ys).mapM fun p => p.2.reshape3 p.1
  | [], _, _, _ => by simp
  | s :: ss, [], ys, h => by
    cases ys with
    | nil => rfl
    | cons y ys => simp at h
  | s :: ss, x :: xs, [], h => by simp at h
  | s :: ss, ⟨d, t⟩ :: xs, ⟨d', t'⟩ :: ys, h => by
    simp only [List.map_cons, List.cons.injEq] at h
    obtain ⟨h1, h2⟩ := h
    subst h1
    rw [List.zip_cons_cons, List.zip_cons_cons, List.mapM_cons, List.mapM_cons, mapM_reshape_congr ss xs ys h2]
    rfl

theorem foldl_data (g : ℝ → ℝ → ℝ) : ∀ (xs ys : List (Nd ℝ)) (t : List ℝ), xs.map Nd.data = ys.map Nd.data →
    xs.foldl (fun s z => List.zipWith g s z.data) t = ys.foldl (fun s z => List.zipWith g s z.data) t
  | [], [], _, _ => rfl
  | [], _ :: _, _, h => by simp at h
  | _ :: _, [], _, h => by simp at h
  | x :: xs, y :: ys, t, h => by
    simp only [List.map_cons, List.cons.injEq] at h
    rw [List.foldl_cons, List.foldl_cons, h.1, foldl_data g xs ys _ h.2]

/-- the elements of the result only depend on the elements of the inputs -/
theorem forward_data (M : CMath ℝ) (op : Op ℝ) {xs ys : List (Nd ℝ)} (h : xs.map Nd.data = ys.map Nd.data) (hx : op.InputsOK M xs)
    (hy : op.InputsOK M ys) : (op.forward M .first xs).map Nd.data = (op.forward M .first ys).map Nd.data := by
  have two : ∀ (P : List (Nd ℝ) → List (Nd ℝ) → Prop), P [] [] → (∀ d d' t, P [⟨d, t⟩] [⟨d', t⟩]) →
      (∀ x x' y y' l l', x.data = x'.data → y.data = y'.data → l.map Nd.data = l'.map Nd.data →
        P (x :: y :: l) (x' :: y' :: l')) → P xs ys := by
    intro P h0 h1 h2
    match xs, ys, h with
    | [], [], _ => exact h0
    | [], _ :: _, h => simp at h
    | _ :: _, [], h => simp at h
    | [⟨d, t⟩], [⟨d', t'⟩], h => simp at h; subst h; exact h1 d d' t
    | [_], _ :: _ :: _, h => simp at h
    | _ :: _ :: _, [_], h => simp at h
    | x :: y :: l, x' :: y' :: l', h =>
      simp only [List.map_cons, List.cons.injEq] at h
      exact h2 x x' y y' l l' h.1 h.2.1 h.2.2
  have single : (∀ x y l, op.forward M .first (x :: y :: l) = none) → op.forward M .first [] = none → (∀ d d' t, (op.forward M .first [⟨d, t⟩]).map Nd.data = (op.forward M .first [⟨d', t⟩]).map Nd.data) →
      (op.forward M .first xs).map Nd.data = (op.forward M .first ys).map Nd.data := by
    intro e2 e0 e1
    exact two (fun a b => (op.forward M .first a).map Nd.data = (op.forward M .first b).map Nd.data) rfl e1
      (fun x x' y y' l l' _ _ _ => by rw [e2, e2])
  have hlen := congrArg List.length h
  simp only [List.length_map] at hlen
  cases op with
  | matmul C C' H Kd W act =>
    refine two (fun a b => (Op.forward M .first (.matmul C C' H Kd W act) a).map Nd.data = (Op.forward M .first (.matmul C C' H Kd W act) b).map Nd.data) rfl (fun _ _ _ => rfl) ?_
    intro x x' y y' l l' h1 h2 h3
    obtain ⟨d1, t1⟩ := x
    obtain ⟨d2, t2⟩ := x'
    obtain ⟨d3, t3⟩ := y
    obtain ⟨d4, t4⟩ := y'
    simp only at h1 h2
    subst h1 h2
    match l, l', h3 with
    | [], [], _ => rfl
    | [], _ :: _, h => simp at h
    | _ :: _, [], h => simp at h
    | _ :: _, _ :: _, _ => rfl
  | broadcast b o ss k act =>
    have gen : ∀ b, b = BOp.add ∨ b = .sub ∨ b = .mul ∨ b = .div →
        (Op.forward M .first (.broadcast b o ss k act) xs).map Nd.data = (Op.forward M .first (.broadcast b o ss k act) ys).map Nd.data := by
      intro b hb
      have e : ∀ zs, Op.forward M .first (.broadcast b o ss k act) zs = (do
          let as ← (ss.zip zs).mapM fun p => p.2.reshape3 p.1
          if ss.length = zs.length then
            let r ← broadcastForward b act k as
            pure (ofArr r)
          else none) := by
        intro zs
        rcases hb with rfl | rfl | rfl | rfl <;> rfl
      rw [e, e, mapM_reshape_congr ss xs ys h, hlen]
    have sel : ∀ b, b = BOp.max ∨ b = .min → (∀ x ∈ xs, ∀ y ∈ xs, x.dims = y.dims) → (∀ x ∈ ys, ∀ y ∈ ys, x.dims = y.dims) →
        (Op.forward M .first (.broadcast b o ss k act) xs).map Nd.data = (Op.forward M .first (.broadcast b o ss k act) ys).map Nd.data := by
      intro b hb
      refine two (fun xs ys => (∀ x ∈ xs, ∀ y ∈ xs, x.dims = y.dims) → (∀ x ∈ ys, ∀ y ∈ ys, x.dims = y.dims) →
        (Op.forward M .first (.broadcast b o ss k act) xs).map Nd.data = (Op.forward M .first (.broadcast b o ss k act) ys).map Nd.data) ?_ ?_ ?_
      · intros; rcases hb with rfl | rfl <;> rfl
      · intros; rcases hb with rfl | rfl <;> rfl
      · intro x x' y y' l l' h1 h2 h3 hx hy
        have c1 : ∀ z ∈ y :: l, z.dims = x.dims := fun z hz => hx z (List.mem_cons_of_mem _ hz) x (by simp)
        have c2 : ∀ z ∈ y' :: l', z.dims = x'.dims := fun z hz => hy z (List.mem_cons_of_mem _ hz) x' (by simp)
        rcases hb with rfl | rfl <;>
        · simp only [Op.forward]
          rw [if_pos c1, if_pos c2]
          simp only [Option.map_some, Option.some.injEq]
          rw [h1, foldl_data _ (y :: l) (y' :: l') _ (by simp [h2, h3])]
    cases b with
    | add => exact gen .add (by simp)
    | sub => exact gen .sub (by simp)
    | mul => exact gen .mul (by simp)
    | div => exact gen .div (by simp)
    | max => exact sel .max (by simp) hx hy
    | min => exact sel .min (by simp) hx hy
    | avg => rfl
  | concat a ss act =>
    refine two (fun xs ys => xs.map Nd.data = ys.map Nd.data → (Op.forward M .first (.concat a ss act) xs).map Nd.data = (Op.forward M .first (.concat a ss act) ys).map Nd.data) (fun _ => rfl) (fun _ _ _ _ => rfl) ?_ h
    intro x x' y y' l l' h1 h2 h3 h
    have hl : l.length = l'.length := by simpa using congrArg List.length h3
    simp only [Op.forward]
    rw [mapM_reshape_congr ss _ _ h, hl]
  | softmax s a act =>
    apply single (fun _ _ _ => rfl) rfl
    intro d d' t
    rfl
  | _ => exact single (fun _ _ _ => rfl) rfl (fun _ _ _ => rfl)

/-- the layers that apply their activation function apply it last -/
theorem forward_act (M : CMath ℝ) (op : Op ℝ) (hap : applies (clsOf op) = true) (f : ℝ → ℝ) {zs : List (Nd ℝ)} {z : Nd ℝ}
    (hz : (setAct id op).forward M .first zs = some z) :
    ∃ z', (setAct f op).forward M .first zs = some z' ∧ z'.data = z.data.map f := by
  have one : (∀ x y l, (setAct id op).forward M .first (x :: y :: l) = none) → (setAct id op).forward M .first [] = none → ∃ x, zs = [x] := by
    intro h2 h0
    match zs, hz with
    | [], hz => rw [h0] at hz; simp at hz
    | [x], _ => exact ⟨x, rfl⟩
    | _ :: _ :: _, hz => rw [h2] at hz; simp at hz
  cases op with
  | input => simp [clsOf, applies] at hap
  | constant => simp [clsOf, applies] at hap
  | flatten => simp [clsOf, applies] at hap
  | softmax => simp [clsOf, applies] at hap
  | maxPool => simp [clsOf, applies] at hap
  | avgPool => simp [clsOf, applies] at hap
  | gather => simp [clsOf, applies] at hap
  | gatherElements => simp [clsOf, applies] at hap
  | tile => simp [clsOf, applies] at hap
  | transpose => simp [clsOf, applies] at hap
  | pad => simp [clsOf, applies] at hap
  | reduce => simp [clsOf, applies] at hap
  | resize => simp [clsOf, applies] at hap
  | dense i o w b g =>
    obtain ⟨x, rfl⟩ := one (fun _ _ _ => rfl) rfl
    simp only [setAct, Op.forward, Option.bind_eq_bind] at hz
    obtain ⟨v, hv, hz⟩ := Option.bind_eq_some_iff.mp hz
    cases hz
    refine ⟨_, by simp only [setAct, Op.forward, hv, Option.bind_eq_bind, Option.bind_some]; rfl, ?_⟩
    simp only [Torch.tensor_map]
    rfl
  | activation n g =>
    obtain ⟨x, rfl⟩ := one (fun _ _ _ => rfl) rfl
    simp only [setAct, Op.forward, Option.some.injEq] at hz
    subst hz
    exact ⟨_, rfl, by simp⟩
  | matmul C C' H Kd W g =>
    match zs, hz with
    | [x, y], hz =>
      simp only [setAct, Op.forward, Option.bind_eq_bind] at hz
      obtain ⟨v, hv, hz⟩ := Option.bind_eq_some_iff.mp hz
      obtain ⟨w, hw, hz⟩ := Option.bind_eq_some_iff.mp hz
      obtain ⟨hc, hz⟩ := (Option.ite_none_right_eq_some).mp hz
      cases hz
      refine ⟨_, by simp only [setAct, Op.forward, hv, hw, Option.bind_eq_bind, Option.bind_some]; rw [if_pos hc]; rfl, ?_⟩
      simp only [Torch.tensor3_map]
      rfl
    | [], hz => simp [setAct, Op.forward] at hz
    | [_], hz => simp [setAct, Op.forward] at hz
    | _ :: _ :: _ :: _, hz => simp [setAct, Op.forward] at hz
  | gemm tA tB Mm N Kd alpha beta w c g =>
    obtain ⟨x, rfl⟩ := one (fun _ _ _ => rfl) rfl
    simp only [setAct, Op.forward, Option.bind_eq_bind] at hz
    obtain ⟨v, hv, hz⟩ := Option.bind_eq_some_iff.mp hz
    cases hz
    refine ⟨_, by simp only [setAct, Op.forward, hv, Option.bind_eq_bind, Option.bind_some]; rfl, ?_⟩
    simp [matrix, List.map_flatMap, Function.comp_def, gemmForward]
  | conv impl c w b g =>
    obtain ⟨x, rfl⟩ := one (fun _ _ _ => rfl) rfl
    simp only [setAct, Op.forward, Option.bind_eq_bind] at hz
    obtain ⟨v, hv, hz⟩ := Option.bind_eq_some_iff.mp hz
    obtain ⟨r, hr, hz⟩ := Option.bind_eq_some_iff.mp hz
    cases hz
    have hr' : convForward c f w b v.v = some (r.map f) := by
      unfold convForward at hr ⊢
      by_cases hc : (∀ i, i < c.outH → i * c.stride + c.kh ≤ c.inH + c.padTop + c.padBottom) ∧
        (∀ j, j < c.outW → j * c.stride + c.kw ≤ c.inW + c.padLeft + c.padRight)
      · rw [if_pos hc] at hr ⊢
        cases hr
        rfl
      · rw [if_neg hc] at hr; simp at hr
    refine ⟨_, by simp only [setAct, Op.forward, hv, Option.bind_eq_bind, Option.bind_some, hr']; rfl, ?_⟩
    exact Torch.flat_map r f
  | batchNorm s e sc mm vr b g =>
    obtain ⟨x, rfl⟩ := one (fun _ _ _ => rfl) rfl
    simp only [setAct, Op.forward, Option.bind_eq_bind] at hz
    obtain ⟨v, hv, hz⟩ := Option.bind_eq_some_iff.mp hz
    cases hz
    refine ⟨_, by simp only [setAct, Op.forward, hv, Option.bind_eq_bind, Option.bind_some]; rfl, ?_⟩
    exact Torch.flat_map ⟨s.C, s.H, s.W, batchNormForward M.sqrt e id sc mm vr b v.v⟩ f
  | constantPad s p k g =>
    obtain ⟨x, rfl⟩ := one (fun _ _ _ => rfl) rfl
    simp only [setAct, Op.forward, Option.bind_eq_bind] at hz
    obtain ⟨v, hv, hz⟩ := Option.bind_eq_some_iff.mp hz
    cases hz
    refine ⟨_, by simp only [setAct, Op.forward, hv, Option.bind_eq_bind, Option.bind_some]; rfl, ?_⟩
    exact (Torch.flat_map (Np.padConstant p.cf p.cb p.hf p.hb p.wf p.wb k v) f)
  | broadcast bo o ss k g =>
    have gen : ∀ b, b = BOp.add ∨ b = .sub ∨ b = .mul ∨ b = .div → (Op.broadcast b o ss k id).forward M .first zs = some z →
        ∃ z', (Op.broadcast b o ss k f).forward M .first zs = some z' ∧ z'.data = z.data.map f := by
      intro b hb hz
      have e : ∀ act, Op.forward M .first (.broadcast b o ss k act) zs = (do
          let as ← (ss.zip zs).mapM fun p => p.2.reshape3 p.1
          if ss.length = zs.length then
            let r ← broadcastForward b act k as
            pure (ofArr r)
          else none) := by
        intro act
        rcases hb with rfl | rfl | rfl | rfl <;> rfl
      rw [e] at hz
      simp only [e]
      simp only [Option.bind_eq_bind] at hz ⊢
      obtain ⟨as, has, hz⟩ := Option.bind_eq_some_iff.mp hz
      obtain ⟨hl, hz⟩ := (Option.ite_none_right_eq_some).mp hz
      obtain ⟨r, hr, hz⟩ := Option.bind_eq_some_iff.mp hz
      cases hz
      have hr' : broadcastForward b f k as = some (r.map f) := by
        cases as with
        | nil => simp [broadcastForward] at hr
        | cons a as =>
          unfold broadcastForward at hr ⊢
          rw [Option.map_eq_some_iff] at hr ⊢
          obtain ⟨q, hq, rfl⟩ := hr
          exact ⟨q, hq, rfl⟩
      refine ⟨_, by simp only [has, Option.bind_some]; rw [if_pos hl, hr']; rfl, ?_⟩
      exact Torch.flat_map r f
    have sel : ∀ b, b = BOp.max ∨ b = .min → (Op.broadcast b o ss k id).forward M .first zs = some z →
        ∃ z', (Op.broadcast b o ss k f).forward M .first zs = some z' ∧ z'.data = z.data.map f := by
      intro b hb hz
      match zs, hz with
      | [], hz => rcases hb with rfl | rfl <;> simp [Op.forward] at hz
      | [_], hz => rcases hb with rfl | rfl <;> simp [Op.forward] at hz
      | x :: y :: l, hz =>
        rcases hb with rfl | rfl <;>
        · simp only [Op.forward] at hz
          obtain ⟨hc, hz⟩ := (Option.ite_none_right_eq_some).mp hz
          cases hz
          refine ⟨_, by simp only [Op.forward]; exact if_pos hc, ?_⟩
          simp
    cases bo with
    | avg => simp [clsOf, applies] at hap
    | add => exact gen .add (by simp) hz
    | sub => exact gen .sub (by simp) hz
    | mul => exact gen .mul (by simp) hz
    | div => exact gen .div (by simp) hz
    | max => exact sel .max (by simp) hz
    | min => exact sel .min (by simp) hz
  | concat a ss g =>
    match zs, hz with
    | [], hz => simp [setAct, Op.forward] at hz
    | [_], hz => simp [setAct, Op.forward] at hz
    | x :: y :: xs, hz =>
      simp only [setAct, Op.forward, Option.bind_eq_bind] at hz
      obtain ⟨as, has, hz⟩ := Option.bind_eq_some_iff.mp hz
      obtain ⟨hl, hz⟩ := (Option.ite_none_right_eq_some).mp hz
      cases as with
      | nil => simp at hz
      | cons b bs =>
        obtain ⟨hc, hz⟩ := (Option.ite_none_right_eq_some).mp hz
        cases hz
        refine ⟨_, by simp only [setAct, Op.forward, has, Option.bind_eq_bind, Option.bind_some]; rw [if_pos hl, if_pos hc]; rfl, ?_⟩
        exact Torch.flat_map (concatForward a id b bs) f

end Verif.OptNet

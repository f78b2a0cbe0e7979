import Verif.OptNet.Layer

/-!
# One layer in the middle of the pass
-/

namespace Verif.OptNet
open Net Layers Opt Export
open scoped Classical

theorem opShape_size (op : Op ℝ) (h : ∀ n f, op ≠ .activation n f) : (opShape op).C * (opShape op).H * (opShape op).W = op.size := by
  cases op with
  | activation n f => exact absurd rfl (h n f)
  | constant v =>
    obtain ⟨d, l⟩ := v
    unfold opShape
    split
    · rename_i h; cases h
    · rename_i h; cases h
    · rename_i h; cases h; split
      · assumption
      · simp [Op.size]
    · rename_i h; cases h; split
      · assumption
      · simp [Op.size]
    · rename_i h; cases h; simp [Op.size]
    · rename_i h1 h2 h3 h4; exact absurd rfl (h4 _)
  | _ => first | rfl | (simp [opShape, Op.chans, Op.size]; done)

/-- the shape of the result -/
def outShape : Op ℝ → List Ten → Shape
  | .activation .., [t] => shapeOf t
  | op, _ => opShape op

/-- the shapes of the inputs are those that batch normalisations and products declare -/
structure Fit (op : Op ℝ) (ts : List Ten) : Prop where
  batchNorm : ∀ s e a b c d f, op = .batchNorm s e a b c d f → ts.map shapeOf = [s]
  multiply : ∀ o ss k f, op = .broadcast .mul o ss k f → ts.length = 2 → ss = ts.map shapeOf ∧ k = none

theorem clsOf_setAct (f : ℝ → ℝ) (op : Op ℝ) : clsOf (setAct f op) = clsOf op := by
  cases op with
  | broadcast b => cases b <;> rfl
  | _ => rfl

theorem inSizes_setAct (f : ℝ → ℝ) (op : Op ℝ) : (setAct f op).inSizes = op.inSizes := by cases op <;> rfl

theorem chans_setAct (f : ℝ → ℝ) (op : Op ℝ) : (setAct f op).chans = op.chans := by cases op <;> rfl

theorem size_setAct (f : ℝ → ℝ) (op : Op ℝ) : (setAct f op).size = op.size := by cases op <;> rfl

theorem patches_setAct (f : ℝ → ℝ) (op : Op ℝ) : (setAct f op).patches = op.patches := by
  cases op with
  | conv impl => cases impl <;> rfl
  | _ => rfl

theorem needsOwn_setAct (f : ℝ → ℝ) (op : Op ℝ) : (setAct f op).NeedsOwn ↔ op.NeedsOwn := by cases op <;> exact Iff.rfl

theorem setAct_setAct (f g : ℝ → ℝ) (op : Op ℝ) : setAct f (setAct g op) = setAct f op := by cases op <;> rfl

theorem opShape_setAct (f : ℝ → ℝ) (op : Op ℝ) : opShape (setAct f op) = opShape op := by cases op <;> rfl

theorem ok_setAct (f g : ℝ → ℝ) (op : Op ℝ) (hap : applies (clsOf op) = true) (h : (setAct f op).OK) : (setAct g op).OK := by
  cases op with
  | broadcast b o ss k a =>
    cases ss with
    | nil => cases b <;> exact h
    | cons s ss => cases b <;> exact h
  | maxPool => simp [clsOf, applies] at hap
  | avgPool => simp [clsOf, applies] at hap
  | gather => simp [clsOf, applies] at hap
  | gatherElements => simp [clsOf, applies] at hap
  | tile => simp [clsOf, applies] at hap
  | transpose => simp [clsOf, applies] at hap
  | pad => simp [clsOf, applies] at hap
  | softmax => simp [clsOf, applies] at hap
  | reduce => simp [clsOf, applies] at hap
  | resize => simp [clsOf, applies] at hap
  | _ => exact h

theorem inputsOK_setAct (M : CMath ℝ) (f : ℝ → ℝ) (op : Op ℝ) (ins : List (Nd ℝ)) : (setAct f op).InputsOK M ins ↔ op.InputsOK M ins := by
  cases op with
  | broadcast b => cases b <;> exact Iff.rfl
  | _ => exact Iff.rfl

theorem mapM_some_id {A : Type} (ts : List A) : (ts.map some).mapM id = some ts := by
  induction ts with
  | nil => rfl
  | cons a ts ih => simp [List.mapM_cons, ih]

theorem ten?_some {s : Shape} {t : List ℝ} (h : t.length = s.C * s.H * s.W) : ten? s t = some ⟨s.C, s.H, s.W, t, h⟩ := dif_pos h

/-- `plainSem` on tensors of the declared sizes -/
theorem plainSem_eq (M : CMath ℝ) (op : Op ℝ) (hna : ∀ n f, op ≠ .activation n f) (ts : List Ten) (z : Nd ℝ)
    (hz : (base op).forward M .first (ts.map nd) = some z) (hl : z.data.length = op.size) :
    ∃ t, plainSem M op (ts.map some) = some t ∧ t.data = z.data ∧ shapeOf t = opShape op := by
  have h : z.data.length = (opShape op).C * (opShape op).H * (opShape op).W := by rw [hl, opShape_size op hna]
  refine ⟨⟨(opShape op).C, (opShape op).H, (opShape op).W, z.data, h⟩, ?_, rfl, rfl⟩
  unfold plainSem
  simp only [mapM_some_id, Option.bind_eq_bind, Option.bind_some, hz]
  exact ten?_some h

theorem mul_shape {act : ℝ → ℝ} {x : Arr ℝ} {xs : List (Arr ℝ)} {r : Arr ℝ} (h : broadcastForward .mul act none (x :: xs) = some r) :
    r.C = x.C ∧ r.H = x.H ∧ r.W = x.W := by
  have hb : ∀ a, Np.bdim a 1 = some a := by
    intro a; unfold Np.bdim; by_cases h : a = 1 <;> simp [h]
  have key : ∀ (xs : List (Arr ℝ)) (x q : Arr ℝ), xs.foldlM (Np.inplace (· * ·)) x = some q → q.C = x.C ∧ q.H = x.H ∧ q.W = x.W := by
    intro xs
    induction xs with
    | nil => intro x q h; simp at h; subst h; exact ⟨rfl, rfl, rfl⟩
    | cons y xs ih =>
      intro x q h
      rw [List.foldlM_cons] at h
      obtain ⟨q', h1, h2⟩ := Option.bind_eq_some_iff.mp h
      obtain ⟨e1, e2, e3⟩ := ih q' q h2
      have : q'.C = x.C ∧ q'.H = x.H ∧ q'.W = x.W := by
        unfold Np.inplace at h1
        cases hz : Np.binop (· * ·) x y with
        | none => rw [hz] at h1; simp at h1
        | some z =>
          rw [hz] at h1
          simp only [Option.ite_none_right_eq_some] at h1
          obtain ⟨hc, h1⟩ := h1
          cases h1
          exact hc
      exact ⟨e1.trans this.1, e2.trans this.2.1, e3.trans this.2.2⟩
  simp only [broadcastForward] at h
  obtain ⟨q, hq, rfl⟩ := Option.map_eq_some_iff.mp h
  obtain ⟨p, h1, h2⟩ := Option.bind_eq_some_iff.mp hq
  obtain ⟨e1, e2, e3⟩ := key xs x p h1
  simp only [Option.getD_none, Np.binop, hb, Option.some.injEq] at h2
  subst h2
  exact ⟨e1, e2, e3⟩

theorem nd_len (ts : List Ten) : (ts.map nd).map (fun x => x.data.length) = ts.map fun t => t.data.length := by
  simp [nd]

/-- **A layer.**  On tensors of the declared sizes and shapes, its meaning followed by the activation function `f` is the tensor of the elements that
`forward_path_layer` returns for the layer with the activation function `f`. -/
theorem sem_layer (M : CMath ℝ) (net : XNet) (op : Op ℝ) (f : ℝ → ℝ) (ts : List Ten) (hne : op.inSizes ≠ []) (hok : (setAct f op).OK)
    (hlen : ts.map (fun t => t.data.length) = op.inSizes) (hin : op.InputsOK M (ts.map nd)) (hfit : Fit op ts)
    (hnap : applies (clsOf op) = false → setAct f op = op) :
    ∃ y t, (setAct f op).forward M .first (ts.map nd) = some y ∧ t.data = y.data ∧ shapeOf t = outShape op ts ∧
      (if applies (clsOf op) then ((sem M net).op (clsOf op) op (ts.map some)).map (Ten.map f) else (sem M net).op (clsOf op) op (ts.map some)) = some t := by
  by_cases hap : applies (clsOf op) = true
  · rw [if_pos hap]
    obtain ⟨z, hz, hzl, -⟩ := op_correct M .first (setAct id op) 0 (ts.map nd) (by rw [inSizes_setAct]; exact hne) (ok_setAct f id op hap hok)
      (by rw [inSizes_setAct, nd_len, hlen]) ((inputsOK_setAct M id op _).2 hin)
    obtain ⟨y, hy, hyz⟩ := forward_act M op hap f hz
    rw [size_setAct] at hzl
    have plain : (∀ n g, op ≠ .activation n g) → (sem M net).op (clsOf op) op (ts.map some) = plainSem M op (ts.map some) →
        ∃ y t, (setAct f op).forward M .first (ts.map nd) = some y ∧ t.data = y.data ∧ shapeOf t = outShape op ts ∧
          ((sem M net).op (clsOf op) op (ts.map some)).map (Ten.map f) = some t := by
      intro hna e
      obtain ⟨t, h1, h2, h3⟩ := plainSem_eq M op hna ts z (by rw [base, if_pos hap]; exact hz) hzl
      refine ⟨y, t.map f, hy, by rw [hyz, ← h2]; rfl, ?_, by rw [e, h1]; rfl⟩
      have : outShape op ts = opShape op := by
        cases op with
        | activation n g => exact absurd rfl (hna n g)
        | _ => rfl
      rw [this, ← h3]
      rfl
    cases op with
    | activation n g =>
      obtain ⟨t, rfl⟩ : ∃ t, ts = [t] := by
        have := congrArg List.length hlen
        simp only [List.length_map, Op.inSizes, List.length_cons, List.length_nil] at this
        exact List.length_eq_one_iff.1 this
      refine ⟨_, t.map f, rfl, rfl, rfl, rfl⟩
    | conv impl c wt b g =>
      obtain ⟨t, rfl⟩ : ∃ t, ts = [t] := by
        have := congrArg List.length hlen
        simp only [List.length_map, Op.inSizes, List.length_cons, List.length_nil] at this
        exact List.length_eq_one_iff.1 this
      simp only [List.map_cons, List.map_nil, Op.inSizes, List.cons.injEq, and_true] at hlen
      have hs : t.data.length = (⟨c.inC, c.inH, c.inW⟩ : Shape).size := hlen
      simp only [List.map_cons, List.map_nil, setAct, Op.forward, nd, Nd.reshape3, Option.bind_eq_bind] at hz
      rw [if_pos hs] at hz
      simp only [Option.bind_some] at hz
      obtain ⟨r, hr, hz⟩ := Option.bind_eq_some_iff.mp hz
      cases hz
      refine ⟨y, (Ten.of r).map f, hy, hyz.symm, ?_, ?_⟩
      · unfold convForward at hr
        obtain ⟨-, hr⟩ := (Option.ite_none_right_eq_some).mp hr
        cases hr
        rfl
      · show (convSem (.conv impl c wt b g) [some t]).map _ = _
        simp only [convSem]
        rw [if_pos hs, hr]
        rfl
    | batchNorm s e sc mm vr b g =>
      obtain ⟨t, rfl⟩ : ∃ t, ts = [t] := by
        have := congrArg List.length hlen
        simp only [List.length_map, Op.inSizes, List.length_cons, List.length_nil] at this
        exact List.length_eq_one_iff.1 this
      have hsh := hfit.batchNorm s e sc mm vr b g rfl
      simp only [List.map_cons, List.map_nil, List.cons.injEq, and_true] at hsh
      subst hsh
      have hs : t.data.length = (shapeOf t).size := t.len
      simp only [List.map_cons, List.map_nil, setAct, Op.forward, nd, Nd.reshape3, Option.bind_eq_bind] at hz
      rw [if_pos hs] at hz
      cases hz
      exact ⟨y, (Ten.of ⟨t.C, t.H, t.W, batchNormForward M.sqrt e id sc mm vr b t.arr.v⟩).map f, hy, hyz.symm, rfl, rfl⟩
    | broadcast bo o ss k g =>
      cases bo with
      | mul =>
        rcases ts with _ | ⟨t, _ | ⟨t', _ | ⟨t'', l⟩⟩⟩
        · exact plain (by simp) rfl
        · exact plain (by simp) rfl
        rotate_left
        · exact plain (by simp) rfl
        · skip
          obtain ⟨hss, hk⟩ := hfit.multiply o ss k g rfl rfl
          subst hss hk
          have h1 : t.data.length = (shapeOf t).size := t.len
          have h2 : t'.data.length = (shapeOf t').size := t'.len
          simp only [List.map_cons, List.map_nil, setAct, Op.forward, List.zip_cons_cons, List.zip_nil_right, List.mapM_cons, List.mapM_nil, nd, Nd.reshape3,
            Option.bind_eq_bind] at hz
          rw [if_pos h1, if_pos h2] at hz
          simp only [Option.bind_some, Option.pure_def, List.length_cons, List.length_nil, if_true] at hz
          obtain ⟨r, hr, hz⟩ := Option.bind_eq_some_iff.mp hz
          cases hz
          have hr' : broadcastForward .mul id none [t.arr, t'.arr] = some r := hr
          refine ⟨y, (Ten.of r).map f, hy, hyz.symm, ?_, ?_⟩
          · have ho : shapeOf t = o := hok.2.1
            obtain ⟨e1, e2, e3⟩ := mul_shape hr'
            show Shape.mk r.C r.H r.W = o
            rw [← ho, e1, e2, e3]
            rfl
          · show (mulOp [some t, some t']).map _ = _
            simp only [mulOp, hr']
            rfl
      | avg => simp [clsOf, applies] at hap
      | _ => exact plain (by simp) rfl
    | dense => exact plain (by simp) rfl
    | matmul => exact plain (by simp) rfl
    | gemm => exact plain (by simp) rfl
    | concat => exact plain (by simp) rfl
    | constantPad => exact plain (by simp) rfl
    | _ => simp [clsOf, applies] at hap
  · rw [if_neg hap]
    have hap' : applies (clsOf op) = false := by simpa using hap
    rw [hnap hap'] at hok ⊢
    obtain ⟨z, hz, hzl, -⟩ := op_correct M .first op 0 (ts.map nd) hne hok (by rw [nd_len, hlen]) hin
    have hna : ∀ n g, op ≠ .activation n g := by rintro n g rfl; exact hap rfl
    obtain ⟨t, h1, h2, h3⟩ := plainSem_eq M op hna ts z (by rw [base, if_neg hap]; exact hz) hzl
    refine ⟨z, t, hz, h2, ?_, ?_⟩
    · rw [h3]
      cases op with
      | activation n g => exact absurd rfl (hna n g)
      | _ => rfl
    · rw [← h1]
      cases op with
      | broadcast bo => cases bo <;> first | rfl | (simp [clsOf, applies] at hap; done)
      | _ => first | rfl | (simp [clsOf, applies] at hap; done)

end Verif.OptNet

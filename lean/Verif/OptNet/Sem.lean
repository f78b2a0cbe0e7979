import Verif.OptNet.Model
import Verif.Torch.Fuse

/-!
# The meaning of the concrete layers in the terms of the pass
-/

namespace Verif.OptNet
open Net Layers Opt Export
open scoped Classical

/-- a tensor of shape `s` with the given elements -/
noncomputable def ten? (s : Shape) (t : List ℝ) : Option Ten := if h : t.length = s.C * s.H * s.W then some ⟨s.C, s.H, s.W, t, h⟩ else none

def shapeOf (t : Ten) : Shape := ⟨t.C, t.H, t.W⟩

/-- the array, without its shape -/
def nd (t : Ten) : Nd ℝ := ⟨[], t.data⟩

/-- the layer before its activation function -/
def base (op : Op ℝ) : Op ℝ := if applies (clsOf op) then setAct id op else op

noncomputable def plainSem (M : CMath ℝ) (op : Op ℝ) (xs : List (Option Ten)) : Option Ten := do
  let ts ← xs.mapM id
  let y ← (base op).forward M .first (ts.map nd)
  ten? (opShape op) y.data

noncomputable def convSem : Op ℝ → List (Option Ten) → Option Ten
  | .conv _ c wt b _, [some x] =>
    if x.data.length = (⟨c.inC, c.inH, c.inW⟩ : Shape).size then (convForward c id wt b (arrOf ⟨c.inC, c.inH, c.inW⟩ x.data).v).map Ten.of else none
  | _, _ => none

noncomputable def bnSem (M : CMath ℝ) : Op ℝ → List (Option Ten) → Option Ten
  | .batchNorm _ eps scale mean var bias _, [some x] => some (Ten.of ⟨x.C, x.H, x.W, batchNormForward M.sqrt eps id scale mean var bias x.arr.v⟩)
  | _, _ => none

noncomputable def mulSem (M : CMath ℝ) (op : Op ℝ) : List (Option Ten) → Option Ten
  | [x, y] => mulOp [x, y]
  | xs => plainSem M op xs

noncomputable def sem (M : CMath ℝ) (net : XNet) : Sem (Op ℝ) (Option Ten) where
  op
    | .conv, p, xs => convSem p xs
    | .batchNorm, p, xs => bnSem M p xs
    | .multiply, p, xs => mulSem M p xs
    | .activation, _, xs => match xs with
      | [x] => x
      | _ => none
    | _, p, xs => plainSem M p xs
  den f t := t.map (Ten.map (actOf net f).compute)
  applies := applies

theorem map_linear (t : Ten) : t.map (Act.compute .linear) = t := by
  ext1 <;> try rfl
  simp only [Ten.map]
  rw [show Act.compute .linear = id from funext fun _ => rfl, List.map_id]

theorem sem_ok (M : CMath ℝ) (net : XNet) : SemOK (foldOp M) (sem M net) := by
  have R := realSem_ok (fun _ => id) (fun _ _ _ => none) (fun _ => true)
  refine ⟨?_, fun _ _ => rfl, rfl, rfl, rfl, rfl, rfl, rfl, ?_, ?_, ?_⟩
  · intro x
    cases x with
    | none => rfl
    | some t => exact congrArg some (map_linear t)
  · intro pc pb xs
    show bnSem M pb [convSem pc xs] = convSem (foldOp M pc pb) xs
    have none1 : bnSem M pb [none] = none := by cases pb <;> rfl
    cases pc with
    | conv impl c wt b f =>
      match xs with
      | [some x] =>
        cases pb with
        | batchNorm s eps scale mean var bias g =>
          simp only [foldOp, convSem]
          by_cases hl : x.data.length = (⟨c.inC, c.inH, c.inW⟩ : Shape).size
          · simp only [if_pos hl]
            generalize (arrOf ⟨c.inC, c.inH, c.inW⟩ x.data).v = xv
            have h := C33_fold M.sqrt eps scale mean var bias c id wt b xv
            cases h1 : convForward c id wt b xv with
            | none =>
              rw [h1] at h
              simp only [Option.map_none, Option.map_eq_none_iff] at h
              simp [h, bnSem]
            | some r =>
              rw [h1] at h
              simp only [Option.map_some, Option.map_eq_some_iff, Prod.mk.injEq] at h
              obtain ⟨r', e, h2, h3, h4, h5⟩ := h
              simp only [Option.map_some, bnSem, e, Option.some.injEq]
              ext1
              · exact h2.symm
              · exact h3.symm
              · exact h4.symm
              · show Arr.flat _ = Arr.flat r'
                rw [h5]
                show tensor3 r.C r.H r.W _ = _
                apply tensor3_congr
                intro f i j hf hi hj
                simp only [batchNormForward, Ten.arr, Ten.get, Ten.of, Arr.flat]
                rw [tensor3_get_at _ _ _ _ hf hi hj]
          · simp only [if_neg hl]; rfl
        | _ =>
          simp only [foldOp, convSem]
          by_cases hl : x.data.length = (⟨c.inC, c.inH, c.inW⟩ : Shape).size
          · simp only [if_pos hl]
            cases convForward c id wt b (arrOf ⟨c.inC, c.inH, c.inW⟩ x.data).v <;> rfl
          · simp only [if_neg hl]; rfl
      | [] => simp only [convSem, none1]; cases pb <;> rfl
      | [none] => simp only [convSem, none1]; cases pb <;> rfl
      | x1 :: x2 :: xs => cases x1 <;> simp only [convSem, none1] <;> cases pb <;> rfl
    | _ =>
      simp only [convSem, none1]
      cases pb <;> rfl
  · intro p x
    cases x with
    | none => rfl
    | some t => exact R.silu .none (some t)
  · intro p x
    cases x with
    | none => rfl
    | some t => exact R.silu' .none (some t)

end Verif.OptNet

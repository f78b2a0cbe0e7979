import Verif.Props.Fusion

/-!
# The layers' functions over the reals satisfy what the pass expects

`realSem` interprets `Conv2D`, `BatchNormalization`, `Multiply` and `Activation` layers by the models of their
`forward_path_layer` methods; the other classes by any functions.
-/

namespace Verif.Opt
open Verif.Layers

/-- an array of rank three -/
@[ext] structure Ten where
  C : Nat
  H : Nat
  W : Nat
  data : List ℝ
  len : data.length = C * H * W

/-- element access -/
noncomputable def Ten.get (t : Ten) (f i j : Nat) : ℝ := t.data.getD (at3 t.H t.W f i j) 0

noncomputable def Ten.arr (t : Ten) : Arr ℝ := ⟨t.C, t.H, t.W, t.get⟩

noncomputable def Ten.of (a : Arr ℝ) : Ten := ⟨a.C, a.H, a.W, a.flat, tensor3_length _ _ _ _⟩

theorem Ten.data_eq (t : Ten) : tensor3 t.C t.H t.W t.get = t.data := by
  apply List.ext_getElem
  · rw [tensor3_length, t.len]
  · intro a h1 h2
    rw [tensor3_length] at h1
    obtain ⟨f, i, j, hf, hi, hj, rfl⟩ := at3_surj h1
    rw [tensor3_get _ _ _ _ hf hi hj]
    unfold Ten.get
    simp [List.getD, List.getElem?_eq_getElem h2]

/-- element-wise map -/
noncomputable def Ten.map (g : ℝ → ℝ) (t : Ten) : Ten := ⟨t.C, t.H, t.W, t.data.map g, by rw [List.length_map, t.len]⟩

theorem Ten.map_data (g : ℝ → ℝ) (t : Ten) :
    (t.map g).data = tensor3 t.C t.H t.W (fun f i j => g (t.get f i j)) := by
  rw [← tensor3_map, t.data_eq]; rfl

theorem Ten.map_get (g : ℝ → ℝ) (t : Ten) {f i j : Nat} (hf : f < t.C) (hi : i < t.H) (hj : j < t.W) :
    (t.map g).get f i j = g (t.get f i j) := by
  have := at3_lt hf hi hj
  rw [← t.len] at this
  simp [Ten.get, Ten.map, List.getD, List.getElem?_eq_getElem this]

/-- parameters of a layer -/
inductive RPar
  | conv (c : ConvP) (wt : Nat → Nat → Nat → Nat → ℝ) (b : Nat → ℝ)
  | bn (eps : ℝ) (scale mean var bias : Nat → ℝ)
  | none

/-- `FuseConvBatchNorm.py` 86-93 on the parameters -/
noncomputable def rfold : RPar → RPar → RPar
  | .conv c wt b, .bn eps scale mean var bias =>
    .conv c (foldConvBN Real.sqrt eps scale mean var bias c.filters wt b).1
      (foldConvBN Real.sqrt eps scale mean var bias c.filters wt b).2
  | _, _ => .none

/-- `convForward` without activation; `none` is an exception -/
noncomputable def convOp : RPar → List (Option Ten) → Option Ten
  | .conv c wt b, [some x] => (convForward c id wt b x.arr.v).map Ten.of
  | _, _ => none

/-- `batchNormForward` without activation -/
noncomputable def bnOp : RPar → List (Option Ten) → Option Ten
  | .bn eps scale mean var bias, [some x] =>
    some (Ten.of ⟨x.C, x.H, x.W, batchNormForward Real.sqrt eps id scale mean var bias x.arr.v⟩)
  | _, _ => none

/-- `broadcastForward` of a `Multiply` layer of two producers, without constant nor activation -/
noncomputable def mulOp : List (Option Ten) → Option Ten
  | [some x, some y] => (broadcastForward .mul id none [x.arr, y.arr]).map Ten.of
  | _ => none

/-- the activation functions; `g` interprets those the patterns do not distinguish -/
noncomputable def fnR (g : Nat → ℝ → ℝ) : Fn → ℝ → ℝ
  | .linear => Act.compute .linear
  | .sigmoid => Act.compute .sigmoid
  | .silu => Act.compute .silu
  | .other n => g n

/-- The meaning of the layers; `other` interprets the classes the patterns do not distinguish, and `applies`
tells which of them apply their activation function. -/
noncomputable def realSem (g : Nat → ℝ → ℝ) (other : Cls → RPar → List (Option Ten) → Option Ten)
    (applies : Cls → Bool) : Sem RPar (Option Ten) where
  op
    | .conv, p, xs => convOp p xs
    | .batchNorm, p, xs => bnOp p xs
    | .multiply, _, xs => mulOp xs
    | .activation, _, [x] => x
    | c, p, xs => other c p xs
  den f t := t.map (Ten.map (fnR g f))
  applies
    | .conv => true
    | .batchNorm => true
    | .multiply => true
    | .activation => true
    | .input => false
    | .constant => false
    | c => applies c

theorem tensor3_get_at (C H W : Nat) (v : Nat → Nat → Nat → ℝ) {f i j : Nat} (hf : f < C) (hi : i < H)
    (hj : j < W) : (tensor3 C H W v).getD (at3 H W f i j) 0 = v f i j := by
  have h : at3 H W f i j < (tensor3 C H W v).length := by rw [tensor3_length]; exact at3_lt hf hi hj
  simp [List.getD, List.getElem?_eq_getElem h, tensor3_get C H W v hf hi hj h]

theorem realSem_ok (g : Nat → ℝ → ℝ) (other : Cls → RPar → List (Option Ten) → Option Ten)
    (applies : Cls → Bool) : SemOK rfold (realSem g other applies) := by
  refine ⟨?_, fun _ _ => rfl, rfl, rfl, rfl, rfl, rfl, rfl, ?_, ?_, ?_⟩
  · intro x
    cases x with
    | none => rfl
    | some t =>
      show some (t.map (fnR g .linear)) = some t
      congr 1
      ext1 <;> try rfl
      simp only [Ten.map, fnR]
      rw [show Act.compute .linear = id from funext fun _ => rfl, List.map_id]
  · intro pc pb xs
    show bnOp pb [convOp pc xs] = convOp (rfold pc pb) xs
    cases pc with
    | bn => simp [convOp, rfold, bnOp]
    | none => simp [convOp, rfold, bnOp]
    | conv c wt b =>
      match xs with
      | [some x] =>
        cases pb with
        | conv => cases h : convOp (.conv c wt b) [some x] <;> simp [convOp, rfold, bnOp]
        | none => cases h : convOp (.conv c wt b) [some x] <;> simp [convOp, rfold, bnOp]
        | bn eps scale mean var bias =>
          have h := C33_fold Real.sqrt eps scale mean var bias c id wt b x.arr.v
          simp only [convOp, rfold]
          cases h1 : convForward c id wt b x.arr.v with
          | none =>
            rw [h1] at h
            simp only [Option.map_none, Option.map_eq_none_iff] at h
            simp [h, bnOp]
          | some r =>
            rw [h1] at h
            simp only [Option.map_some, Option.map_eq_some_iff, Prod.mk.injEq] at h
            obtain ⟨r', e, h2, h3, h4, h5⟩ := h
            simp only [Option.map_some, bnOp, e, Option.some.injEq]
            ext1
            · exact h2.symm
            · exact h3.symm
            · exact h4.symm
            · show Arr.flat _ = Arr.flat r'
              rw [h5]
              show tensor3 r.C r.H r.W _ = _
              apply tensor3_congr
              intro f i j hf hi hj
              simp only [batchNormForward, Ten.arr, Ten.get, Ten.of, Arr.flat]
              rw [tensor3_get_at _ _ _ _ hf hi hj]
      | [] => simp [convOp, rfold, bnOp]
      | [none] => cases pb <;> simp [convOp, rfold, bnOp]
      | _ :: _ :: _ => cases pb <;> simp [convOp, rfold, bnOp]
  all_goals
    intro p x
    cases x with
    | none => rfl
    | some t => ?_
  · show mulOp [some t, some (t.map (fnR g .sigmoid))] = some (t.map (fnR g .silu))
    obtain ⟨r, h1, h2, h3, h4, h5⟩ := mul_forward t.C t.H t.W t.get (t.map (fnR g .sigmoid)).get
    simp only [mulOp, Option.map_eq_some_iff]
    refine ⟨r, h1, ?_⟩
    ext1
    · exact h2
    · exact h3
    · exact h4
    · show r.flat = _
      rw [h5, Ten.map_data]
      apply tensor3_congr
      intro f i j hf hi hj
      rw [Ten.map_get _ _ hf hi hj]
      exact sigmoid_eq _
  · show mulOp [some (t.map (fnR g .sigmoid)), some t] = some (t.map (fnR g .silu))
    obtain ⟨r, h1, h2, h3, h4, h5⟩ := mul_forward t.C t.H t.W (t.map (fnR g .sigmoid)).get t.get
    simp only [mulOp, Option.map_eq_some_iff]
    refine ⟨r, h1, ?_⟩
    ext1
    · exact h2
    · exact h3
    · exact h4
    · show r.flat = _
      rw [h5, Ten.map_data]
      apply tensor3_congr
      intro f i j hf hi hj
      rw [Ten.map_get _ _ hf hi hj, mul_comm]
      exact sigmoid_eq _

end Verif.Opt

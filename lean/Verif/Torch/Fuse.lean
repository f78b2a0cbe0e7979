import Verif.Torch.Flow

/-!
# Activations set on layers that exist
-/

namespace Verif.Torch
open Net Layers Graph CText
open Onnx (prod indices mk snum snum_val)
open scoped Classical

/-- the activation has a text -/
def Text (f : ℝ → ℝ) : Prop := ∀ L : Lib ℝ, L.exp = Real.exp → L.log = Real.log → L.sqrt = Real.sqrt → ∃ c : CAct ℝ, c.fn (std L) = f

theorem text_id : Text id := fun _ _ _ _ => ⟨.linear, rfl⟩

theorem text_of (c : CAct ℝ) (h : c.py.accepted) : Text (Act.compute c.py) := by
  intro L hexp hlog hsqrt
  have hL : L = realLib L.inf := by
    cases L; simp only at hexp hlog hsqrt; subst hexp hlog hsqrt; rfl
  rw [hL]
  exact ⟨c, C54_activation_compute _ _ h⟩

theorem text_relu : Text (Act.compute .relu) := text_of .relu trivial

theorem text_clip {hi lo : ℝ} (h : lo ≤ hi) : Text (Act.compute (.clip hi lo)) := by
  have hp : (CAct.clip (snum hi) (snum lo)).py = .clip hi lo := by simp only [CAct.py, snum_val]
  rw [← hp]
  refine text_of _ ?_
  rw [hp]
  simpa [Act.accepted] using h

/-- the layers that apply an activation, without one -/
inductive Fusing : Op ℝ → Prop
  | dense (i o : Nat) (w : Nat → Nat → ℝ) (b : Nat → ℝ) : Fusing (.dense i o w b id)
  | conv (c : ConvP) (w : Nat → Nat → Nat → Nat → ℝ) (b : Nat → ℝ) : Fusing (.conv .loops6 c w b id)
  | add (o s : Shape) (ss : List Shape) : Fusing (.broadcast .add o (s :: ss) none id)
  | concat (a : Np.Axis) (ss : List Shape) : Fusing (.concat a ss id)

theorem tensor_map {A B : Type} (n : Nat) (f : A → B) (v : Nat → A) : (tensor n v).map f = tensor n fun k => f (v k) := by
  simp [tensor]

theorem tensor3_map {A B : Type} (C H W : Nat) (f : A → B) (v : Nat → Nat → Nat → A) : (tensor3 C H W v).map f = tensor3 C H W fun a b c => f (v a b c) := by
  simp [tensor3, List.map_flatMap, Function.comp_def]

theorem flat_map (a : Arr ℝ) (f : ℝ → ℝ) : (a.map f).flat = a.flat.map f := by
  simp only [Arr.flat, Arr.map, tensor3_map]

theorem arr_map_id (a : Arr ℝ) : a.map id = a := rfl

theorem forward_setAct {M : CMath ℝ} {op : Op ℝ} (h : Fusing op) (f : ℝ → ℝ) {zs : List (Nd ℝ)} {z : Nd ℝ} (hz : op.forward M .first zs = some z) :
    ∃ z', (setAct f op).forward M .first zs = some z' ∧ z'.data = z.data.map f := by
  cases h with
  | dense i o w b =>
    match zs with
    | [x] =>
      simp only [Op.forward, Option.bind_eq_bind] at hz
      obtain ⟨v, hv, hz⟩ := Option.bind_eq_some_iff.mp hz
      cases hz
      refine ⟨_, by simp only [setAct, Op.forward, hv, Option.bind_eq_bind, Option.bind_some]; rfl, ?_⟩
      simp only [tensor_map]
      rfl
    | [] => simp [Op.forward] at hz
    | _ :: _ :: _ => simp [Op.forward] at hz
  | conv c w b =>
    match zs with
    | [x] =>
      simp only [Op.forward, Option.bind_eq_bind] at hz
      obtain ⟨v, hv, hz⟩ := Option.bind_eq_some_iff.mp hz
      obtain ⟨r, hr, hz⟩ := Option.bind_eq_some_iff.mp hz
      cases hz
      have hr' : convForward c f w b v.v = some (r.map f) := by
        unfold convForward at hr ⊢
        by_cases hc : (∀ i, i < c.outH → i * c.stride + c.kh ≤ c.inH + c.padTop + c.padBottom) ∧
          (∀ j, j < c.outW → j * c.stride + c.kw ≤ c.inW + c.padLeft + c.padRight)
        · rw [if_pos hc] at hr ⊢
          cases hr
          rfl
        · rw [if_neg hc] at hr; simp at hr
      refine ⟨_, by simp only [setAct, Op.forward, hv, Option.bind_eq_bind, Option.bind_some, hr']; rfl, ?_⟩
      exact flat_map r f
    | [] => simp [Op.forward] at hz
    | _ :: _ :: _ => simp [Op.forward] at hz
  | add o s ss =>
    simp only [Op.forward, Option.bind_eq_bind] at hz
    obtain ⟨as, has, hz⟩ := Option.bind_eq_some_iff.mp hz
    simp only [Option.ite_none_right_eq_some] at hz
    obtain ⟨hl, hz⟩ := hz
    obtain ⟨r, hr, hz⟩ := Option.bind_eq_some_iff.mp hz
    cases hz
    have hr' : broadcastForward .add f none as = some (r.map f) := by
      cases as with
      | nil => simp [broadcastForward] at hr
      | cons a as =>
        simp only [broadcastForward, Option.map_eq_some_iff] at hr ⊢
        obtain ⟨q, hq, rfl⟩ := hr
        exact ⟨q, hq, rfl⟩
    refine ⟨_, by simp only [setAct, Op.forward, has, Option.bind_eq_bind, Option.bind_some, if_pos hl, hr']; rfl, ?_⟩
    exact flat_map r f
  | concat a ss =>
    match zs with
    | [] => simp [Op.forward] at hz
    | [_] => simp [Op.forward] at hz
    | x :: y :: xs =>
      simp only [Op.forward, Option.bind_eq_bind] at hz
      obtain ⟨as, has, hz⟩ := Option.bind_eq_some_iff.mp hz
      simp only [Option.ite_none_right_eq_some] at hz
      obtain ⟨hl, hz⟩ := hz
      cases as with
      | nil => simp at hz
      | cons b bs =>
        simp only [Option.ite_none_right_eq_some] at hz
        obtain ⟨hc, hz⟩ := hz
        cases hz
        refine ⟨_, by simp only [setAct, Op.forward, has, Option.bind_eq_bind, Option.bind_some, if_pos hl, if_pos hc]; rfl, ?_⟩
        exact flat_map (concatForward a id b bs) f

theorem gives_setAct {M : CMath ℝ} {op : Op ℝ} (h : Fusing op) (f : ℝ → ℝ) {ds : List (List ℝ)} {d : List ℝ} (hg : Gives M op ds d) :
    Gives M (setAct f op) ds (d.map f) := by
  intro zs hzs
  obtain ⟨z, hz, rfl⟩ := hg zs hzs
  exact forward_setAct h f hz

theorem coded_setAct {op : Op ℝ} (h : Fusing op) {f : ℝ → ℝ} (hf : Text f) {ds : List (List ℝ)} {d : List ℝ} (hc : Coded op ds d) :
    Coded (setAct f op) ds (d.map f) := by
  obtain ⟨h1, h2, h3, h4, h5, h6, h7, h8⟩ := hc
  rw [← List.length_map (f := f)] at h2
  cases h with
  | dense i o w b =>
    refine ⟨h1, h2, h3, ⟨fun _ _ => by simp [setAct], fun _ => by simp [setAct]⟩, h5, h6, ?_, fun _ _ _ _ => trivial⟩
    intro L e1 e2 e3 idx road srcs hl
    obtain ⟨r, rfl⟩ := List.length_eq_one_iff.mp hl
    obtain ⟨c, rfl⟩ := hf L e1 e2 e3
    exact ⟨_, _, Emits.dense _ _ _ _ c r⟩
  | conv c w b =>
    refine ⟨h1, h2, h3, ⟨fun _ _ => by simp [setAct], fun _ => by simp [setAct]⟩, h5, h6, ?_, fun _ _ _ _ => trivial⟩
    intro L e1 e2 e3 idx road srcs hl
    obtain ⟨r, rfl⟩ := List.length_eq_one_iff.mp hl
    obtain ⟨c, rfl⟩ := hf L e1 e2 e3
    exact ⟨_, _, Emits.conv6 _ _ _ c r⟩
  | add o s ss =>
    refine ⟨h1, h2, h3, ⟨fun _ _ => by simp [setAct], fun _ => by simp [setAct]⟩, h5, h6, ?_, fun _ _ _ _ => trivial⟩
    intro L e1 e2 e3 idx road srcs hl
    obtain ⟨c, rfl⟩ := hf L e1 e2 e3
    cases srcs with
    | nil => simp [setAct, Op.inSizes] at hl
    | cons r rs => exact ⟨_, _, Emits.broadcast .add o s ss none c r rs⟩
  | concat a ss =>
    refine ⟨h1, h2, h3, ⟨fun _ _ => by simp [setAct], fun _ => by simp [setAct]⟩, h5, h6, ?_, fun _ _ _ _ => trivial⟩
    intro L e1 e2 e3 idx road srcs hl
    obtain ⟨c, rfl⟩ := hf L e1 e2 e3
    exact ⟨_, _, Emits.concat a ss c srcs⟩

end Verif.Torch

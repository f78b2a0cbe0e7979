import Verif.Export.Local3
import Verif.Onnx.LocalPad

/-!
# An exported Pad node against the layer it is exported from
-/

namespace Verif.Export
open Net Layers Graph
open Onnx (prod mk indices shapeOf cut Init OpType Attr)
open Torch (Gives map_one)
open scoped Classical

variable {M : CMath ℝ} {opset : Nat}

theorem ints_array (name : String) (d : List Nat) (l : List Int) (h : l.length = prod d) : (ints name d l).array = some ⟨d, l.map fun z => (z : ℝ)⟩ := by
  simp [ints, Init.array, Onnx.Payload.reals, h]
  exact List.map_eq_flatMap ..

/-- `mkM` on values that exist -/
theorem mkM_value {d : List Nat} {v : List Nat → Option ℝ} {g : List Nat → ℝ} (hg : ∀ ix ∈ indices d, v ix = some (g ix)) : Onnx.Spec.mkM d v = some (mk d g) := by
  obtain ⟨y, hy, hd, _⟩ := mkM_exists fun ix hix => ⟨_, hg ix hix⟩
  rw [hy, show y = ⟨y.dims, y.data⟩ from rfl, hd, Onnx.mkM_some hy hg]
  rfl

/-- the value of Pad on an image -/
noncomputable def padT (s : Shape) (p : Pads3) (g : Nat → Nat → Nat → ℝ) : Nd ℝ :=
  mk [1, (padShape s p).C, (padShape s p).H, (padShape s p).W] fun ix => g (ix.getD 1 0) (ix.getD 2 0) (ix.getD 3 0)

theorem pad_spec {n : Onnx.Node} {s : Shape} {p : Pads3} {x : Nd ℝ} {k : ℝ} {mode : String} (hx : x.dims = [1, s.C, s.H, s.W]) (hpos : 0 < s.C ∧ 0 < s.H ∧ 0 < s.W)
    (hmode : n.str? "mode" = some mode) {g : Nat → Nat → Nat → ℝ}
    (hg : ∀ c i j, c < (padShape s p).C → i < (padShape s p).H → j < (padShape s p).W →
      ((do
        let a ← Onnx.Spec.padIndex mode 1 0
        let b ← Onnx.Spec.padIndex mode s.C ((c : Int) - p.cf)
        let c ← Onnx.Spec.padIndex mode s.H ((i : Int) - p.hf)
        let d ← Onnx.Spec.padIndex mode s.W ((j : Int) - p.wf)
        some (if [a, b, c, d].all Option.isSome then x.get ([a, b, c, d].map fun o => o.getD 0) else k)) : Option ℝ) = some (g c i j)) :
    Onnx.Spec.pad n x ⟨[8], [0, (p.cf : Int), (p.hf : Int), (p.wf : Int), 0, (p.cb : Int), (p.hb : Int), (p.wb : Int)].map fun z => ((z : Int) : ℝ)⟩ (some ⟨[], [k]⟩) = some (padT s p g) := by
  have hp : ([0, (p.cf : Int), (p.hf : Int), (p.wf : Int), 0, (p.cb : Int), (p.hb : Int), (p.wb : Int)].map fun z => ((z : Int) : ℝ)).map Onnx.Spec.toInt =
      [0, (p.cf : Int), (p.hf : Int), (p.wf : Int), 0, (p.cb : Int), (p.hb : Int), (p.wb : Int)] := by
    rw [List.map_map]
    conv_rhs => rw [← List.map_id [0, (p.cf : Int), (p.hf : Int), (p.wf : Int), 0, (p.cb : Int), (p.hb : Int), (p.wb : Int)]]
    exact List.map_congr_left fun z _ => Int.floor_intCast z
  have r4 : List.range 4 = [0, 1, 2, 3] := rfl
  unfold Onnx.Spec.pad
  simp only [hp, hmode, hx, List.length_cons, List.length_nil, show 0 + 1 + 1 + 1 + 1 = 4 from rfl, if_true, List.head?_cons, Option.getD_some, Option.bind_eq_bind, Option.bind_some, show (0 + 1 : Nat) = 1 from rfl]
  rw [if_pos ⟨by trivial, by intro z hz; simp only [List.mem_cons, List.not_mem_nil, or_false] at hz; rcases hz with rfl | rfl | rfl | rfl | rfl | rfl | rfl | rfl <;> omega, by
    intro d hd; simp only [List.mem_cons, List.not_mem_nil, or_false] at hd; rcases hd with rfl | rfl | rfl | rfl <;> omega⟩]
  simp only [r4, List.map_cons, List.map_nil, List.getD_cons_zero, List.getD_cons_succ, Int.toNat_natCast, Int.toNat_zero, Nat.add_zero, show 4 + 1 = 5 from rfl,
    show 4 + 2 = 6 from rfl, show 4 + 3 = 7 from rfl, List.mapM_cons, List.mapM_nil, sub_zero]
  refine mkM_value ?_
  intro ix hix
  obtain ⟨c, i, j, rfl, h1, h2, h3⟩ := Onnx.mem_four hix
  have := hg c i j h1 h2 h3
  simp only [List.getD_cons_zero, List.getD_cons_succ, Nat.cast_zero, Option.bind_eq_bind, Option.pure_def] at this ⊢
  rw [← this]
  cases Onnx.Spec.padIndex mode 1 0 with
  | none => rfl
  | some a =>
    cases Onnx.Spec.padIndex mode s.C ((c : Int) - p.cf) with
    | none => rfl
    | some b =>
      cases Onnx.Spec.padIndex mode s.H ((i : Int) - p.hf) with
      | none => rfl
      | some b =>
        cases Onnx.Spec.padIndex mode s.W ((j : Int) - p.wf) with
        | none => rfl
        | some b => rfl

theorem padT_layer {s : Shape} {p : Pads3} {g : Nat → Nat → Nat → ℝ} {op : Op ℝ} {x : Nd ℝ}
    (h : ∀ f (i : Nd ℝ), i.data = x.data → (setAct f op).forward M .first [i] = some (ofArr ((⟨(padShape s p).C, (padShape s p).H, (padShape s p).W, g⟩ : Arr ℝ).map f))) :
    LayerGives M op [x] (padT s p g) := by
  refine ⟨Onnx.mk_ok _ _, fun f zs hzs => ?_⟩
  obtain ⟨z, rfl, hz⟩ := map_one hzs
  refine ⟨_, h f z hz, ?_⟩
  show tensor3 _ _ _ _ = ((indices _).map _).map f
  rw [Onnx.indices_four, Torch.tensor3_map]
  rfl

theorem image_get {s : Shape} {x : Nd ℝ} (hx : x.dims = [1, s.C, s.H, s.W]) {c i j : Nat} (h1 : c < s.C) (h2 : i < s.H) (h3 : j < s.W) :
    x.get [0, c, i, j] = (arrOf s x.data).v c i j := by
  have := Onnx.get_cut x (s := s) (by rw [hx]; rfl) h1 h2 h3
  rw [hx] at this
  exact this

theorem constantPad_good (s : Shape) (p : Pads3) (k : ℝ) (f0 : ℝ → ℝ) (a : Act ℝ) (hpos : 0 < s.C ∧ 0 < s.H ∧ 0 < s.W) {x : Nd ℝ} (hx : x.dims = [1, s.C, s.H, s.W]) (hok : x.Ok) :
    Good M opset ⟨.constantPad s p k f0, a⟩ [x] [1, (padShape s p).C, (padShape s p).H, (padShape s p).W] := by
  refine good_of' (t := padT s p (Np.padConstant p.cf p.cb p.hf p.hb p.wf p.wb k (arrOf s x.data)).v) (by simp) ?_ (padT_layer ?_)
  · intro i ins hl
    obtain ⟨x0, rfl⟩ := List.length_eq_one_iff.mp hl
    refine ⟨.Pad, _, _, _, 1, rfl, .cons (ints_array _ _ _ rfl) (.cons (floats_array _ _ _ rfl) .nil), ⟨["_pads", "_constant"], rfl, by decide, by decide⟩, ?_⟩
    refine pad_spec hx hpos (mode := "constant") rfl ?_
    intro c i j _ _ _
    have hz : Onnx.Spec.padIndex "constant" 1 0 = some (some 0) := rfl
    by_cases hin : p.cf ≤ c ∧ c < p.cf + s.C ∧ p.hf ≤ i ∧ i < p.hf + s.H ∧ p.wf ≤ j ∧ j < p.wf + s.W
    · rw [hz, Onnx.pad_in hin.1 hin.2.1, Onnx.pad_in hin.2.2.1 hin.2.2.2.1, Onnx.pad_in hin.2.2.2.2.1 hin.2.2.2.2.2]
      simp only [Option.bind_eq_bind, Option.bind_some, List.all_cons, List.all_nil, Option.isSome_some, Bool.and_self, if_true, List.map_cons, List.map_nil, Option.getD_some]
      rw [image_get hx (by omega) (by omega) (by omega)]
      exact congrArg some (if_pos hin).symm
    · have : ¬ ((0 ≤ (c : Int) - p.cf ∧ (c : Int) - p.cf < s.C) ∧ (0 ≤ (i : Int) - p.hf ∧ (i : Int) - p.hf < s.H) ∧ (0 ≤ (j : Int) - p.wf ∧ (j : Int) - p.wf < s.W)) := by omega
      simp only [hz, Onnx.pad_constant, Option.bind_eq_bind, Option.bind_some]
      refine congrArg some ((?_ : _ = _).trans (if_neg hin).symm)
      refine if_neg ?_
      simp only [List.all_cons, List.all_nil, Bool.and_eq_true, Bool.and_true]
      rintro ⟨_, g1, g2, g3⟩
      apply this
      refine ⟨?_, ?_, ?_⟩ <;> by_contra hc
      · rw [if_neg hc] at g1; simp at g1
      · rw [if_neg hc] at g2; simp at g2
      · rw [if_neg hc] at g3; simp at g3
  · intro f i hd
    simp only [setAct, Op.forward, Onnx.reshape3_ok (s := s) hd hok (by rw [hx]; rfl), Option.bind_eq_bind, Option.bind_some]
    rfl

theorem pad_good (m : PadMode) (s : Shape) (p : Pads3) (f0 : ℝ → ℝ) (a : Act ℝ) (hpos : 0 < s.C ∧ 0 < s.H ∧ 0 < s.W) {x : Nd ℝ} (hx : x.dims = [1, s.C, s.H, s.W]) (hok : x.Ok) :
    Good M opset ⟨.pad m s p f0, a⟩ [x] [1, (padShape s p).C, (padShape s p).H, (padShape s p).W] := by
  have go : ∀ (name : String), name = (match m with | .edge => "edge" | .reflect => "reflect" | .wrap => "wrap") →
      (∀ {n : Nat}, 0 < n → ∀ z, Onnx.Spec.padIndex name n z = some (some (m.np n z)) ∧ m.np n z < n) →
      Good M opset ⟨.pad m s p f0, a⟩ [x] [1, (padShape s p).C, (padShape s p).H, (padShape s p).W] := by
    intro name hn hmode
    refine good_of' (t := padT s p (Np.padBy m.np p.cf p.cb p.hf p.hb p.wf p.wb (arrOf s x.data)).v) (by simp) ?_ (padT_layer ?_)
    · intro i ins hl
      obtain ⟨x0, rfl⟩ := List.length_eq_one_iff.mp hl
      refine ⟨.Pad, _, _, _, 1, rfl, .cons (ints_array _ _ _ rfl) (.cons (floats_array _ _ _ rfl) .nil), ⟨["_pads", "_constant"], rfl, by decide, by decide⟩, ?_⟩
      refine pad_spec hx hpos (mode := name) (by rw [hn]; rfl) ?_
      intro c i j _ _ _
      have m0 := (hmode (n := 1) (by omega) 0)
      have hz : m.np 1 0 = 0 := by omega
      simp only [m0.1, hz, (hmode hpos.1 _).1, (hmode hpos.2.1 _).1, (hmode hpos.2.2 _).1, Option.bind_eq_bind, Option.bind_some]
      simp only [List.all_cons, List.all_nil, Option.isSome_some, Bool.and_self, if_true, List.map_cons, List.map_nil, Option.getD_some]
      rw [image_get hx (hmode hpos.1 _).2 (hmode hpos.2.1 _).2 (hmode hpos.2.2 _).2]
      rfl
    · intro f i hd
      simp only [setAct, Op.forward, Onnx.reshape3_ok (s := s) hd hok (by rw [hx]; rfl), Option.bind_eq_bind, Option.bind_some]
      rfl
  cases m with
  | edge => exact go "edge" rfl fun hn z => Onnx.pad_edge hn z
  | wrap => exact go "wrap" rfl fun hn z => Onnx.pad_wrap hn z
  | reflect => exact go "reflect" rfl fun hn z => Onnx.pad_reflect hn z

end Verif.Export

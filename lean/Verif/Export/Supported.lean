import Verif.Export.Local3
import Verif.Export.LocalPad

/-!
# The networks whose export is covered
-/

namespace Verif.Export
open Net Layers Graph
open Onnx (prod shapeOf Init OpType Attr)
open Torch (Gives)

/-- an activation function exported as a node of its own -/
def FusedOk (a : Act ℝ) : Prop := a.accepted ∧ a ≠ .silu

/-- `Exports op act ds d`: a layer with the activation function `act` whose producers' tensors have the dimensions `ds` in the exported model and whose own tensor has the
dimensions `d` there. -/
inductive Exports : Op ℝ → Act ℝ → List (List Nat) → List Nat → Prop
  | flatten (s : Shape) (d : List Nat) : Exports (.flatten s) .linear [d] [1, prod d]
  /-- an ActivationLayer; not Linear (no node), Silu (no operator), Clip and LeakyReLU with another slope than 0.01 (no parameters) -/
  | activation (n : Nat) (f : ℝ → ℝ) (a : Act ℝ) (d : List Nat) (ha : a = .relu ∨ a = .tanh ∨ a = .sigmoid ∨ a = .exponential ∨ a = .logarithm ∨ a = .leakyRelu 0.01) :
    Exports (.activation n f) a [d] d
  | gemm (tA tB : Bool) (m n kd : Nat) (alpha beta : ℝ) (w : Nat → Nat → ℝ) (c : Nat → ℝ) (f : ℝ → ℝ) (a : Act ℝ) (ha : FusedOk a) :
    Exports (.gemm tA tB m n kd alpha beta w c f) a [if tA then [kd, m] else [m, kd]] [m, n]
  /-- the entries of `pads` are written in another order than ONNX reads them: the same padding on top and on the right -/
  | conv (impl : ConvImpl) (c : ConvP) (wt : Nat → Nat → Nat → Nat → ℝ) (b : Nat → ℝ) (f : ℝ → ℝ) (a : Act ℝ) (ha : FusedOk a) (hacc : c.Accepted) (hdil : c.dil = 1)
    (hfit : c.kh ≤ c.inH + c.padTop + c.padBottom ∧ c.kw ≤ c.inW + c.padLeft + c.padRight) (hpad : c.padTop = c.padRight) :
    Exports (.conv impl c wt b f) a [[1, c.inC, c.inH, c.inW]] [1, c.filters, c.outH, c.outW]
  | maxPool (c : PoolP) (f : ℝ → ℝ) (hacc : c.Accepted) (hfit : c.pool ≤ c.H ∧ c.pool ≤ c.W) (hpad : c.padTop = 0 ∧ c.padBottom = 0 ∧ c.padLeft = 0 ∧ c.padRight = 0) :
    Exports (.maxPool c f) .linear [[1, c.C, c.H, c.W]] [1, c.C, c.Ho, c.Wo]
  | avgPool (c : PoolP) (f : ℝ → ℝ) (hacc : c.Accepted) (hfit : c.pool ≤ c.H ∧ c.pool ≤ c.W) (hpad : c.padTop = 0 ∧ c.padBottom = 0 ∧ c.padLeft = 0 ∧ c.padRight = 0) :
    Exports (.avgPool c f) .linear [[1, c.C, c.H, c.W]] [1, c.C, c.Ho, c.Wo]
  | batchNorm (s : Shape) (eps : ℝ) (scale mean var bias : Nat → ℝ) (f : ℝ → ℝ) (a : Act ℝ) (ha : FusedOk a) :
    Exports (.batchNorm s eps scale mean var bias f) a [[1, s.C, s.H, s.W]] [1, s.C, s.H, s.W]
  /-- the axis is not written: it must be the last one -/
  | softmax (s : Shape) (f : ℝ → ℝ) (hone : softmaxOneDim s.size s.C s.H s.W = false) :
    Exports (.softmax s (some .w) f) .linear [[1, s.C, s.H, s.W]] [1, s.C, s.H, s.W]
  | softmaxRow (s : Shape) (ax : Option Layers.Axis) (f : ℝ → ℝ) (hone : softmaxOneDim s.size s.C s.H s.W = true) :
    Exports (.softmax s ax f) .linear [[1, s.size]] [1, s.size]
  | transpose (s : Shape) (p : Perm3) (f : ℝ → ℝ) :
    Exports (.transpose s p f) .linear [[1, s.C, s.H, s.W]] [1, (transposeShape p s).C, (transposeShape p s).H, (transposeShape p s).W]
  | constantPad (s : Shape) (p : Pads3) (k : ℝ) (f : ℝ → ℝ) (a : Act ℝ) (ha : FusedOk a) (hpos : 0 < s.C ∧ 0 < s.H ∧ 0 < s.W) :
    Exports (.constantPad s p k f) a [[1, s.C, s.H, s.W]] [1, (padShape s p).C, (padShape s p).H, (padShape s p).W]
  | pad (m : PadMode) (s : Shape) (p : Pads3) (f : ℝ → ℝ) (a : Act ℝ) (ha : FusedOk a) (hpos : 0 < s.C ∧ 0 < s.H ∧ 0 < s.W) :
    Exports (.pad m s p f) a [[1, s.C, s.H, s.W]] [1, (padShape s p).C, (padShape s p).H, (padShape s p).W]
  /-- two producers, the second broadcast to the first -/
  | two (b : BOp) (op : ℝ → ℝ → ℝ) (hb : Arith b op) (o s1 s2 : Shape) (f : ℝ → ℝ) (a : Act ℝ) (ha : FusedOk a) (d1 d2 : List Nat) (h1 : shapeOf d1 = some s1)
    (h2 : shapeOf d2 = some s2) (hbs : Onnx.bshape d1 d2 = some d1) : Exports (.broadcast b o [s1, s2] none f) a [d1, d2] d1
  /-- one producer and no constant -/
  | one (b : BOp) (op : ℝ → ℝ → ℝ) (hb : Arith b op) (o s1 : Shape) (f : ℝ → ℝ) (a : Act ℝ) (ha : FusedOk a) (d1 : List Nat) (h1 : shapeOf d1 = some s1) :
    Exports (.broadcast b o [s1] none f) a [d1] d1
  /-- one producer and a constant, whose axes of length one come first (they are removed) -/
  | cst (b : BOp) (op : ℝ → ℝ → ℝ) (hb : Arith b op) (hne : b ≠ .add) (o s1 : Shape) (k : Arr ℝ) (f : ℝ → ℝ) (a : Act ℝ) (ha : FusedOk a) (d1 : List Nat)
    (h1 : shapeOf d1 = some s1) (hk : shapeOf ([k.C, k.H, k.W].filter (· ≠ 1)) = some ⟨k.C, k.H, k.W⟩)
    (hbs : Onnx.bshape d1 ([k.C, k.H, k.W].filter (· ≠ 1)) = some d1) : Exports (.broadcast b o [s1] (some k) f) a [d1] d1
  | concat (ax : Np.Axis) (s : Shape) (sr : List Shape) (f : ℝ → ℝ) (a : Act ℝ) (ha : FusedOk a) (h2 : 1 ≤ sr.length)
    (hall : ∀ t ∈ sr, (ax ≠ .c → t.C = s.C) ∧ (ax ≠ .h → t.H = s.H) ∧ (ax ≠ .w → t.W = s.W)) :
    Exports (.concat ax (s :: sr) f) a ((s :: sr).map fun t => [1, t.C, t.H, t.W])
      [1, (concatShape ax (s :: sr)).C, (concatShape ax (s :: sr)).H, (concatShape ax (s :: sr)).W]

theorem map_one_eq {A B : Type} {f : A → B} {l : List A} {b : B} (h : l.map f = [b]) : ∃ a, l = [a] ∧ f a = b := by
  match l, h with
  | [a], h => exact ⟨a, rfl, by simpa using h⟩

theorem images_map {xs : List (Nd ℝ)} {ss : List Shape} (h : xs.map Nd.dims = ss.map fun t => [1, t.C, t.H, t.W]) : List.Forall₂ Torch.Image xs ss := by
  induction ss generalizing xs with
  | nil => simp at h; subst h; exact .nil
  | cons s ss ih =>
    cases xs with
    | nil => simp at h
    | cons x xs =>
      simp only [List.map_cons, List.cons.injEq] at h
      exact .cons h.1 (ih h.2)

/-- every covered layer is exported as a node that computes it -/
theorem exports_good {M : CMath ℝ} {opset : Nat} (hexp : M.exp = Real.exp) (hsqrt : M.sqrt = Real.sqrt) (hv : 13 ≤ opset) {op : Op ℝ} {act : Act ℝ} {ds : List (List Nat)}
    {d : List Nat} (h : Exports op act ds d) {ts : List (Nd ℝ)} (hts : ts.map Nd.dims = ds) (hok : ∀ t ∈ ts, t.Ok) : Good M opset ⟨op, act⟩ ts d := by
  cases h with
  | flatten s d =>
    obtain ⟨x, rfl, rfl⟩ := map_one_eq hts
    exact flatten_good s (hok x (by simp))
  | activation n f a d ha =>
    obtain ⟨x, rfl, rfl⟩ := map_one_eq hts
    exact activation_good ha n f (hok x (by simp))
  | gemm tA tB m n kd alpha beta w c f a ha =>
    obtain ⟨x, rfl, hx⟩ := map_one_eq hts
    exact good_of (by simp) (gemm_node alpha beta w c f act hx) (gemm_layer alpha beta w c f hx (hok x (by simp)))
  | conv impl c wt b f a ha hacc hdil hfit hpad =>
    obtain ⟨x, rfl, hx⟩ := map_one_eq hts
    exact good_of (by simp) (conv_node hacc hdil hfit hpad impl wt b f act hx) (conv_layer hacc hdil impl wt b f hx (hok x (by simp)))
  | maxPool c f hacc hfit hpad =>
    obtain ⟨x, rfl, hx⟩ := map_one_eq hts
    obtain ⟨t, h1, h2, h3, h4⟩ := maxPool_ok (M := M) (opset := opset) hacc hfit hpad f .linear hx (hok x (by simp))
    exact good_linear h1 h2 h3 (h4 id)
  | avgPool c f hacc hfit hpad =>
    obtain ⟨x, rfl, hx⟩ := map_one_eq hts
    obtain ⟨t, h1, h2, h3, h4⟩ := avgPool_ok (M := M) (opset := opset) hacc hfit hpad f .linear hx (hok x (by simp))
    exact good_linear h1 h2 h3 (h4 id)
  | batchNorm s eps scale mean var bias f a ha =>
    obtain ⟨x, rfl, hx⟩ := map_one_eq hts
    exact batchNorm_good hsqrt s eps scale mean var bias f act hx (hok x (by simp))
  | softmax s f hone =>
    obtain ⟨x, rfl, hx⟩ := map_one_eq hts
    have := softmax_good (opset := opset) hexp hv s f (x := x) (by rw [hx]; rfl) (by rw [hx]; simp) (hok x (by simp)) hone
    rwa [hx] at this
  | softmaxRow s ax f hone =>
    obtain ⟨x, rfl, hx⟩ := map_one_eq hts
    exact softmax_row_good hexp hv s ax f hx (hok x (by simp)) hone
  | transpose s p f =>
    obtain ⟨x, rfl, hx⟩ := map_one_eq hts
    exact transpose_good s p f hx (hok x (by simp))
  | constantPad s p k f a ha hpos =>
    obtain ⟨x, rfl, hx⟩ := map_one_eq hts
    exact constantPad_good s p k f act hpos hx (hok x (by simp))
  | pad m s p f a ha hpos =>
    obtain ⟨x, rfl, hx⟩ := map_one_eq hts
    exact pad_good m s p f act hpos hx (hok x (by simp))
  | two b op hb o s1 s2 f a ha d1 d2 h1 h2 hbs =>
    match ts, hts with
    | [x, y], hts =>
      simp only [List.map_cons, List.map_nil, List.cons.injEq, and_true] at hts
      obtain ⟨rfl, rfl⟩ := hts
      exact two_good hb o f act h1 h2 (hok x (by simp)) (hok y (by simp)) hbs
  | one b op hb o s1 f a ha d1 h1 =>
    obtain ⟨x, rfl, rfl⟩ := map_one_eq hts
    exact one_good hb o f act h1 (hok x (by simp))
  | cst b op hb hne o s1 k f a ha d1 h1 hk hbs =>
    obtain ⟨x, rfl, rfl⟩ := map_one_eq hts
    exact cst_good hb hne o k f act h1 (hok x (by simp)) hk hbs
  | concat ax s sr f a ha h2 hall => exact concat_good ax f act (images_map hts) h2 hok hall

/-- an activation function exported as a node of its own has an operator -/
theorem exports_fused {op : Op ℝ} {act : Act ℝ} {ds : List (List Nat)} {d : List Nat} (h : Exports op act ds d) (hf : (⟨op, act⟩ : XLayer).fused = true) :
    act.accepted ∧ act ≠ .silu ∧ act ≠ .linear := by
  have hl : act ≠ .linear := by
    rintro rfl
    revert hf
    cases op <;> simp [XLayer.fused]
  cases h with
  | flatten => exact absurd rfl hl
  | maxPool => exact absurd rfl hl
  | avgPool => exact absurd rfl hl
  | softmax => exact absurd rfl hl
  | softmaxRow => exact absurd rfl hl
  | transpose => exact absurd rfl hl
  | activation => simp [XLayer.fused] at hf
  | gemm _ _ _ _ _ _ _ _ _ _ _ ha => exact ⟨ha.1, ha.2, hl⟩
  | conv _ _ _ _ _ _ ha => exact ⟨ha.1, ha.2, hl⟩
  | constantPad _ _ _ _ _ ha => exact ⟨ha.1, ha.2, hl⟩
  | pad _ _ _ _ _ ha => exact ⟨ha.1, ha.2, hl⟩
  | batchNorm _ _ _ _ _ _ _ _ ha => exact ⟨ha.1, ha.2, hl⟩
  | two _ _ _ _ _ _ _ _ ha => exact ⟨ha.1, ha.2, hl⟩
  | one _ _ _ _ _ _ _ ha => exact ⟨ha.1, ha.2, hl⟩
  | cst _ _ _ _ _ _ _ _ _ ha => exact ⟨ha.1, ha.2, hl⟩
  | concat _ _ _ _ _ ha => exact ⟨ha.1, ha.2, hl⟩

/-- The networks whose export is covered: channels first, one input, every other layer covered for the dimensions `D` of the tensors. -/
structure Supported (net : XNet) (order : List Nat) (i0 : Nat) (D : Nat → List Nat) : Prop where
  fmt : net.fmt = .first
  mem : i0 ∈ order
  source : net.graph.prevOf i0 = []
  input : ∃ r s, net.layer i0 = ⟨.input r s, .linear⟩ ∧ D i0 = if r then [1, s.C, s.H, s.W] else [1, s.size]
  other : ∀ n ∈ order, n ≠ i0 → net.graph.prevOf n ≠ [] ∧ Exports (net.layer n).op (net.layer n).act ((net.graph.prevOf n).map D) (D n)

end Verif.Export

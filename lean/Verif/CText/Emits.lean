import Verif.CText.SourceCode
import Verif.CText.ActLayer
import Verif.CText.Linear
import Verif.CText.Move
import Verif.CText.Pad
import Verif.CText.Io
import Verif.CText.Norm
import Verif.CText.Conv
import Verif.CText.Gemm
import Verif.CText.Reduce
import Verif.CText.StdGemm
import Verif.CText.Concat
import Verif.CText.Broadcast
import Verif.CText.Resize
import Verif.Net.Model

/-!
# The text that each layer contributes to `inference.c`
-/

namespace Verif.CText
open Prog Layers Net
set_option linter.unusedVariables false
set_option linter.unusedSectionVars false
variable {K : Type}

/-! ## What the source file declares for a layer -/

/-- `isinstance(layer, Conv2D)`, .. -/
def _root_.Verif.Net.Op.isConv : Op K → Bool | .conv .. => true | _ => false
def _root_.Verif.Net.Op.isConv6 : Op K → Bool | .conv .loops6 .. => true | _ => false
def _root_.Verif.Net.Op.isStdGemm : Op K → Bool | .conv .stdGemm .. => true | _ => false
def _root_.Verif.Net.Op.isMaxPool : Op K → Bool | .maxPool .. => true | _ => false
def _root_.Verif.Net.Op.isAvgPool : Op K → Bool | .avgPool .. => true | _ => false
def _root_.Verif.Net.Op.isGemm : Op K → Bool | .gemm .. => true | _ => false
def _root_.Verif.Net.Op.isDense : Op K → Bool | .dense .. => true | _ => false
def _root_.Verif.Net.Op.isMatMul : Op K → Bool | .matmul .. => true | _ => false
def _root_.Verif.Net.Op.isSoftmax : Op K → Bool | .softmax .. => true | _ => false
def _root_.Verif.Net.Op.isReduce : Op K → Bool | .reduce .. => true | _ => false
def _root_.Verif.Net.Op.isResize : Op K → Bool | .resize .. => true | _ => false
def _root_.Verif.Net.Op.isCubic : Op K → Bool | .resize (.cubic _) .. => true | _ => false
def _root_.Verif.Net.Op.isLinear : Op K → Bool | .resize .linear .. => true | _ => false

/-- the keys set by `generate_function_source_file` (`generator/neural_network.py` 842-888); `Conv2DGemmTarget` is not
modelled -/
def flags (ops : List (Op K)) : SrcFlags where
  p := ops.any fun o => o.isMaxPool || o.isAvgPool || o.isConv || o.isGemm
  hw := ops.any fun o => o.isConv6 || o.isStdGemm || o.isMaxPool || o.isAvgPool || o.isGemm
  dense := ops.any fun o => o.isDense || o.isMatMul
  sum := ops.any fun o => o.isConv6 || o.isAvgPool || o.isSoftmax
  max := ops.any fun o => o.isMaxPool
  count := ops.any fun o => o.isAvgPool
  resize := ops.any fun o => o.isResize
  cubic := ops.any fun o => o.isCubic
  linear := ops.any fun o => o.isLinear
  reduced := ops.any fun o => o.isReduce

/-- `gather.indices.flatten()` of the Gather and GatherElements layers (`generator/neural_network.py` 825-837) -/
def _root_.Verif.Net.Op.indices? : Op K → Option (List Nat)
  | .gather _ _ _ idx _ => some idx
  | .gatherElements _ _ o idx _ => some (tensor3 o.C o.H o.W idx)
  | _ => none

/-- the index arrays of the layers with the given indices -/
def indexArrays (op : Nat → Op K) (order : List Nat) : List (Nat × List Nat) :=
  order.filterMap fun n => (op n).indices?.map fun l => (n, l)

/-! ## The texts -/

/-- an operand with its dimensions -/
def rop (x : Ref × Shape) : ROp := ⟨x.1, x.2.C, x.2.H, x.2.W⟩

variable [Field K] [LinearOrder K] [FloorRing K]

/-- the library functions of the text as the model of networks uses them -/
def Lib.cmath (L : Lib K) : CMath K := ⟨L.exp, L.sqrt, -L.inf⟩

/-- `Emits L fmt idx road op srcs text hash`: `generate_inference_code_layer` of the layer `op`, of index `idx` and path
`road`, whose producers have the `output_str` given by `srcs`, renders the template `text` with `hash`.  Activation functions
are those of `activation_functions.py`; numbers are printed with their sign. -/
inductive Emits (L : Lib K) (fmt : DataFormat) (idx road : Nat) : Op K → List Ref → List Char → Hash K → Prop
  | input (r : Bool) (s : Shape) : Emits L fmt idx road (.input r s) [] Tpl.input_Layer (inputHash fmt .first r s.C s.H s.W s.size idx road)
  | constant (v : Nd K) : Emits L fmt idx road (.constant v) [] Tpl.constant (constantHash v.data.length idx road)
  | dense (p n : Nat) (w : Nat → Nat → K) (b : Nat → K) (act : CAct K) (src : Ref) :
    Emits L fmt idx road (.dense p n w b (act.fn (std L))) [src] Tpl.dense (denseHash n p idx act src road)
  | activation (n : Nat) (act : CAct K) (src : Ref) :
    Emits L fmt idx road (.activation n (act.fn (std L))) [src] activationTpl (activationHash n idx act src road)
  | flatten (s : Shape) (src : Ref) : Emits L fmt idx road (.flatten s) [src] Tpl.flatten (flattenHash fmt s.C s.H s.W s.size idx road)
  | matmul (C C' H Kd W : Nat) (act : CAct K) (l r : Ref) :
    Emits L fmt idx road (.matmul C C' H Kd W (act.fn (std L))) [l, r] Tpl.matMul (matmulHash C H W Kd (W * H * C) idx act l r road)
  | gemmNN (m n k : Nat) (alpha beta : K) (w : Nat → Nat → K) (c : Nat → K) (al be : Option (SNum K)) (act : CAct K) (src : Ref)
      (ha : scaleList al = factor alpha) (hb : scaleList be = factor beta) :
    Emits L fmt idx road (.gemm false false m n k alpha beta w c (act.fn (std L))) [src] Tpl.gemm (gemmNNHash m n k (n * m) (m * n) idx al be act src road)
  | gemmNT (m n k : Nat) (alpha beta : K) (w : Nat → Nat → K) (c : Nat → K) (al be : Option (SNum K)) (act : CAct K) (src : Ref)
      (ha : scaleList al = factor alpha) (hb : scaleList be = factor beta) :
    Emits L fmt idx road (.gemm false true m n k alpha beta w c (act.fn (std L))) [src] Tpl.gemm (gemmNTHash m n k (n * m) (m * n) idx al be act src road)
  | gemmTN (m n k : Nat) (alpha beta : K) (w : Nat → Nat → K) (c : Nat → K) (al be : Option (SNum K)) (act : CAct K) (src : Ref)
      (ha : scaleList al = factor alpha) (hb : scaleList be = factor beta) :
    Emits L fmt idx road (.gemm true false m n k alpha beta w c (act.fn (std L))) [src] Tpl.gemm (gemmTNHash m n k (n * m) (m * n) idx al be act src road)
  | gemmTT (m n k : Nat) (alpha beta : K) (w : Nat → Nat → K) (c : Nat → K) (al be : Option (SNum K)) (act : CAct K) (src : Ref)
      (ha : scaleList al = factor alpha) (hb : scaleList be = factor beta) :
    Emits L fmt idx road (.gemm true true m n k alpha beta w c (act.fn (std L))) [src] Tpl.gemm (gemmTTHash m n k (n * m) (m * n) idx al be act src road)
  | conv6 (c : ConvP) (wt : Nat → Nat → Nat → Nat → K) (b : Nat → K) (act : CAct K) (src : Ref) :
    Emits L fmt idx road (.conv .loops6 c wt b (act.fn (std L))) [src] Tpl.conv_6loops (conv6Hash c (c.filters * c.outH * c.outW) idx act src road)
  | stdGemm (c : ConvP) (wt : Nat → Nat → Nat → Nat → K) (b : Nat → K) (act : CAct K) (src : Ref) :
    Emits L fmt idx road (.conv .stdGemm c wt b (act.fn (std L))) [src] Tpl.conv_std_gemm (stdGemmHash c (c.filters * c.outH * c.outW) idx act src road)
  | maxPool (c : PoolP) (act : CAct K) (src : Ref) :
    Emits L fmt idx road (.maxPool c (act.fn (std L))) [src] Tpl.pooling2D (maxPoolHash c (c.C * c.Ho * c.Wo) idx act src road)
  | avgPool (c : PoolP) (act : CAct K) (src : Ref) :
    Emits L fmt idx road (.avgPool c (act.fn (std L))) [src] Tpl.pooling2D (avgPoolHash c (c.C * c.Ho * c.Wo) idx act src road)
  | broadcast (op : BOp) (o s : Shape) (ss : List Shape) (cst : Option (Arr K)) (act : CAct K) (src : Ref) (srcs : List Ref) :
    Emits L fmt idx road (.broadcast op o (s :: ss) cst (act.fn (std L))) (src :: srcs) Tpl.broadcast
      (bcHash op o.C o.H o.W o.size idx act (rop (src, s)) ((srcs.zip ss).map rop) (cst.map fun c => ⟨c.C, c.H, c.W⟩) road)
  | concat (a : Np.Axis) (ins : List Shape) (act : CAct K) (srcs : List Ref) :
    Emits L fmt idx road (.concat a ins (act.fn (std L))) srcs Tpl.concatenate
      (concatHash a (concatShape a ins).C (concatShape a ins).H (concatShape a ins).W (concatShape a ins).size idx act ((srcs.zip ins).map rop) road)
  | gather (a : Np.Axis) (s : Shape) (d l : List Nat) (act : CAct K) (src : Ref) :
    Emits L fmt idx road (.gather a s d l (act.fn (std L))) [src] Tpl.gather
      (gatherHash a l.length s.W s.H (gatherShape a s l.length).C (gatherShape a s l.length).H (gatherShape a s l.length).W
        (gatherShape a s l.length).size idx act src road)
  | gatherElements (a : Np.Axis) (s o : Shape) (l : Nat → Nat → Nat → Nat) (act : CAct K) (src : Ref) :
    Emits L fmt idx road (.gatherElements a s o l (act.fn (std L))) [src] Tpl.gatherElements (gatherElementsHash a s.W s.H o.C o.H o.W o.size idx act src road)
  | tile (s : Shape) (rc rh rw : Nat) (act : CAct K) (src : Ref) :
    Emits L fmt idx road (.tile s rc rh rw (act.fn (std L))) [src] Tpl.tile
      (tileHash s.C s.H s.W (rc * s.C) (rh * s.H) (rw * s.W) ((rc * s.C) * (rh * s.H) * (rw * s.W)) idx act src road)
  | transpose (s : Shape) (p : Perm3) (act : CAct K) (src : Ref) :
    Emits L fmt idx road (.transpose s p (act.fn (std L))) [src] Tpl.transpose
      (transposeHash p s.H s.W (transposeShape p s).C (transposeShape p s).H (transposeShape p s).W (transposeShape p s).size idx act src road)
  | constantPad (s : Shape) (p : Pads3) (c : SNum K) (act : CAct K) (src : Ref) :
    Emits L fmt idx road (.constantPad s p c.val (act.fn (std L))) [src] Tpl.constant_Pad
      (constantPadHash s.H s.W (padShape s p).C (padShape s p).H (padShape s p).W p.cf p.cb p.hf p.hb p.wf p.wb (padShape s p).size idx c act src road)
  | edgePad (s : Shape) (p : Pads3) (act : CAct K) (src : Ref) :
    Emits L fmt idx road (.pad .edge s p (act.fn (std L))) [src] Tpl.pad_Non_Constant
      (edgePadHash s.C s.H s.W (padShape s p).C (padShape s p).H (padShape s p).W p.cf p.hf p.wf (padShape s p).size idx act src road)
  | reflectPad (s : Shape) (p : Pads3) (act : CAct K) (src : Ref) :
    Emits L fmt idx road (.pad .reflect s p (act.fn (std L))) [src] Tpl.pad_Non_Constant
      (reflectPadHash s.C s.H s.W (padShape s p).C (padShape s p).H (padShape s p).W p.cf p.hf p.wf (padShape s p).size idx act src road)
  | wrapPad (s : Shape) (p : Pads3) (act : CAct K) (src : Ref) :
    Emits L fmt idx road (.pad .wrap s p (act.fn (std L))) [src] Tpl.pad_Non_Constant
      (wrapPadHash s.C s.H s.W (padShape s p).C (padShape s p).H (padShape s p).W p.cf p.hf p.wf (padShape s p).size idx act src road)
  | softmax1 (s : Shape) (axis : Option Axis) (act : CAct K) (src : Ref) (h1 : softmaxOneDim s.size s.C s.H s.W = true) :
    Emits L fmt idx road (.softmax s axis (act.fn (std L))) [src] Tpl.softmax (softmax1Hash s.size idx act src road)
  | softmax3 (s : Shape) (a : Axis) (act : CAct K) (src : Ref) (h1 : softmaxOneDim s.size s.C s.H s.W = false) :
    Emits L fmt idx road (.softmax s (some a) (act.fn (std L))) [src] Tpl.softmax (softmax3Hash a s.C s.H s.W idx act src road)
  | batchNorm (s : Shape) (eps : SNum K) (scale mean var bias : Nat → K) (act : CAct K) (src : Ref) :
    Emits L fmt idx road (.batchNorm s eps.val scale mean var bias (act.fn (std L))) [src] Tpl.batchNormalization (batchNormHash s.C (s.H * s.W) idx eps act src road)
  | reduce (fn : RFunc) (c : RedP) (keepdims : Bool) (act : CAct K) (src : Ref) :
    Emits L fmt idx road (.reduce fn c keepdims (act.fn (std L))) [src] Tpl.reduce (reduceHash fn c (c.oC * c.oH * c.oW) idx act src road)
  | nearest (nm : NearestMode) (mode : CoordMode) (e : SNum K) (C : Nat) (h w : RAxis K) (act : CAct K) (src : Ref) :
    Emits L fmt idx road (.resize (.nearest nm) mode e.val C h w (act.fn (std L))) [src] Tpl.resizeNearest
      (nearestHash mode nm C (C * h.outLen * w.outLen) idx h w e act src road)
  | linear (mode : CoordMode) (e : SNum K) (C : Nat) (h w : RAxis K) (act : CAct K) (src : Ref) (text : List Char) (hash : Hash K)
      (ht : linearText mode C (C * h.outLen * w.outLen) idx h w e act src road = some (text, hash)) :
    Emits L fmt idx road (.resize .linear mode e.val C h w (act.fn (std L))) [src] text hash
  | cubic (a : SNum K) (mode : CoordMode) (e : SNum K) (C : Nat) (h w : RAxis K) (act : CAct K) (src : Ref) (text : List Char) (hash : Hash K)
      (ht : cubicText a mode C (C * h.outLen * w.outLen) idx h w e act src road = some (text, hash)) :
    Emits L fmt idx road (.resize (.cubic a.val) mode e.val C h w (act.fn (std L))) [src] text hash

/-- dimensions by which the texts divide, or from which they subtract one, are not zero -/
def _root_.Verif.Net.Op.Positive : Op K → Prop
  | .tile s .. => Pos3 s.C s.H s.W
  | .pad _ s _ _ => Pos3 s.C s.H s.W
  | .broadcast _ _ ins cst _ => (∀ s ∈ ins, Pos3 s.C s.H s.W) ∧ ∀ c ∈ cst, Pos3 c.C c.H c.W
  | .resize _ _ _ _ h w _ => 0 < h.scale ∧ 0 < h.inLen ∧ 0 < w.scale ∧ 0 < w.inLen
  | _ => True

theorem CAct.fn_std (L : Lib K) (ints : Ident → Option (List Nat)) (act : CAct K) : act.fn (std L ints) = act.fn (std L) := by
  cases act <;> rfl

/-! ## Variables -/

theorem DoesOk.mono {G : Globals K} {s : Stmt K} {xs ys : List (Ident × Ty)} {p : Prog K Unit} (h : DoesOk G s xs p) (hxy : ∀ v ∈ xs, v ∈ ys) :
    DoesOk G s ys p := by
  obtain ⟨F₀, h⟩ := h
  refine ⟨F₀, fun e he F hF m u m' hp => ?_⟩
  obtain ⟨e', ha, hr⟩ := h e (fun v hv => he v (hxy v hv)) F hF m u m' hp
  refine ⟨e', ha.mono fun x hx => ?_, hr⟩
  obtain ⟨v, hv, rfl⟩ := List.mem_map.1 hx
  exact List.mem_map.2 ⟨v, hxy v hv, rfl⟩

theorem RendersOk.mono {G : Globals K} {text : List Char} {h : Hash K} {xs ys : List (Ident × Ty)} {p : Prog K Unit} (hr : RendersOk G text h xs p)
    (hxy : ∀ v ∈ xs, v ∈ ys) : RendersOk G text h ys p := by
  obtain ⟨s, hs, hd⟩ := hr
  exact ⟨s, hs, hd.mono hxy⟩

theorem Renders.mono {G : Globals K} {text : List Char} {h : Hash K} {xs ys : List (Ident × Ty)} {p : Prog K Unit} (hr : Renders G text h xs p)
    (hxy : ∀ v ∈ xs, v ∈ ys) : RendersOk G text h ys p := (hr.ok fun _ _ h => h).mono hxy

/-- the variables that the source file declares if it has this layer -/
def opVars (idx : Nat) (op : Op K) : List (Ident × Ty) := varsOf (flagDcls (flags [op]) (indexArrays (fun _ => op) [idx]))

/-- are variables among others -/
def subVars (xs ys : List (Ident × Ty)) : Bool := xs.all fun v => ys.any fun w => decide (v = w)

theorem subVars_spec {xs ys : List (Ident × Ty)} (h : subVars xs ys = true) : ∀ v ∈ xs, v ∈ ys := by
  intro v hv
  have := List.all_eq_true.1 h v hv
  obtain ⟨w, hw, e⟩ := List.any_eq_true.1 this
  rw [of_decide_eq_true e]
  exact hw

/-- are variables among those declared for a layer -/
macro "decls" : tactic => `(tactic| exact subVars_spec (by kernel_rfl))

/-- The text of a layer does what its program does, using only variables declared in the source file. -/
theorem Emits.renders {L : Lib K} {ints : Ident → Option (List Nat)} [IsStrictOrderedRing K] {fmt : DataFormat} {idx road : Nat} {op : Op K} {srcs : List Ref}
    {text : List Char} {hash : Hash K} (h : Emits L fmt idx road op srcs text hash) (hpos : op.Positive) (hints : ∀ l, op.indices? = some l → ints (indices idx) = some l)
    {p : Prog K Unit} (hp : op.code L.cmath fmt idx road (srcs.map Ref.buf) = some p) :
    RendersOk (std L ints) text hash (opVars idx op) p := by
  cases h with
  | input r s => cases hp; exact (input_renders L ..).mono (by decls)
  | constant v => cases hp; exact (constant_renders L ..).mono (by decls)
  | dense p n w b act src =>
    cases hp
    rw [← CAct.fn_std L ints]
    exact (dense_renders L ..).mono (by decls)
  | activation n act src =>
    cases hp
    rw [← CAct.fn_std L ints]
    exact (activation_renders L ..).mono (by decls)
  | flatten s src => cases hp; exact (flatten_renders L ..).mono (by decls)
  | matmul C C' H Kd W act l r =>
    cases hp
    rw [← CAct.fn_std L ints]
    exact (matmul_renders L ..).mono (by decls)
  | gemmNN m n k alpha beta w c al be act src ha hb =>
    cases hp
    rw [← CAct.fn_std L ints, ← ha, ← hb]
    exact (gemmNN_renders L ..).mono (by decls)
  | gemmNT m n k alpha beta w c al be act src ha hb =>
    cases hp
    rw [← CAct.fn_std L ints, ← ha, ← hb]
    exact (gemmNT_renders L ..).mono (by decls)
  | gemmTN m n k alpha beta w c al be act src ha hb =>
    cases hp
    rw [← CAct.fn_std L ints, ← ha, ← hb]
    exact (gemmTN_renders L ..).mono (by decls)
  | gemmTT m n k alpha beta w c al be act src ha hb =>
    cases hp
    rw [← CAct.fn_std L ints, ← ha, ← hb]
    exact (gemmTT_renders L ..).mono (by decls)
  | conv6 c wt b act src =>
    cases hp
    rw [← CAct.fn_std L ints]
    exact (conv6_renders L ..).mono (by decls)
  | stdGemm c wt b act src =>
    cases hp
    rw [← CAct.fn_std L ints]
    exact (stdGemm_renders L ..).mono (by decls)
  | maxPool c act src =>
    cases hp
    rw [← CAct.fn_std L ints]
    exact (maxPool_renders L ..).mono (by decls)
  | avgPool c act src =>
    cases hp
    rw [← CAct.fn_std L ints]
    exact (avgPool_renders L ..).mono (by decls)
  | broadcast op o s ss cst act src rest =>
    cases hp
    rw [← CAct.fn_std L ints]
    have := broadcast_renders (ints := ints) L op o.C o.H o.W o.size idx act (rop (src, s)) ((rest.zip ss).map rop) (cst.map fun c => ⟨c.C, c.H, c.W⟩) road (by
      intro x hx
      obtain rfl | hx := List.mem_cons.1 hx
      · exact hpos.1 s (by simp)
      · obtain ⟨y, hy, rfl⟩ := List.mem_map.1 hx
        exact hpos.1 y.2 (List.mem_cons_of_mem _ (List.of_mem_zip hy).2)) (by
      intro c hc
      obtain ⟨d, hd, rfl⟩ := Option.map_eq_some_iff.1 hc
      exact hpos.2 d hd)
    refine Renders.mono (xs := [((.f, none), .int), ((.i, none), .int), ((.j, none), .int), ((.k, none), .int)]) ?_ (by decls)
    convert this using 2
    · simp only [List.map_cons, List.zip_cons_cons, List.map_map]
      congr 1
      rw [List.zip_map_left, List.map_map]
      rfl
    · rw [Option.map_map]; rfl
  | concat a ins act =>
    cases hp
    rw [← CAct.fn_std L ints]
    refine Renders.mono (xs := [((.f, none), .int), ((.i, none), .int), ((.j, none), .int), ((.k, none), .int)]) ?_ (by decls)
    have := concat_renders (ints := ints) L a (concatShape a ins).C (concatShape a ins).H (concatShape a ins).W (concatShape a ins).size idx act ((srcs.zip ins).map rop) road
    convert this using 2
    rw [List.zip_map_left, List.map_map, List.map_map]
    rfl
  | gather a s d l act src =>
    cases hp
    rw [← CAct.fn_std L ints]
    exact (gather_renders L ints _ _ _ _ _ _ _ _ _ _ _ _ (hints l rfl)).mono (by decls)
  | gatherElements a s o l act src =>
    cases hp
    rw [← CAct.fn_std L ints]
    exact (gatherElements_renders L ints _ _ _ _ _ _ _ _ _ _ _ _ (hints _ rfl)).mono (by decls)
  | tile s rc rh rw' act src =>
    cases hp
    rw [← CAct.fn_std L ints]
    exact (tile_renders L _ _ _ _ _ _ _ _ _ _ _ hpos.1 hpos.2.1 hpos.2.2).mono (by decls)
  | transpose s p act src =>
    cases hp
    rw [← CAct.fn_std L ints]
    exact (transpose_renders L ..).mono (by decls)
  | constantPad s p c act src =>
    cases hp
    rw [← CAct.fn_std L ints]
    exact (constantPad_renders L _ _ _ _ _ _ _ _ _ _ _ _ _ _ _ _ _ (by unfold padShape; dsimp; omega) (by unfold padShape; dsimp; omega) (by unfold padShape; dsimp; omega)).mono
      (by decls)
  | edgePad s p act src =>
    cases hp
    rw [← CAct.fn_std L ints]
    exact (edgePad_renders L _ _ _ _ _ _ _ _ _ _ _ _ _ _ hpos.1 hpos.2.1 hpos.2.2).mono (by decls)
  | reflectPad s p act src =>
    cases hp
    rw [← CAct.fn_std L ints]
    exact (reflectPad_renders L _ _ _ _ _ _ _ _ _ _ _ _ _ _ hpos.1 hpos.2.1 hpos.2.2).mono (by decls)
  | wrapPad s p act src =>
    cases hp
    rw [← CAct.fn_std L ints]
    exact (wrapPad_renders L ..).mono (by decls)
  | softmax1 s axis act src h1 =>
    simp only [Op.code, List.map_cons, List.map_nil, softmaxCode, h1, if_true, Option.some.injEq] at hp
    subst hp
    rw [← CAct.fn_std L ints]
    exact (softmax1_renders L ..).mono (by decls)
  | softmax3 s a act src h1 =>
    simp only [Op.code, List.map_cons, List.map_nil, softmaxCode, h1, Bool.false_eq_true, if_false, Option.map_some, Option.some.injEq] at hp
    subst hp
    exact (softmax3_renders L ..).mono (by decls)
  | batchNorm s eps scale mean var bias act src =>
    cases hp
    rw [← CAct.fn_std L ints]
    exact (batchNorm_renders L ..).mono (by decls)
  | reduce fn c keepdims act src =>
    cases hp
    rw [← CAct.fn_std L ints]
    exact (reduce_renders L ..).mono (by decls)
  | nearest n mode e C h w act src =>
    rw [← CAct.fn_std L ints] at hp
    exact (nearest_renders L mode n C _ idx h w e act src road hpos.1 hpos.2.1 hpos.2.2.1 hpos.2.2.2 p hp).mono
      (by decls)
  | linear mode e C h w act src text hash ht =>
    rw [← CAct.fn_std L ints] at hp
    obtain ⟨t, g, h1, h2⟩ := resizeLinear_renders L mode C _ idx h w e act src road hpos.1 hpos.2.2.1 p hp
    rw [ht] at h1
    cases h1
    exact h2.mono (by decls)
  | cubic a mode e C h w act src text hash ht =>
    rw [← CAct.fn_std L ints] at hp
    obtain ⟨t, g, h1, h2⟩ := resizeCubic_renders L a mode C _ idx h w e act src road hpos.1 hpos.2.2.1 p hp
    rw [ht] at h1
    cases h1
    exact h2.mono (by decls)

end Verif.CText

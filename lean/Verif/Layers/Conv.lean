import Verif.Layers.Broadcast
import Verif.CMem.Loops

/-!
# Convolution layers: `6loops` and `std_gemm_nn` code, Python reference
-/

namespace Verif

/-- flattening in C order of an array of rank four (convolution weights) -/
def tensor4 {α : Type} (A B C D : Nat) (v : Nat → Nat → Nat → Nat → α) : List α :=
  (List.range A).flatMap fun a => tensor3 B C D (v a)

namespace Layers
open Prog
variable {α : Type}

/-- attributes of a convolution layer (`layers/convolution/Conv2D.py` 56-94).  Paddings are naturals
(negative ones are not accepted by `np.zeros`/slicing as the author intended); `group` is 1: the
implementations modelled here drop the attribute (`Conv2D6loops.py` 78-94, `Conv2DStdGemm.py` 134-150)
so that the constructor's weight-shape check (`Conv2D.py` 164-174) rejects any other value. -/
structure ConvP where
  (filters inC inH inW outH outW kh kw stride dil padTop padBottom padLeft padRight : Nat)

/-- the consistency checks on the output height and width (`Conv2D.py` 181-223; `stride ≥ 1`, kernel and
dilation at least one). Python computes `floor((in + pads - k - (k-1)(dil-1)) / stride) + 1`. -/
def ConvP.Accepted (c : ConvP) : Prop :=
  1 ≤ c.stride ∧ 1 ≤ c.dil ∧ 1 ≤ c.kh ∧ 1 ≤ c.kw ∧
  (c.outH : Int) = Int.fdiv ((c.inH : Int) + c.padBottom + c.padTop - c.kh - ((c.kh : Int) - 1) * ((c.dil : Int) - 1))
    c.stride + 1 ∧
  (c.outW : Int) = Int.fdiv ((c.inW : Int) + c.padLeft + c.padRight - c.kw - ((c.kw : Int) - 1) * ((c.dil : Int) - 1))
    c.stride + 1

/-- `templates/layers/Conv/template_Conv_6loops.c.tpl`, filled by `Conv2D6loops.py` 36-73 -/
def conv6Code [Zero α] [Add α] [Mul α] (c : ConvP) (size idx : Nat) (act : α → α) (src : Buf) (road : Nat) :
    Prog α Unit := do
  loop3 c.filters c.outH c.outW fun f i j => do
    let sum ← foldN c.inC 0 fun p sum => foldN c.kh sum fun h sum => foldN c.kw sum fun w sum =>
      let ii : Int := (i : Int) * c.stride + h * c.dil - c.padTop
      let jj : Int := (j : Int) * c.stride + w * c.dil - c.padLeft
      if ii ≥ 0 ∧ ii < c.inH ∧ jj ≥ 0 ∧ jj < c.inW then do
        let x ← load src (jj + c.inW * (ii + c.inH * p))
        let k ← load (.par .weights idx) ((w + c.kw * (h + c.kh * (p + c.inC * f)) : Nat) : Int)
        pure (sum + x * k)
      else pure sum
    let b ← load (.par .biases idx) (f : Int)
    store .temp (at3 c.outH c.outW f i j : Int) (act (sum + b))
  copyMap size .temp (.out road) id

/-- `input_padded` of `Conv2D.forward_path_layer` (`Conv2D.py` 251-270): zeros with the input stored in the
middle, or the input itself when there is no padding -/
def convPadded [Zero α] (c : ConvP) (x : Nat → Nat → Nat → α) : Nat → Nat → Nat → α :=
  if c.padRight ≠ 0 ∨ c.padLeft ≠ 0 ∨ c.padTop ≠ 0 ∨ c.padBottom ≠ 0 then
    fun p a b => if c.padTop ≤ a ∧ a < c.padTop + c.inH ∧ c.padLeft ≤ b ∧ b < c.padLeft + c.inW
      then x p (a - c.padTop) (b - c.padLeft) else 0
  else x

/-- `Conv2D.forward_path_layer` (`Conv2D.py` 233-286) with `group = 1`.  The slices
`[i*strides : i*strides+kernel_h, ..]` ignore the dilation rate; if one of them is cut short by the end of
the array the product with the kernel raises. -/
def convForward [AddCommMonoid α] [Mul α] (c : ConvP) (act : α → α) (wt : Nat → Nat → Nat → Nat → α)
    (bias : Nat → α) (x : Nat → Nat → Nat → α) : Option (Arr α) :=
  if (∀ i, i < c.outH → i * c.stride + c.kh ≤ c.inH + c.padTop + c.padBottom) ∧
     (∀ j, j < c.outW → j * c.stride + c.kw ≤ c.inW + c.padLeft + c.padRight) then
    some ⟨c.filters, c.outH, c.outW, fun f i j =>
      act ((∑ p ∈ Finset.range c.inC, ∑ h ∈ Finset.range c.kh, ∑ w ∈ Finset.range c.kw,
        wt f p h w * convPadded c x p (i * c.stride + h) (j * c.stride + w)) + bias f)⟩
  else none

/-! ## im2col and gemm -/

/-- `templates/layers/Conv/template_im2col.c.tpl`, filled by `Conv2DStdGemm.py` 44-73; the patches are
written to `output_road` -/
def im2colCode [Zero α] (c : ConvP) (src : Buf) (road : Nat) : Prog α Unit :=
  forN (c.inC * c.kh * c.kw) fun i =>
    forN c.outH fun h => forN c.outW fun w =>
      let iOffset := (i / c.kw) % c.kh
      let jOffset := i % c.kw
      let cOffset := i / c.kh / c.kw
      let ii : Int := (h : Int) * c.stride - c.padTop + iOffset
      let jj : Int := (w : Int) * c.stride - c.padLeft + jOffset
      let j := h * c.outW + w
      if ii ≥ 0 ∧ ii < c.inH ∧ jj ≥ 0 ∧ jj < c.inW then do
        let x ← load src (((cOffset : Int) * c.inH + ii) * c.inW + jj)
        store (.out road) ((i * (c.outH * c.outW) + j : Nat) : Int) x
      else store (.out road) ((i * (c.outH * c.outW) + j : Nat) : Int) 0

/-- `templates/layers/Conv/template_Conv_gemm_nn.c.tpl`, filled by `Conv2DGemm.py` 45-78 with
`A = weights`, `B = output_road`, `C = tensor_temp` -/
def gemmNNCode [Add α] [Mul α] (m n k idx : Nat) (act : α → α) (road : Nat) : Prog α Unit :=
  forN m fun i => do
    forN k fun p => do
      let weight ← load (.par .weights idx) ((i * k + p : Nat) : Int)
      forN n fun j => do
        let t ← load .temp ((i * n + j : Nat) : Int)
        let b ← load (.out road) ((p * n + j : Nat) : Int)
        store .temp ((i * n + j : Nat) : Int) (t + weight * b)
    forN n fun j => do
      let output ← load .temp ((i * n + j : Nat) : Int)
      let bias ← load (.par .biases idx) (i : Int)
      store .temp ((i * n + j : Nat) : Int) (act (output + bias))

/-- `templates/layers/Conv/template_Conv_std_gemm.c.tpl`, filled by `Conv2DStdGemm.py` 104-131.  When the
producer's array is an `output_k`, the layer's own array `output_road` (not the producer's) is saved to
`tensor_temp` and read from there; otherwise `cst_k` is read directly. -/
def stdGemmCode [Zero α] [Add α] [Mul α] (c : ConvP) (size idx : Nat) (act : α → α) (src : Buf)
    (road : Nat) : Prog α Unit := do
  (match src with
    | .out _ => do
      copyMap (c.inC * c.inH * c.inW) (.out road) .temp id
      im2colCode c .temp road
    | b => im2colCode c b road : Prog α Unit)
  forN (c.filters * (c.outH * c.outW)) fun k => store .temp (k : Int) 0
  gemmNNCode c.filters (c.outH * c.outW) (c.inC * c.kh * c.kw) idx act road
  copyMap size .temp (.out road) id

end Layers
end Verif

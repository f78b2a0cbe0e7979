import Verif.Layers.Pooling
import Verif.Layers.Direct

/-!
# The version `channels_last` of the pooling layers

It reads and writes feature maps in HWC order.  All the positions are computed with `pad_left`; `pad_top` is not used.
-/

namespace Verif.Layers
open Prog
variable {α : Type}

/-- `kh_start`, `kw_start` (`templates/layers/template_Pooling2D_HWC.c.tpl` 8-9, 15-16) -/
def poolLow (c : PoolP) (o : Nat) : Int :=
  if 0 > (c.padLeft : Int) - o * c.stride then 0 else (c.padLeft : Int) - o * c.stride

/-- `kh_end`, `kw_end` (11-12, 18-19); `n` is the number of rows or of columns of the input -/
def poolHigh (c : PoolP) (n o : Nat) : Int :=
  if (c.pool : Int) < (n : Int) + c.padLeft - o * c.stride then (c.pool : Int) else (n : Int) + c.padLeft - o * c.stride

/-- the loops over the window (29-47); `upd p q k` is the statement on `out_ptr = p`, `in_ptr = q` and channel `k` -/
def poolWindow (c : PoolP) (upd : Int → Int → Nat → Prog α Unit) (oh ow : Nat) : Prog α Unit :=
  forRange (poolLow c oh) (poolHigh c c.H oh) fun kh => do
    let ih : Int := (oh : Int) * c.stride + kh - c.padLeft
    forRange (poolLow c ow) (poolHigh c c.W ow) fun kw => do
      let iw : Int := (ow : Int) * c.stride + kw - c.padLeft
      forN c.C fun k => upd ((((oh * c.Wo + ow) * c.C : Nat) : Int)) ((ih * c.W + iw) * c.C) k

/-- `out_ptr[c] = (in_ptr[c] > out_ptr[c]) ? in_ptr[c] : out_ptr[c];` (40) -/
def maxUpd [LT α] [DecidableRel (α := α) (· < ·)] (src : Buf) (p q : Int) (k : Nat) : Prog α Unit := do
  let v ← (do
    let x ← load src (q + k)
    let t ← load .temp (p + k)
    (if x > t then load src (q + k) else load .temp (p + k) : Prog α α) : Prog α α)
  store .temp (p + k) v

/-- `out_ptr[c] += in_ptr[c];` (43) -/
def sumUpd [Add α] (src : Buf) (p q : Int) (k : Nat) : Prog α Unit := do
  let t ← load .temp (p + k)
  let x ← load src (q + k)
  store .temp (p + k) (t + x)

/-- `templates/layers/template_Pooling2D_HWC.c.tpl`, filled by `MaxPooling2DDefault.py` 54-96 for the version `channels_last`
and a linear activation (`activation_function` is then absent).  `ninf` is `-INFINITY`. -/
def maxPoolHWCCode [LT α] [DecidableRel (α := α) (· < ·)] (c : PoolP) (size : Nat) (ninf : α) (src : Buf) (road : Nat) :
    Prog α Unit := do
  forN c.Ho fun oh => forN c.Wo fun ow => do
    forN c.C fun k => store .temp ((((oh * c.Wo + ow) * c.C : Nat) : Int) + k) ninf
    poolWindow c (maxUpd src) oh ow
  copyMap size .temp (.out road) id

/-- the same template filled by `AveragePooling2DDefault.py` 56-98: `inv_area` is `1.0f / (float)(pool * pool)` -/
def avgPoolHWCCode [Zero α] [One α] [Add α] [Mul α] [Div α] [NatCast α] (c : PoolP) (size : Nat) (src : Buf) (road : Nat) :
    Prog α Unit := do
  let inv ← divCount (1 : α) (c.pool * c.pool)
  forN c.Ho fun oh => forN c.Wo fun ow => do
    forN c.C fun k => store .temp ((((oh * c.Wo + ow) * c.C : Nat) : Int) + k) (0 : α)
    poolWindow c (sumUpd src) oh ow
    forN c.C fun k => do
      let t ← load .temp ((((oh * c.Wo + ow) * c.C : Nat) : Int) + k)
      store .temp ((((oh * c.Wo + ow) * c.C : Nat) : Int) + k) (t * inv)
  copyMap size .temp (.out road) id

end Verif.Layers

import Verif.Layers.Conv
import Verif.CMem.Writes
import Mathlib.Data.Rat.Defs

/-!
# The `direct_block` convolution: blocked, depth-wise and winograd code

All of these read and write feature maps in HWC order.  The weights are `self.layout`, a transposed copy
of the weights.
-/

namespace Verif

/-- flattening in C order of an array of rank five -/
def tensor5 {α : Type} (A B C D E : Nat) (v : Nat → Nat → Nat → Nat → Nat → α) : List α :=
  (List.range A).flatMap fun a => tensor4 B C D E (v a)

namespace Layers
open Prog
variable {α : Type}

/-- `for (int x = lo; x < hi; ++x)` with `int` bounds -/
def forRange (lo hi : Int) (body : Int → Prog α Unit) : Prog α Unit := forN (hi - lo).toNat fun t => body (lo + t)

/-- `block_k` (`generator/layers/convolution/Conv2Ddirect_block.py` 66-67): at most 64 output channels in a block, 512 for
one-column kernels -/
def blockK (filters kw : Nat) : Nat := if kw > 1 then min 64 filters else min 512 filters

/-- `self.layout` in the general case (`Conv2Ddirect_block.py` 58-61) and in the 1×1 case (48-50), which is the same
flat array: `[nb_k][1][KH][KW][C][block_k]`.  The `reshape` raises unless `block_k` divides the number of filters. -/
def blockLayout (c : ConvP) (bk : Nat) (wt : Nat → Nat → Nat → Nat → α) : Option (List α) :=
  if c.filters = (max (c.filters / bk) 1) * bk then
    some (tensor5 (max (c.filters / bk) 1) c.kh c.kw c.inC bk fun b h w p k => wt (b * bk + k) p h w)
  else none

/-- `templates/layers/Conv/template_Conv_direct_block.c.tpl`, filled by `Conv2Ddirect_block.py` 71-121.
`BLOCK_C = input_channels`, `NB_BLOCK_C = input_channels // BLOCK_C`, `NB_BLOCK_K = nb_filters // BLOCK_K`,
`PAD = pad_left`. -/
def directBlockCode [Add α] [Mul α] (c : ConvP) (bk size idx : Nat) (act : α → α) (src : Buf) (road : Nat) :
    Prog α Unit := do
  loop3 (c.filters / bk) c.outH c.outW fun b oh ow => do
    let kBase := b * bk
    let khs : Int := if (c.padLeft : Int) - oh * c.stride > 0 then (c.padLeft : Int) - oh * c.stride else 0
    let khe : Int := if (c.kh : Int) < c.inH + c.padLeft - oh * c.stride then (c.kh : Int)
      else c.inH + c.padLeft - oh * c.stride
    let kws : Int := if (c.padLeft : Int) - ow * c.stride > 0 then (c.padLeft : Int) - ow * c.stride else 0
    let kwe : Int := if (c.kw : Int) < c.inW + c.padLeft - ow * c.stride then (c.kw : Int)
      else c.inW + c.padLeft - ow * c.stride
    let o : Int := ((oh * c.outW * c.filters + ow * c.filters + kBase : Nat) : Int)
    forN bk fun k => do
      let bias ← load (.par .biases idx) ((kBase + k : Nat) : Int)
      store .temp (o + k) bias
    forN (c.inC / c.inC) fun bc => do
      let cBase := bc * c.inC
      forRange khs khe fun kh => do
        let ih : Int := (oh : Int) * c.stride - c.padLeft + kh
        forRange kws kwe fun kw => do
          let iw : Int := (ow : Int) * c.stride - c.padLeft + kw
          let i : Int := (ih * c.inW + iw) * (c.inC * ((c.inC / c.inC : Nat) : Int)) + cBase
          let w : Int := ((((b : Int) * ((c.inC / c.inC : Nat) : Int) + bc) * c.kh + kh) * c.kw + kw) * c.inC * bk
          forN c.inC fun ch => do
            let iv ← load src (i + ch)
            forN bk fun k => do
              let t ← load .temp (o + k)
              let x ← (do
                let wv ← load (.par .weights idx) (w + ch * bk + k)
                pure (iv * wv) : Prog α α)
              store .temp (o + k) (t + x)
  copyMap size .temp (.out road) act

/-- `self.layout` in the depth-wise case (`Conv2Ddirect_block.py` 45-46): `[1][KH][KW][K]` -/
def dwLayout (c : ConvP) (wt : Nat → Nat → Nat → α) : List α := tensor3 c.kh c.kw c.filters fun h w k => wt k h w

/-- `templates/layers/Conv/template_Conv_DW_HWC.c.tpl` -/
def depthwiseCode [Add α] [Mul α] (c : ConvP) (size idx : Nat) (act : α → α) (src : Buf) (road : Nat) :
    Prog α Unit := do
  forN c.outH fun oh => do
    let hs : Int := (oh : Int) * c.stride - c.padLeft
    let khs : Int := if 0 > -hs then 0 else -hs
    let khe : Int := if (c.kh : Int) < c.inH - hs then (c.kh : Int) else c.inH - hs
    forN c.outW fun ow => do
      let o : Int := ((oh * c.outW * c.filters + ow * c.filters : Nat) : Int)
      forN c.filters fun k => do
        let bias ← load (.par .biases idx) (k : Int)
        store .temp (o + k) bias
      let ws : Int := (ow : Int) * c.stride - c.padLeft
      let kws : Int := if 0 > -ws then 0 else -ws
      let kwe : Int := if (c.kw : Int) < c.inW - ws then (c.kw : Int) else c.inW - ws
      forRange khs khe fun kh => do
        let ih := hs + kh
        forRange kws kwe fun kw => do
          let iw := ws + kw
          let i : Int := ih * c.inW * c.filters + iw * c.filters
          let w : Int := kh * c.kw * c.filters + kw * c.filters
          forN c.filters fun k => do
            let t ← load .temp (o + k)
            let x ← (do
              let iv ← load src (i + k)
              let wv ← load (.par .weights idx) (w + k)
              pure (iv * wv) : Prog α α)
            store .temp (o + k) (t + x)
  copyMap size .temp (.out road) act

/-- `Conv2D.forward_path_layer` (`Conv2D.py` 236-286) with groups: `input_padded[::group]` keeps the channels
`0, group, 2·group, …` for every filter -/
def convForwardGroup [AddCommMonoid α] [Mul α] (c : ConvP) (group : Nat) (act : α → α)
    (wt : Nat → Nat → Nat → Nat → α) (bias : Nat → α) (x : Nat → Nat → Nat → α) : Option (Arr α) :=
  convForward { c with inC := c.inC / group } act wt bias fun p => x (p * group)

/-- what the parameter files hold for the layer: `generate_bin_parameter_file` (`generator/neural_network.py`
1131-1137) writes `layout`, `generate_parameter_file` (1177-1179) writes `weights` in C order; `bin_dataset` decides
between them (292) -/
def directParams (bin : Bool) (c : ConvP) (lay : List α) (wt : Nat → Nat → Nat → Nat → α) : List α :=
  if bin then lay else tensor4 c.filters c.inC c.kh c.kw wt

/-! ## Winograd -/

/-- `a[r][c] = v;` on a local array -/
def set2 (a : Nat → Nat → α) (r c : Nat) (v : α) : Nat → Nat → α := fun r' c' => if r' = r ∧ c' = c then v else a r' c'

/-- `a[i][j][k] = v;` on a local array -/
def set3 (a : Nat → Nat → Nat → α) (i j k : Nat) (v : α) : Nat → Nat → Nat → α := fun i' j' k' =>
  if i' = i ∧ j' = j ∧ k' = k then v else a i' j' k'

/-- the matrix `G` of the weight transform (`Conv2Ddirect_block.py` 54) -/
def winogradG [DivisionRing α] : Nat → Nat → α
  | 0, 0 => 1 | 0, _ => 0
  | 1, _ => 1 / 2
  | 2, 1 => -(1 / 2) | 2, _ => 1 / 2
  | _, 2 => 1 | _, _ => 0

/-- `self.layout` in the winograd case (`Conv2Ddirect_block.py` 52-57): `G w Gᵀ`, as `[nb_k][4][4][C][block_k]` -/
def winogradLayout [DivisionRing α] (c : ConvP) (bk : Nat) (wt : Nat → Nat → Nat → Nat → α) : Option (List α) :=
  if c.filters = (max (c.filters / bk) 1) * bk then
    some (tensor5 (max (c.filters / bk) 1) 4 4 c.inC bk fun b i l p k =>
      ∑ h ∈ Finset.range 3, ∑ w ∈ Finset.range 3, winogradG i h * wt (b * bk + k) p h w * winogradG l w)
  else none

/-- the rows of `temp` in `template_Conv3x3_winograd.c.tpl` (`Bᵀ d`) -/
def winogradTemp [Ring α] (d : Nat → Nat → α) : Nat → Nat → α
  | 0, i => d 0 i - d 2 i
  | 1, i => d 1 i + d 2 i
  | 2, i => d 2 i - d 1 i
  | _, i => d 1 i - d 3 i

/-- the rows of `m_temp` (`Aᵀ M`) -/
def winogradM [Ring α] (acc : Nat → Nat → Nat → α) : Nat → Nat → Nat → α
  | 0, j, k => acc 0 j k + acc 1 j k + acc 2 j k
  | _, j, k => acc 1 j k - acc 2 j k - acc 3 j k

/-- `templates/layers/Conv/template_Conv3x3_winograd.c.tpl`.  The local arrays `acc`, `d`, `temp`, `m_temp` are
values; the loops advancing by `BLOCK_K` and by 2 are loops over the number of steps. -/
def winogradCode [Ring α] (c : ConvP) (bk size idx : Nat) (act : α → α) (src : Buf) (road : Nat) :
    Prog α Unit := do
  loop3 ((c.filters + bk - 1) / bk) (c.outH / 2) (c.outW / 2) fun b th tw => do
    let kBase := b * bk
    let oh := 2 * th
    let ow := 2 * tw
    let acc ← foldN c.inC (fun (_ _ _ : Nat) => (0 : α)) fun ic acc => do
      let d ← foldN 4 (fun (_ _ : Nat) => (0 : α)) fun r d => foldN 4 d fun cc d => do
        let ih : Int := (oh : Int) + r - c.padLeft
        let iw : Int := (ow : Int) + cc - c.padLeft
        let v ← (if (ih ≥ 0 ∧ ih < c.inH) ∧ (iw ≥ 0 ∧ iw < c.inW) then load src (ih * c.inW * c.inC + ic + iw * c.inC)
          else pure 0 : Prog α α)
        pure (set2 d r cc v)
      let temp := winogradTemp d
      foldN 4 acc fun i acc => do
        let acc ← foldN bk acc fun k acc => do
          let w ← load (.par .weights idx) ((((((kBase / bk) * 4 + i) * 4 + 0) * c.inC + ic) * bk + k : Nat) : Int)
          pure (set3 acc i 0 k (acc i 0 k + (temp i 0 - temp i 2) * w))
        let acc ← foldN bk acc fun k acc => do
          let w ← load (.par .weights idx) ((((((kBase / bk) * 4 + i) * 4 + 1) * c.inC + ic) * bk + k : Nat) : Int)
          pure (set3 acc i 1 k (acc i 1 k + (temp i 1 + temp i 2) * w))
        let acc ← foldN bk acc fun k acc => do
          let w ← load (.par .weights idx) ((((((kBase / bk) * 4 + i) * 4 + 2) * c.inC + ic) * bk + k : Nat) : Int)
          pure (set3 acc i 2 k (acc i 2 k + (temp i 2 - temp i 1) * w))
        foldN bk acc fun k acc => do
          let w ← load (.par .weights idx) ((((((kBase / bk) * 4 + i) * 4 + 3) * c.inC + ic) * bk + k : Nat) : Int)
          pure (set3 acc i 3 k (acc i 3 k + (temp i 1 - temp i 3) * w))
    let mt := winogradM acc
    forN bk fun k => do
      let bias ← load (.par .biases idx) ((kBase + k : Nat) : Int)
      store .temp ((((oh + 0) * c.outW + (ow + 0)) * c.filters + kBase + k : Nat) : Int)
        (mt 0 0 k + mt 0 1 k + mt 0 2 k + bias)
    forN bk fun k => do
      let bias ← load (.par .biases idx) ((kBase + k : Nat) : Int)
      store .temp ((((oh + 0) * c.outW + (ow + 1)) * c.filters + kBase + k : Nat) : Int)
        (mt 0 1 k - mt 0 2 k - mt 0 3 k + bias)
    forN bk fun k => do
      let bias ← load (.par .biases idx) ((kBase + k : Nat) : Int)
      store .temp ((((oh + 1) * c.outW + (ow + 0)) * c.filters + kBase + k : Nat) : Int)
        (mt 1 0 k + mt 1 1 k + mt 1 2 k + bias)
    forN bk fun k => do
      let bias ← load (.par .biases idx) ((kBase + k : Nat) : Int)
      store .temp ((((oh + 1) * c.outW + (ow + 1)) * c.filters + kBase + k : Nat) : Int)
        (mt 1 1 k - mt 1 2 k - mt 1 3 k + bias)
  copyMap size .temp (.out road) act

/-- The choice of the template and of the layout (`Conv2Ddirect_block.py` 34-61, 106-116).  The layer keeps `group`;
the 1×1 template is never chosen because `padding` is a string or a list. -/
inductive DirectVariant | depthwise | winograd | block
  deriving DecidableEq, Repr

/-- `generate_inference_code_layer` (106-116) -/
def directVariant (c : ConvP) (group : Nat) : DirectVariant :=
  if c.filters = c.inC ∧ group = c.filters then .depthwise
  else if c.kh = 3 ∧ c.kw = 3 ∧ c.stride = 1 ∧ c.inW % 2 = 0 then .winograd
  else .block

end Layers
end Verif

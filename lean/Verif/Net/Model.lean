import Verif.Layers.Resize
import Verif.Layers.Reduce
import Verif.Layers.Move
import Verif.Layers.Norm
import Verif.Layers.Layout
import Verif.Layers.Linear
import Verif.Layers.Activations
import Verif.Graph.Exec
import Verif.Gen.Sizes
import Mathlib.Algebra.Order.Ring.Defs
import Mathlib.Algebra.Order.Floor.Defs
import Mathlib.Algebra.Order.Field.Basic

/-!
# Whole networks of concrete layers

The layers modelled in `Verif/Layers` assembled into networks: the reference interpreter `compute_inference` with the
`forward_path_layer` of each class, and the generated function `inference` with the code of each layer.  Numbers are the
elements of an ordered field (no rounding); `exp`, `sqrt` and `-INFINITY` are arbitrary.
-/

namespace Verif.Net
open Prog Layers
variable {K : Type}

/-- the C library functions used by layers -/
structure CMath (K : Type) where
  exp : K → K
  sqrt : K → K
  ninf : K

/-- dimensions of a tensor without the batch axis -/
structure Shape where
  (C H W : Nat)
  deriving DecidableEq, Repr

def Shape.size (s : Shape) : Nat := s.C * s.H * s.W

/-- A numpy array: its `shape` and its elements in C order. -/
structure Nd (K : Type) where
  dims : List Nat
  data : List K

/-- the array of rank three with the given elements in C order -/
def arrOf [Zero K] (s : Shape) (t : List K) : Arr K :=
  ⟨s.C, s.H, s.W, fun f i j => t.getD (at3 s.H s.W f i j) 0⟩

/-- `x.reshape(C, H, W)`: raises if the number of elements is not the right one -/
def Nd.reshape3 [Zero K] (s : Shape) (x : Nd K) : Option (Arr K) :=
  if x.data.length = s.size then some (arrOf s x.data) else none

/-- `x.reshape(n)` or `x.reshape(H, W)`, as a function of the flat index -/
def Nd.reshape1 [Zero K] (n : Nat) (x : Nd K) : Option (Nat → K) :=
  if x.data.length = n then some (fun a => x.data.getD a 0) else none

/-- a numpy array of rank three -/
def ofArr (r : Arr K) : Nd K := ⟨[r.C, r.H, r.W], r.flat⟩

/-- an array filled element by element (`output = np.zeros(..)`; `output[f, i, j] = ..`), where computing an element
may raise -/
def fill (dims : List Nat) (C H W : Nat) (v : Nat → Nat → Nat → Option K) : Option (Nd K) :=
  ((tensor3 C H W v).mapM id).map fun t => ⟨dims, t⟩

/-- modes of the non-constant Pad layers -/
inductive PadMode | edge | reflect | wrap
  deriving DecidableEq, Repr

/-- numpy's index functions for the modes -/
def PadMode.np : PadMode → Nat → Int → Nat
  | .edge => Np.edge
  | .reflect => Np.reflect
  | .wrap => Np.wrap

/-- the index computed by the templates -/
def PadMode.c : PadMode → Nat → Nat → Nat → Option Int
  | .edge => edgeIdx
  | .reflect => reflectIdx
  | .wrap => wrapIdx

/-- the pads of a Pad layer (`layers/padding/Pad.py` 65-67: `pads[1]`, `pads[5]`, ...) -/
structure Pads3 where
  (cf cb hf hb wf wb : Nat)

/-- coordinate-based interpolations -/
inductive Interp (K : Type)
  | nearest (nm : NearestMode)
  | linear
  | cubic (coeff : K)

/-- implementations of a convolution (`Conv2D6loops.py`, `Conv2DStdGemm.py`) -/
inductive ConvImpl | loops6 | stdGemm
  deriving DecidableEq, Repr

/-- The layers, with the attributes that the constructors store.  `act` is the activation function. -/
inductive Op (K : Type)
  /-- `layers/input/Input.py`: `rank4` says whether `input_shape` has four entries -/
  | input (rank4 : Bool) (s : Shape)
  /-- `layers/constant.py` -/
  | constant (value : Nd K)
  /-- `layers/dense/Dense.py` -/
  | dense (prevSize size : Nat) (w : Nat → Nat → K) (b : Nat → K) (act : K → K)
  /-- `layers/activation_layers/ActivationLayer.py` -/
  | activation (size : Nat) (act : K → K)
  /-- `layers/flatten/Flatten.py` -/
  | flatten (s : Shape)
  /-- `layers/matmul/MatMul.py`: operands `(1, C, H, Kd)` and `(1, C', Kd, W)` -/
  | matmul (C C' H Kd W : Nat) (act : K → K)
  /-- `layers/gemm/Gemm.py`: output `M × N`, bias vector of `N` elements -/
  | gemm (tA tB : Bool) (M N Kd : Nat) (alpha beta : K) (w : Nat → Nat → K) (c : Nat → K) (act : K → K)
  /-- `layers/convolution/Conv2D.py` -/
  | conv (impl : ConvImpl) (c : ConvP) (wt : Nat → Nat → Nat → Nat → K) (bias : Nat → K) (act : K → K)
  /-- `layers/pooling/max_pooling/MaxPooling2D.py` -/
  | maxPool (c : PoolP) (act : K → K)
  /-- `layers/pooling/average_pooling/AveragePooling2D.py` -/
  | avgPool (c : PoolP) (act : K → K)
  /-- `layers/broadcast/*`: `input_shapes` of the producers, optional constant -/
  | broadcast (op : BOp) (out : Shape) (ins : List Shape) (cst : Option (Arr K)) (act : K → K)
  /-- `layers/concatenate/Concatenate.py` -/
  | concat (a : Np.Axis) (ins : List Shape) (act : K → K)
  /-- `layers/gather/Gather.py`: the index array (`shape` and elements) -/
  | gather (a : Np.Axis) (s : Shape) (idxDims : List Nat) (idx : List Nat) (act : K → K)
  /-- `layers/gather_elements/GatherElements.py` -/
  | gatherElements (a : Np.Axis) (s out : Shape) (idx : Nat → Nat → Nat → Nat) (act : K → K)
  /-- `layers/tile/Tile.py` -/
  | tile (s : Shape) (rc rh rw : Nat) (act : K → K)
  /-- `layers/transpose/Transpose.py` -/
  | transpose (s : Shape) (p : Perm3) (act : K → K)
  /-- `layers/padding/constant_pad/ConstantPad.py` -/
  | constantPad (s : Shape) (p : Pads3) (k : K) (act : K → K)
  /-- `layers/padding/{edge,reflect,wrap}_pad` -/
  | pad (mode : PadMode) (s : Shape) (p : Pads3) (act : K → K)
  /-- `layers/softmax/Softmax.py` -/
  | softmax (s : Shape) (axis : Option Axis) (act : K → K)
  /-- `layers/batch_normalization/BatchNormalization.py` -/
  | batchNorm (s : Shape) (eps : K) (scale mean var bias : Nat → K) (act : K → K)
  /-- `layers/reduce/Reduce.py` -/
  | reduce (fn : RFunc) (c : RedP) (keepdims : Bool) (act : K → K)
  /-- `layers/resize/Resize.py` -/
  | resize (i : Interp K) (mode : CoordMode) (extrapolation : K) (C : Nat) (h w : RAxis K) (act : K → K)

/-- dimension of the concatenated axis -/
def concatShape (a : Np.Axis) : List Shape → Shape
  | [] => ⟨0, 0, 0⟩
  | s :: ss => match a with
    | .c => ⟨s.C + (ss.map Shape.C).sum, s.H, s.W⟩
    | .h => ⟨s.C, s.H + (ss.map Shape.H).sum, s.W⟩
    | .w => ⟨s.C, s.H, s.W + (ss.map Shape.W).sum⟩

/-- the output shape of a Gather -/
def gatherShape (a : Np.Axis) (s : Shape) (n : Nat) : Shape :=
  match a with
  | .c => ⟨n, s.H, s.W⟩
  | .h => ⟨s.C, n, s.W⟩
  | .w => ⟨s.C, s.H, n⟩

/-- the output shape of a Transpose (`Transpose.py` 57-59) -/
def transposeShape (p : Perm3) (s : Shape) : Shape :=
  let d : Np.Axis → Nat := fun | .c => s.C | .h => s.H | .w => s.W
  ⟨d (p.axis .c), d (p.axis .h), d (p.axis .w)⟩

/-- the output shape of a Pad (`Pad.py` 65-67) -/
def padShape (s : Shape) (p : Pads3) : Shape := ⟨s.C + p.cf + p.cb, s.H + p.hf + p.hb, s.W + p.wf + p.wb⟩

/-- `output_channels`, `output_height`, `output_width` for the classes that have these attributes
(`hasattr(layer, "output_channels")`); Gemm has them too (`Gemm.py` 72-74), with the values `1, M, N` given by the
importer. -/
def Op.chans : Op K → Option Shape
  | .input .. | .constant .. | .dense .. | .activation .. | .flatten .. => none
  | .matmul C _ H _ W _ => some ⟨C, H, W⟩
  | .gemm _ _ M N _ _ _ _ _ _ => some ⟨1, M, N⟩
  | .conv _ c _ _ _ => some ⟨c.filters, c.outH, c.outW⟩
  | .maxPool c _ | .avgPool c _ => some ⟨c.C, c.Ho, c.Wo⟩
  | .broadcast _ out _ _ _ => some out
  | .concat a ins _ => some (concatShape a ins)
  | .gather a s _ idx _ => some (gatherShape a s idx.length)
  | .gatherElements _ _ out _ _ => some out
  | .tile s rc rh rw _ => some ⟨rc * s.C, rh * s.H, rw * s.W⟩
  | .transpose s p _ => some (transposeShape p s)
  | .constantPad s p _ _ | .pad _ s p _ => some (padShape s p)
  | .softmax s _ _ => if softmaxOneDim s.size s.C s.H s.W then none else some s
  | .batchNorm s .. => some s
  | .reduce _ c _ _ => some ⟨c.oC, c.oH, c.oW⟩
  | .resize _ _ _ C h w _ => some ⟨C, h.outLen, w.outLen⟩

/-- the attribute `size` -/
def Op.size : Op K → Nat
  | .input _ s => s.size
  | .constant v => v.data.length
  | .dense _ n _ _ _ => n
  | .activation n _ => n
  | .flatten s => s.size
  | .softmax s _ _ => s.size
  | o => match o.chans with
    | some s => s.size
    | none => 0

/-- sizes of the producers' tensors, as the attributes of the layer describe them -/
def Op.inSizes : Op K → List Nat
  | .input .. | .constant .. => []
  | .dense p _ _ _ _ => [p]
  | .activation n _ => [n]
  | .flatten s => [s.size]
  | .matmul C C' H Kd W _ => [C * H * Kd, C' * Kd * W]
  | .gemm _ _ M _ Kd _ _ _ _ _ => [M * Kd]
  | .conv _ c _ _ _ => [c.inC * c.inH * c.inW]
  | .maxPool c _ | .avgPool c _ => [c.C * c.H * c.W]
  | .broadcast _ _ ins _ _ => ins.map Shape.size
  | .concat _ ins _ => ins.map Shape.size
  | .gather _ s _ _ _ => [s.size]
  | .gatherElements _ s _ _ _ => [s.size]
  | .tile s .. => [s.size]
  | .transpose s .. => [s.size]
  | .constantPad s .. | .pad _ s .. => [s.size]
  | .softmax s .. => [s.size]
  | .batchNorm s .. => [s.size]
  | .reduce _ c _ _ => [c.C * c.H * c.W]
  | .resize _ _ _ C h w _ => [C * h.inLen * w.inLen]

/-- `patches_size` of a `Conv2DStdGemm` (`Conv2DStdGemm.py` 40-42) -/
def Op.patches : Op K → Option Nat
  | .conv .stdGemm c _ _ _ => some (c.inC * c.kh * c.kw * c.outH * c.outW)
  | _ => none

/-- what the header generator looks at -/
def Op.info (o : Op K) (idx : Nat) : Gen.LayerInfo :=
  ⟨idx, o.size, o.patches, match o with | .concat .. => true | _ => false⟩

/-- The parameter arrays written for a layer (`generator/neural_network.py` 1176-1199), each with its contents in
C order. -/
def Op.params (idx : Nat) : Op K → List (Buf × List K)
  | .constant v => [(.par .weights idx, v.data)]
  | .dense p n w b _ => [(.par .weights idx, matrix p n w), (.par .biases idx, tensor n b)]
  | .gemm _ tB _ N Kd _ _ w c _ =>
    [(.par .weights idx, if tB then matrix N Kd w else matrix Kd N w), (.par .biases idx, tensor N c)]
  | .conv _ c wt b _ =>
    [(.par .weights idx, tensor4 c.filters c.inC c.kh c.kw wt), (.par .biases idx, tensor c.filters b)]
  | .broadcast _ _ _ (some c) _ => [(.par .constant idx, c.flat)]
  | .batchNorm s _ scale mean var bias _ =>
    [(.par .scale idx, tensor s.C scale), (.par .mean idx, tensor s.C mean), (.par .var idx, tensor s.C var),
      (.par .biases idx, tensor s.C bias)]
  | _ => []

/-- shape of `np.take(x, idx, axis)` -/
def takeDims (a : Np.Axis) (s : Shape) (d : List Nat) : List Nat :=
  match a with
  | .c => d ++ [s.H, s.W]
  | .h => [s.C] ++ d ++ [s.W]
  | .w => [s.C, s.H] ++ d

/-- shape of the result of a reduction (`ReduceSum.py` 119-129): the array has shape `(1, C, H, W)` -/
def reduceDims (c : RedP) (keepdims : Bool) : List Nat :=
  if c.axes = [] ∧ c.noop then [1, c.C, c.H, c.W]
  else if keepdims then [1, c.oC, c.oH, c.oW]
  else if c.axes = [] then []
  else (if 0 ∈ c.axes then [] else [1]) ++ (if 1 ∈ c.axes then [] else [c.C]) ++
    (if 2 ∈ c.axes then [] else [c.H]) ++ (if 3 ∈ c.axes then [] else [c.W])

section
variable [Field K] [LinearOrder K] [IsStrictOrderedRing K] [FloorRing K]

/-- `forward_path_layer` of the layer on the list of its inputs (`none`: an exception).  Differences with the code:
Maximum and Minimum (which do not reshape their inputs) are only modelled on arrays of equal shape, and Concatenate,
Maximum, Minimum and Average on at least two inputs, the other cases counting as exceptions (given one array instead
of a list they iterate on its first axis); Average modifies its first input (`Average.py` 116-118), which is not
modelled. -/
def Op.forward (M : CMath K) (fmt : DataFormat) : Op K → List (Nd K) → Option (Nd K)
  -- `Input.py`: return input_array
  | .input .., [x] => some x
  -- `constant.py`: return self.constant
  | .constant v, [_] => some v
  -- `Dense.py` 91-99
  | .dense p n w b act, [x] => do
    let v ← x.reshape1 p
    pure ⟨[n], tensor n (denseForward p act w b v)⟩
  -- `ActivationLayer.py`: compute(inputs)
  | .activation _ act, [x] => some ⟨x.dims, x.data.map act⟩
  -- `Flatten.py` 79-86
  | .flatten s, [x] => do
    match fmt with
    | .last =>
      let a ← x.reshape3 s
      pure ⟨[s.H, s.W, s.C], flattenForward .last s.C s.H s.W a.v⟩
    | .first => pure ⟨[x.data.length], x.data⟩
  -- `MatMul.py` 78-94
  | .matmul C C' H Kd W act, [x, y] => do
    let a ← x.reshape3 ⟨C, H, Kd⟩
    let b ← y.reshape3 ⟨C', Kd, W⟩
    if C = C' ∨ C = 1 ∨ C' = 1 then
      let Co := if C = 1 then C' else C
      pure ⟨[1, Co, H, W], tensor3 Co H W (matmulForward C C' Kd act a.v b.v)⟩
    else none
  -- `Gemm.py` 163-181
  | .gemm tA tB M N Kd alpha beta w c act, [x] => do
    let v ← x.reshape1 (M * Kd)
    let inW := if tA then M else Kd
    pure ⟨[M, N], matrix M N (gemmForward tA tB Kd alpha beta act w (fun _ j => c j) fun i j => v (i * inW + j))⟩
  -- `Conv2D.py` 233-286
  | .conv _ c wt b act, [x] => do
    let a ← x.reshape3 ⟨c.inC, c.inH, c.inW⟩
    let r ← convForward c act wt b a.v
    pure (ofArr r)
  -- `Pooling2D.py` 142-164
  | .maxPool c _, [x] => do
    let a ← x.reshape3 ⟨c.C, c.H, c.W⟩
    fill [c.C, c.Ho, c.Wo] c.C c.Ho c.Wo (maxPoolForward c a.v)
  | .avgPool c _, [x] => do
    let a ← x.reshape3 ⟨c.C, c.H, c.W⟩
    fill [c.C, c.Ho, c.Wo] c.C c.Ho c.Wo (avgPoolForward c a.v)
  -- `Maximum.py`, `Minimum.py` 125-130 (no reshape)
  | .broadcast .max _ _ _ act, x :: y :: xs =>
    if ∀ z ∈ y :: xs, z.dims = x.dims then
      some ⟨x.dims, ((y :: xs).foldl (fun s z => List.zipWith max s z.data) x.data).map act⟩ else none
  | .broadcast .min _ _ _ act, x :: y :: xs =>
    if ∀ z ∈ y :: xs, z.dims = x.dims then
      some ⟨x.dims, ((y :: xs).foldl (fun s z => List.zipWith min s z.data) x.data).map act⟩ else none
  | .broadcast .max .., _ => none
  | .broadcast .min .., _ => none
  | .broadcast .avg .., _ => none
  -- `Add.py` 112-135, `Subtract.py`, `Multiply.py`, `Divide.py`
  | .broadcast op _ ins cst act, xs => do
    let as ← (ins.zip xs).mapM fun p => p.2.reshape3 p.1
    if ins.length = xs.length then
      let r ← broadcastForward op act cst as
      pure (ofArr r)
    else none
  -- `Concatenate.py` 136-155
  | .concat a ins act, x :: y :: xs => do
    let as ← (ins.zip (x :: y :: xs)).mapM fun p => p.2.reshape3 p.1
    if ins.length = xs.length + 2 then
      match as with
      | [] => none
      | b :: bs => if ∀ z ∈ bs, (a ≠ .c → z.C = b.C) ∧ (a ≠ .h → z.H = b.H) ∧ (a ≠ .w → z.W = b.W) then pure (ofArr (concatForward a act b bs)) else none
    else none
  -- `Gather.py`
  | .gather a s d idx _, [x] => do
    let v ← x.reshape3 s
    if ∀ k ∈ idx, k < Np.dim a v then pure ⟨takeDims a s d, (Np.take a idx v).flat⟩ else none
  -- `GatherElements.py` 142-158
  | .gatherElements a s out idx _, [x] => do
    let v ← x.reshape3 s
    pure (ofArr (gatherElementsForward a idx out.C out.H out.W v))
  -- `Tile.py`
  | .tile s rc rh rw _, [x] => do
    let v ← x.reshape3 s
    pure (ofArr (Np.tile rc rh rw v))
  -- `Transpose.py`
  | .transpose s p _, [x] => do
    let v ← x.reshape3 s
    let o := transposeShape p s
    let at' (ix : Np.Axis → Nat) : K := v.v (ix .c) (ix .h) (ix .w)
    pure ⟨[1, o.C, o.H, o.W], tensor3 o.C o.H o.W fun f i j =>
      at' fun d => if d = p.axis .c then f else if d = p.axis .h then i else j⟩
  -- `ConstantPad.py` 42-54
  | .constantPad s p k act, [x] => do
    let v ← x.reshape3 s
    pure (ofArr ((Np.padConstant p.cf p.cb p.hf p.hb p.wf p.wb k v).map act))
  -- `EdgePad.py`, `ReflectPad.py`, `WrapPad.py`
  | .pad mode s p act, [x] => do
    let v ← x.reshape3 s
    pure (ofArr ((Np.padBy mode.np p.cf p.cb p.hf p.hb p.wf p.wb v).map act))
  -- `Softmax.py` 102-115
  | .softmax s axis _, [x] =>
    if softmaxOneDim s.size s.C s.H s.W then
      some ⟨[x.data.length], tensor x.data.length (softmaxForward1 M.exp x.data.length fun a => x.data.getD a 0)⟩
    else do
      let v ← x.reshape3 s
      match axis with
      | some a => pure ⟨[1, s.C, s.H, s.W], tensor3 s.C s.H s.W (softmaxForward3 M.exp s.C s.H s.W a v.v)⟩
      -- `np.sum(exp, axis=None)` is the sum of all the elements
      | none => pure ⟨[1, s.C, s.H, s.W], tensor3 s.C s.H s.W (softmaxForwardAll M.exp s.C s.H s.W v.v)⟩
  -- `BatchNormalization.py` 131-145
  | .batchNorm s eps scale mean var bias act, [x] => do
    let v ← x.reshape3 s
    pure (ofArr ⟨s.C, s.H, s.W, batchNormForward M.sqrt eps act scale mean var bias v.v⟩)
  -- `ReduceSum.py` 119-129 and siblings
  | .reduce fn c keepdims _, [x] => do
    let v ← x.reshape3 ⟨c.C, c.H, c.W⟩
    fill (reduceDims c keepdims) c.oC c.oH c.oW (reduceForward fn c v.v)
  -- `ResizeNearest.py` 76-93, `ResizeLinear.py` 45-77, `ResizeCubic.py` 75-104
  | .resize i mode e C h w _, [x] => do
    let v ← x.reshape3 ⟨C, h.inLen, w.inLen⟩
    fill [C, h.outLen, w.outLen] C h.outLen w.outLen (match i with
      | .nearest nm => nearestForward e mode nm h w v.v
      | .linear => linearForward e mode h w v.v
      | .cubic a => cubicForward a e mode h w v.v)
  | _, _ => none

/-- `generate_inference_code_layer` of the layer: `idx` is its index, `srcs` the `output_str` of its producers and
`road` its `path`.  `none`: the generator raises or the text is not C.  The working arrays are channels-first. -/
def Op.code (M : CMath K) (fmt : DataFormat) (idx : Nat) (road : Nat) : Op K → List Buf → Option (Prog K Unit)
  | .input r s, [] => some (inputCode fmt .first r s.C s.H s.W s.size road)
  | .constant v, [] => some (constantCode v.data.length idx road)
  | .dense p n _ _ act, [src] => some (denseCode n p idx act src road)
  | .activation n act, [src] => some (activationLayerCode n act src road)
  | .flatten s, [_] => some (flattenCode fmt s.C s.H s.W s.size road)
  | .matmul C _ H Kd W act, [l, r] => some (matmulCode C H W Kd (W * H * C) act l r road)
  | .gemm tA tB M N Kd alpha beta _ _ act, [src] =>
    some (gemmCode tA tB M N (if tA then Kd else M) (if tA then M else Kd) (M * N) idx (factor alpha) (factor beta) act src road)
  | .conv .loops6 c _ _ act, [src] => some (conv6Code c (c.filters * c.outH * c.outW) idx act src road)
  | .conv .stdGemm c _ _ act, [src] => some (stdGemmCode c (c.filters * c.outH * c.outW) idx act src road)
  | .maxPool c act, [src] => some (maxPoolCode c (c.C * c.Ho * c.Wo) M.ninf act src road)
  | .avgPool c act, [src] => some (avgPoolCode c (c.C * c.Ho * c.Wo) act src road)
  | .broadcast op o ins cst act, srcs =>
    some (broadcastCode op o.C o.H o.W o.size act ((srcs.zip ins).map fun p => ⟨p.1, p.2.C, p.2.H, p.2.W⟩)
      (cst.map fun c => ⟨.par .constant idx, c.C, c.H, c.W⟩) road)
  | .concat a ins act, srcs =>
    let o := concatShape a ins
    some (concatCode a o.C o.H o.W o.size act ((srcs.zip ins).map fun p => ⟨p.1, p.2.C, p.2.H, p.2.W⟩) road)
  | .gather a s _ idx act, [src] =>
    let o := gatherShape a s idx.length
    some (gatherCode a idx s.W s.H o.C o.H o.W o.size act src road)
  | .gatherElements a s o idx act, [src] =>
    some (gatherElementsCode a (tensor3 o.C o.H o.W idx) s.W s.H o.C o.H o.W o.size act src road)
  | .tile s rc rh rw act, [src] =>
    some (tileCode s.C s.H s.W (rc * s.C) (rh * s.H) (rw * s.W) ((rc * s.C) * (rh * s.H) * (rw * s.W)) act src road)
  | .transpose s p act, [src] =>
    let o := transposeShape p s
    some (transposeCode p s.H s.W o.C o.H o.W o.size act src road)
  | .constantPad s p k act, [src] =>
    let o := padShape s p
    some (constantPadCode s.H s.W o.C o.H o.W p.cf p.cb p.hf p.hb p.wf p.wb o.size k act src road)
  | .pad mode s p act, [src] =>
    let o := padShape s p
    some (padCode mode.c s.C s.H s.W o.C o.H o.W p.cf p.hf p.wf o.size act src road)
  | .softmax s axis act, [src] => softmaxCode M.exp s.size s.C s.H s.W axis act src road
  | .batchNorm s eps _ _ _ _ act, [src] => some (batchNormCode M.sqrt s.C (s.H * s.W) idx eps act src road)
  | .reduce fn c _ act, [src] => some (reduceCode fn c (c.oC * c.oH * c.oW) act src road)
  | .resize (.nearest nm) mode _ C h w act, [src] => nearestCode mode nm C (C * h.outLen * w.outLen) h w act src road
  | .resize .linear mode _ C h w act, [src] => linearCode mode C (C * h.outLen * w.outLen) h w act src road
  | .resize (.cubic a) mode _ C h w act, [src] => cubicCode a mode C (C * h.outLen * w.outLen) h w act src road
  | _, _ => none

/-! ## Networks -/

/-- A network: the graph of the importer and, for each index, the layer; `data_format`. -/
structure Network (K : Type) where
  graph : Graph.Dnn
  op : Nat → Op K
  fmt : DataFormat

/-- One iteration of the layer loop of `compute_inference` (`generator/neural_network.py` 533-552) where
`forward_path_layer` may raise. -/
def stepE {T : Type} (prevOf nextOf : Nat → List Nat) (fwd : Nat → List T → Option T)
    (st : Graph.Inputs T × Option T) (n : Nat) : Option (Graph.Inputs T × Option T) := do
  let ins ← Graph.gather (prevOf n) n st.1
  let y ← fwd n ins
  let li ← Graph.publish n y (nextOf n) st.1
  pure (fun i => if i = n then none else li i, some y)

/-- the layer loop -/
def loopE {T : Type} (prevOf nextOf : Nat → List Nat) (fwd : Nat → List T → Option T) (order : List Nat) (x : T) :
    Option T := do
  let st ← order.foldlM (stepE prevOf nextOf fwd) (Graph.Inputs.init order x, none)
  st.2

/-- `np.transpose(np.reshape(x, (H, W, C)), (2, 0, 1))` for channels-last models whose first layer has an
`input_shape` of four entries (`generator/neural_network.py` 492-502) -/
def prepare (fmt : DataFormat) (first : Op K) (x : Nd K) : Option (Nd K) :=
  match fmt, first with
  | .last, .input true s =>
    if x.data.length = s.size then
      let a := arrOf ⟨s.H, s.W, s.C⟩ x.data
      some ⟨[s.C, s.H, s.W], tensor3 s.C s.H s.W fun f i j => a.v i j f⟩
    else none
  | _, _ => some x

/-- `np.transpose(nn_output, (1, 2, 0))` for channels-last models whose last layer has `output_channels`
(`generator/neural_network.py` 571-578; raises unless the array has rank three), then `np.reshape(nn_output, -1)` -/
def finish (fmt : DataFormat) (last : Op K) (y : Nd K) : Option (List K) :=
  match fmt, last.chans with
  | .last, some _ =>
    match y.dims with
    | [C, H, W] =>
      let a := arrOf ⟨C, H, W⟩ y.data
      some (tensor3 H W C fun i j f => a.v f i j)
    | _ => none
  | _, _ => some y.data

/-- The reference: `compute_inference` on one input (`generator/neural_network.py` 487-580, without debug mode and
normalisation), for the layers in the order of `plan`. -/
def Network.reference (net : Network K) (M : CMath K) (plan : Graph.Plan) (x : Nd K) : Option (List K) := do
  let first ← plan.order.head?
  let last ← plan.order.getLast?
  let x' ← prepare net.fmt (net.op first) x
  let y ← loopE net.graph.prevOf net.graph.nextOf (fun n => (net.op n).forward M net.fmt) plan.order x'
  finish net.fmt (net.op last) y

/-- code that cannot be compiled -/
def broken : Prog K Unit := fun _ => none

/-- the code of layer `n` -/
def Network.layerCode (net : Network K) (M : CMath K) (n : Nat) (srcs : List Buf) (dst : Buf) : Prog K Unit :=
  match dst with
  | .out road => ((net.op n).code M net.fmt n road srcs).getD broken
  | _ => broken

/-- The generated function `inference` (`templates/template_source_file.c.tpl`, filled by
`generator/neural_network.py` 880-960, without timing, debug prints and normalisation). -/
def Network.inference (net : Network K) (M : CMath K) (plan : Graph.Plan) : Prog K Unit := do
  Graph.runLayers plan net.graph.prevOf (fun n => (net.op n).size) (net.layerCode M) plan.order
  match plan.order.getLast? with
  | none => ret ()
  | some n =>
    let s := ((net.op n).chans).getD ⟨0, 0, 0⟩
    outputCode net.fmt .first (net.op n).chans.isSome s.C s.H s.W (net.op n).size (plan.path n)

end

end Verif.Net

import Verif.Layers.Broadcast

/-!
# Layers that move elements: Concatenate, Gather, GatherElements, Tile, Transpose, Pad
-/

namespace Verif
namespace Np
variable {α : Type}

/-- The axes of a tensor without batch: acetone's axis 1, 2, 3. -/
inductive Axis | c | h | w
  deriving DecidableEq, Repr

/-- `x.shape[axis - 1]` -/
def dim (a : Axis) (x : Arr α) : Nat :=
  match a with | .c => x.C | .h => x.H | .w => x.W

/-- `np.concatenate((x, y), axis)` for arrays equal on the other axes -/
def concat2 (a : Axis) (x y : Arr α) : Arr α :=
  match a with
  | .c => ⟨x.C + y.C, x.H, x.W, fun f i j => if f < x.C then x.v f i j else y.v (f - x.C) i j⟩
  | .h => ⟨x.C, x.H + y.H, x.W, fun f i j => if i < x.H then x.v f i j else y.v f (i - x.H) j⟩
  | .w => ⟨x.C, x.H, x.W + y.W, fun f i j => if j < x.W then x.v f i j else y.v f i (j - x.W)⟩

/-- `np.take(x, indices, axis)` for a flat list of valid indices -/
def take (a : Axis) (idx : List Nat) (x : Arr α) : Arr α :=
  match a with
  | .c => ⟨idx.length, x.H, x.W, fun f i j => x.v (idx.getD f 0) i j⟩
  | .h => ⟨x.C, idx.length, x.W, fun f i j => x.v f (idx.getD i 0) j⟩
  | .w => ⟨x.C, x.H, idx.length, fun f i j => x.v f i (idx.getD j 0)⟩

/-- `np.tile(x, (rc, rh, rw))` -/
def tile (rc rh rw : Nat) (x : Arr α) : Arr α :=
  ⟨rc * x.C, rh * x.H, rw * x.W, fun f i j => x.v (f % x.C) (i % x.H) (j % x.W)⟩

/-- `np.pad(x, ((cf, cb), (hf, hb), (wf, wb)), "constant", constant_values=k)` -/
def padConstant (cf cb hf hb wf wb : Nat) (k : α) (x : Arr α) : Arr α :=
  ⟨x.C + cf + cb, x.H + hf + hb, x.W + wf + wb, fun f i j =>
    if cf ≤ f ∧ f < cf + x.C ∧ hf ≤ i ∧ i < hf + x.H ∧ wf ≤ j ∧ j < wf + x.W
    then x.v (f - cf) (i - hf) (j - wf) else k⟩

/-- `np.pad` in a mode that reads, along each axis of size `n`, the element `g n x` for the signed
position `x` relative to the first element -/
def padBy (g : Nat → Int → Nat) (cf cb hf hb wf wb : Nat) (x : Arr α) : Arr α :=
  ⟨x.C + cf + cb, x.H + hf + hb, x.W + wf + wb, fun f i j =>
    x.v (g x.C ((f : Int) - cf)) (g x.H ((i : Int) - hf)) (g x.W ((j : Int) - wf))⟩

/-- mode "edge": the nearest element -/
def edge (n : Nat) (x : Int) : Nat := if x < 0 then 0 else if (n : Int) ≤ x then n - 1 else x.toNat

/-- mode "wrap": periodic continuation -/
def wrap (n : Nat) (x : Int) : Nat := (x % (n : Int)).toNat

/-- mode "reflect": mirror images without repeating the border (period `2(n-1)`) -/
def reflect (n : Nat) (x : Int) : Nat :=
  let y := x % (2 * ((n : Int) - 1))
  if y < n then y.toNat else (2 * ((n : Int) - 1) - y).toNat

end Np

namespace Layers
open Prog
variable {α : Type}

/-! ## Concatenate -/

/-- size of an operand along an axis -/
def Operand.dim (a : Np.Axis) (o : Operand) : Nat :=
  match a with | .c => o.C | .h => o.H | .w => o.W

/-- one `if (.. < borne_sup && .. >= borne_inf) temp[..] = src[..]` statement
(`template_Concatenate.c.tpl` 9-20) -/
def concatOne (a : Np.Axis) (H W f i j : Nat) (o : Operand) (inf : Nat) : Prog α Unit :=
  match a with
  | .c =>
    if f < inf + o.C ∧ f ≥ inf then do
      let x ← load o.buf ((j : Int) + o.W * (i + o.H * ((f : Int) - inf)))
      store .temp (at3 H W f i j : Int) x
    else pure ()
  | .h =>
    if i < inf + o.H ∧ i ≥ inf then do
      let x ← load o.buf ((j : Int) + o.W * (((i : Int) - inf) + o.H * f))
      store .temp (at3 H W f i j : Int) x
    else pure ()
  | .w =>
    if j < inf + o.W ∧ j ≥ inf then do
      let x ← load o.buf (((j : Int) - inf) + o.W * (i + o.H * f))
      store .temp (at3 H W f i j : Int) x
    else pure ()

/-- all of them, with the running bounds of `ConcatenateDefault.py` 64-76 -/
def concatStmts (a : Np.Axis) (H W f i j : Nat) : List Operand → Nat → Prog α Unit
  | [], _ => pure ()
  | o :: os, inf => do
    concatOne a H W f i j o inf
    concatStmts a H W f i j os (inf + o.dim a)

/-- `templates/layers/template_Concatenate.c.tpl` filled by `concatenate/ConcatenateDefault.py` 38-82 -/
def concatCode (a : Np.Axis) (C H W size : Nat) (act : α → α) (prev : List Operand) (road : Nat) :
    Prog α Unit := do
  loop3 C H W fun f i j => concatStmts a H W f i j prev 0
  copyMap size .temp (.out road) act

/-- `Concatenate.forward_path_layer` (`concatenate/Concatenate.py` 136-155) -/
def concatForward (a : Np.Axis) (act : α → α) (x : Arr α) (xs : List (Arr α)) : Arr α :=
  (xs.foldl (Np.concat2 a) x).map act

/-! ## Gather -/

/-- `indice_Gather_<idx>[k]`: the constant index arrays declared in the source file
(`neural_network.py` 814-838, `template_source_file.c.tpl` 79-81) -/
def loadIdx (l : List Nat) (k : Nat) : Prog α Nat := fun m =>
  if h : k < l.length then some (l[k], m) else none

/-- the innermost statements of `template_Gather.c.tpl` 32-34 -/
def gatherInner (W H : Nat) (act : α → α) (src : Buf) (f i j position : Nat) : Prog α Nat := do
  let x ← load src ((j + W * (i + H * f) : Nat) : Int)
  store .temp (position : Int) x
  let t ← load .temp (position : Int)
  store .temp (position : Int) (act t)
  pure (position + 1)

/-- the loop nests of `template_Gather.c.tpl` 5-37 (`W`, `H` are the input width and height, the
last three the output dimensions); the variable `position` is threaded through -/
def gatherLoops (a : Np.Axis) (idx : List Nat) (W H Co Ho Wo : Nat) (act : α → α) (src : Buf) :
    Prog α Nat :=
  match a with
  | .c => foldN idx.length 0 fun k p => do
      let f ← loadIdx idx k
      foldN Ho p fun i p => foldN Wo p fun j p => gatherInner W H act src f i j p
  | .h => foldN Co 0 fun f p => foldN idx.length p fun k p => do
      let i ← loadIdx idx k
      foldN Wo p fun j p => gatherInner W H act src f i j p
  | .w => foldN Co 0 fun f p => foldN Ho p fun i p => foldN idx.length p fun k p => do
      let j ← loadIdx idx k
      gatherInner W H act src f i j p

/-- `templates/layers/template_Gather.c.tpl` filled by `gather/GatherDefault.py` 38-75 -/
def gatherCode (a : Np.Axis) (idx : List Nat) (W H Co Ho Wo size : Nat) (act : α → α) (src : Buf)
    (road : Nat) : Prog α Unit := do
  let _ ← gatherLoops a idx W H Co Ho Wo act src
  copyMap size .temp (.out road) id

/-! ## GatherElements -/

/-- the flat index read in `template_GatherElements.c.tpl` 8-16 -/
def gatherAddr (a : Np.Axis) (W H f i j k : Nat) : Nat :=
  match a with
  | .c => j + W * (i + H * k)
  | .h => j + W * (k + H * f)
  | .w => k + W * (i + H * f)

/-- `templates/layers/template_GatherElements.c.tpl` filled by `GatherElementsDefault.py` 38-71 -/
def gatherElementsCode (a : Np.Axis) (idx : List Nat) (W H Co Ho Wo size : Nat) (act : α → α) (src : Buf)
    (road : Nat) : Prog α Unit := do
  loop3 Co Ho Wo fun f i j => do
    let k ← loadIdx idx (at3 Ho Wo f i j)
    let x ← load src (gatherAddr a W H f i j k : Int)
    store .temp (at3 Ho Wo f i j : Int) x
  copyMap size .temp (.out road) act

/-- `GatherElements.forward_path_layer` (`GatherElements.py` 142-158); `idx f i j` is
`self.indices[0, f, i, j]` -/
def gatherElementsForward (a : Np.Axis) (idx : Nat → Nat → Nat → Nat) (Co Ho Wo : Nat) (x : Arr α) :
    Arr α :=
  ⟨Co, Ho, Wo, fun f i j => match a with
    | .c => x.v (idx f i j) i j
    | .h => x.v f (idx f i j) j
    | .w => x.v f i (idx f i j)⟩

/-! ## Tile -/

/-- `templates/layers/template_Tile.c.tpl` filled by `tile/TileDefault.py` 38-65 -/
def tileCode (Ci Hi Wi Co Ho Wo size : Nat) (act : α → α) (src : Buf) (road : Nat) : Prog α Unit := do
  loop3 Co Ho Wo fun f i j => do
    let x ← load src ((j % Wi + Wi * (i % Hi + Hi * (f % Ci)) : Nat) : Int)
    store .temp (at3 Ho Wo f i j : Int) x
  copyMap size .temp (.out road) act

/-! ## Transpose -/

/-- the permutations of the three axes that keep the batch axis first (`perm[0] = 0`) -/
inductive Perm3 | p123 | p132 | p213 | p231 | p312 | p321
  deriving DecidableEq, Repr

/-- `perm[1:]` as axes -/
def Perm3.axis : Perm3 → Np.Axis → Np.Axis
  | .p123, a => a
  | .p132, .c => .c | .p132, .h => .w | .p132, .w => .h
  | .p213, .c => .h | .p213, .h => .c | .p213, .w => .w
  | .p231, .c => .h | .p231, .h => .w | .p231, .w => .c
  | .p312, .c => .w | .p312, .h => .c | .p312, .w => .h
  | .p321, .c => .w | .p321, .h => .h | .p321, .w => .c

/-- `z = np.transpose(x, perm)`: output axis `d` is the input axis `perm[d]`, so the element of `x`
with index `ix` is found in `z` under the index `(ix[perm[1]], ix[perm[2]], ix[perm[3]])`. -/
def IsTranspose (p : Perm3) (x z : Arr α) : Prop :=
  z.C = Np.dim (p.axis .c) x ∧ z.H = Np.dim (p.axis .h) x ∧ z.W = Np.dim (p.axis .w) x ∧
  ∀ ix : Np.Axis → Nat, (∀ a, ix a < Np.dim a x) →
    z.v (ix (p.axis .c)) (ix (p.axis .h)) (ix (p.axis .w)) = x.v (ix .c) (ix .h) (ix .w)

/-- the loop variable `indices[axis]`, `indices = ["Batch", "f", "i", "j"]`
(`TransposeDefault.py` 59) -/
def loopVar (f i j : Nat) : Np.Axis → Nat
  | .c => f | .h => i | .w => j

/-- the loop variables `(a, b, c)` chosen in `TransposeDefault.py` 60-71 -/
def transposeVars (p : Perm3) (f i j : Nat) : Nat × Nat × Nat :=
  if p = .p231 then
    (loopVar f i j (p.axis .c), loopVar f i j (p.axis .w), loopVar f i j (p.axis .h))
  else if p = .p312 then
    (loopVar f i j (p.axis .h), loopVar f i j (p.axis .c), loopVar f i j (p.axis .w))
  else
    (loopVar f i j (p.axis .w), loopVar f i j (p.axis .h), loopVar f i j (p.axis .c))

/-- `templates/layers/template_Transpose.c.tpl` filled by `transpose/TransposeDefault.py` 38-77 -/
def transposeCode (p : Perm3) (Hi Wi Co Ho Wo size : Nat) (act : α → α) (src : Buf) (road : Nat) :
    Prog α Unit := do
  loop3 Co Ho Wo fun f i j => do
    let x ← load src (((transposeVars p f i j).1 + Wi * ((transposeVars p f i j).2.1
      + Hi * (transposeVars p f i j).2.2) : Nat) : Int)
    store .temp (at3 Ho Wo f i j : Int) x
  copyMap size .temp (.out road) act

/-! ## Pad -/

/-- `templates/layers/Pad/template_Constant_Pad.c.tpl` filled by `ConstantPadDefault.py` 40-74;
`Co`, `Ho`, `Wo` are the output dimensions -/
def constantPadCode (Hi Wi Co Ho Wo cf cb hf hb wf wb size : Nat) (k : α) (act : α → α) (src : Buf)
    (road : Nat) : Prog α Unit := do
  loop3 Co Ho Wo fun f i j => do
    (if (f : Int) ≥ cf ∧ (f : Int) < (Co : Int) - cb ∧ (i : Int) ≥ hf ∧ (i : Int) < (Ho : Int) - hb ∧
        (j : Int) ≥ wf ∧ (j : Int) < (Wo : Int) - wb then (do
      let x ← load src (((j : Int) - wf) + Wi * (((i : Int) - hf) + Hi * ((f : Int) - cf)))
      store .temp (at3 Ho Wo f i j : Int) x)
    else store .temp (at3 Ho Wo f i j : Int) k : Prog α Unit)
    let t ← load .temp (at3 Ho Wo f i j : Int)
    store .temp (at3 Ho Wo f i j : Int) (act t)
  copyMap size .temp (.out road) id

/-- the index changed by `template_Edge_Pad.c.tpl` (one axis; `n` the input size, `p` the front pad);
`none` would be a C error -/
def edgeIdx (n p x : Nat) : Option Int :=
  let new : Int := (x : Int) - p
  let new := if x < p then 0 else new
  let new := if x ≥ n + p then (n : Int) - 1 else new
  some new

/-- `template_Reflect_Pad.c.tpl` (one axis); the C remainder truncates towards zero and a zero
divisor is undefined -/
def reflectIdx (n p x : Nat) : Option Int :=
  let mx : Int := (n : Int) - 1
  if 2 * mx = 0 then none else
  let new := Int.tmod ((p : Int) - x) (2 * mx)
  let new := if new < 0 then 2 * mx + new else new
  let new := if new > mx then 2 * mx - new else new
  some new

/-- `template_Wrap_Pad.c.tpl` (one axis) -/
def wrapIdx (n p x : Nat) : Option Int :=
  let new : Int := (x : Int) - p
  if n = 0 ∧ (x ≥ n + p ∨ x < p) then none else
  let new := if x ≥ n + p then Int.tmod new n else new
  let new := if x < p then Int.tmod new n + n else new
  some new

/-- an `int` computation that may be undefined -/
def liftO {β : Type} (o : Option β) : Prog α β := fun m => o.map fun v => (v, m)

/-- `templates/layers/Pad/template_Pad_Non_Constant.c.tpl`, filled by `EdgePadDefault.py` 59-91 (and
Reflect, Wrap); the key `linear` is never set and `activation_function` always is, so both guarded
statements (lines 15-20) are emitted. -/
def padCode (g : Nat → Nat → Nat → Option Int) (Ci Hi Wi Co Ho Wo cf hf wf size : Nat) (act : α → α)
    (src : Buf) (road : Nat) : Prog α Unit := do
  loop3 Co Ho Wo fun f i j => do
    (do
      (do
        let newF ← liftO (g Ci cf f)
        let newI ← liftO (g Hi hf i)
        let newJ ← liftO (g Wi wf j)
        let x ← load src (newJ + Wi * (newI + Hi * newF))
        store .temp (at3 Ho Wo f i j : Int) x)
      let t ← load .temp (at3 Ho Wo f i j : Int)
      store .temp (at3 Ho Wo f i j : Int) (act t))
    let t ← load .temp (at3 Ho Wo f i j : Int)
    store .temp (at3 Ho Wo f i j : Int) (act t)
  copyMap size .temp (.out road) id

end Layers
end Verif

import Verif.Layers.Conv

/-!
# Pooling layers: generated code and Python reference
-/

namespace Verif
namespace Np
variable {α : Type}

/-- `np.amax(a)` of the elements `l`; raises on an empty array -/
def amax [Max α] : List α → Option α
  | [] => none
  | v :: vs => some (vs.foldl max v)

/-- `np.mean(a)` of the elements `l`; an empty array has no mean (numpy warns and returns nan) -/
def mean [Zero α] [Add α] [Div α] [NatCast α] : List α → Option α
  | [] => none
  | v :: vs => some ((v :: vs).sum / (((v :: vs).length : Nat) : α))

end Np

namespace Layers
open Prog
variable {α : Type}

/-- attributes of a pooling layer (`layers/pooling/Pooling2D.py` 47-80) -/
structure PoolP where
  (C H W Ho Wo stride pool padTop padBottom padLeft padRight : Nat)

/-- the consistency checks of the constructor (`Pooling2D.py` 120-137) -/
def PoolP.Accepted (c : PoolP) : Prop :=
  1 ≤ c.stride ∧ 1 ≤ c.pool ∧
  (c.Ho : Int) = Int.fdiv ((c.H : Int) + c.padBottom + c.padTop - c.pool) c.stride + 1 ∧
  (c.Wo : Int) = Int.fdiv ((c.W : Int) + c.padLeft + c.padRight - c.pool) c.stride + 1

/-- `templates/layers/template_Pooling2D.c.tpl` with the `max` functions of `MaxPooling2DDefault.py` 42-52.
`ninf` is `-INFINITY`.  The row index uses `pad_left` and the column index `pad_top`, as in the template. -/
def maxPoolCode [LT α] [DecidableRel (α := α) (· < ·)] (c : PoolP) (size : Nat) (ninf : α) (act : α → α)
    (src : Buf) (road : Nat) : Prog α Unit := do
  loop3 c.C c.Ho c.Wo fun f i j => do
    let mx ← foldN c.pool ninf fun h mx => foldN c.pool mx fun w mx =>
      let ii : Int := (i : Int) * c.stride + h - c.padLeft
      let jj : Int := (j : Int) * c.stride + w - c.padTop
      if ii ≥ 0 ∧ ii < c.H ∧ jj ≥ 0 ∧ jj < c.W then do
        let x ← load src (jj + c.W * (ii + c.H * f))
        (if x > mx then load src (jj + c.W * (ii + c.H * f)) else pure mx : Prog α α)
      else pure mx
    store .temp (at3 c.Ho c.Wo f i j : Int) (act mx)
  copyMap size .temp (.out road) id

/-- the division `sum/count`; an empty window (0/0) is treated as an error -/
def divCount [Div α] [NatCast α] (s : α) (n : Nat) : Prog α α := fun m =>
  if n = 0 then none else some (s / (n : α), m)

/-- the same template with the `sum`/`count` functions of `AveragePooling2DDefault.py` 42-54 -/
def avgPoolCode [Zero α] [Add α] [Div α] [NatCast α] (c : PoolP) (size : Nat) (act : α → α)
    (src : Buf) (road : Nat) : Prog α Unit := do
  loop3 c.C c.Ho c.Wo fun f i j => do
    let sc ← foldN c.pool ((0 : α), 0) fun h sc => foldN c.pool sc fun w sc =>
      let ii : Int := (i : Int) * c.stride + h - c.padLeft
      let jj : Int := (j : Int) * c.stride + w - c.padTop
      if ii ≥ 0 ∧ ii < c.H ∧ jj ≥ 0 ∧ jj < c.W then do
        let x ← load src (jj + c.W * (ii + c.H * f))
        pure (sc.1 + x, sc.2 + 1)
      else pure sc
    let v ← divCount sc.1 sc.2
    store .temp (at3 c.Ho c.Wo f i j : Int) (act v)
  copyMap size .temp (.out road) id

/-- `input_padded` of `Pooling2D.forward_path_layer` (`Pooling2D.py` 150-155): padded with zeros only if all
four paddings are non-zero -/
def poolPadded [Zero α] (c : PoolP) (x : Nat → Nat → Nat → α) : Arr α :=
  if c.padRight ≠ 0 ∧ c.padLeft ≠ 0 ∧ c.padTop ≠ 0 ∧ c.padBottom ≠ 0 then
    ⟨c.C, c.H + c.padTop + c.padBottom, c.W + c.padLeft + c.padRight, fun p a b =>
      if c.padTop ≤ a ∧ a < c.padTop + c.H ∧ c.padLeft ≤ b ∧ b < c.padLeft + c.W
      then x p (a - c.padTop) (b - c.padLeft) else 0⟩
  else ⟨c.C, c.H, c.W, x⟩

/-- indices of the Python slice `lo : hi` of an axis with `n` elements -/
def slice (lo hi n : Nat) : List Nat := (List.range n).filter fun a => decide (lo ≤ a ∧ a < hi)

/-- `input_padded[c, i*strides : i*strides+pool_size, j*strides : j*strides+pool_size]` -/
def poolSlice [Zero α] (c : PoolP) (x : Nat → Nat → Nat → α) (f i j : Nat) : List α :=
  let p := poolPadded c x
  (slice (i * c.stride) (i * c.stride + c.pool) p.H).flatMap fun a =>
    (slice (j * c.stride) (j * c.stride + c.pool) p.W).map fun b => p.v f a b

/-- element of the result of `MaxPooling2D.forward_path_layer` (`Pooling2D.py` 142-164, `np.amax`); the
activation function is not applied -/
def maxPoolForward [Zero α] [Max α] (c : PoolP) (x : Nat → Nat → Nat → α) (f i j : Nat) : Option α :=
  Np.amax (poolSlice c x f i j)

/-- element of the result of `AveragePooling2D.forward_path_layer` (`np.mean`) -/
def avgPoolForward [Zero α] [Add α] [Div α] [NatCast α] (c : PoolP) (x : Nat → Nat → Nat → α)
    (f i j : Nat) : Option α :=
  Np.mean (poolSlice c x f i j)

end Layers
end Verif

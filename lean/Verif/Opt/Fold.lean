import Verif.Layers.Conv
import Verif.Layers.Norm

/-! # Folding a batch normalisation into a convolution -/

namespace Verif.Opt
variable {α : Type}

/-- `alpha = scale[z] / np.sqrt(var[z] + epsilon)` (`FuseConvBatchNorm.py` 87) -/
def foldAlpha [Add α] [Div α] (sqrt : α → α) (eps : α) (scale var : Nat → α) (z : Nat) : α :=
  scale z / sqrt (var z + eps)

/-- One iteration of the loop of `FuseConvBatchNorm.apply_pattern` (`FuseConvBatchNorm.py` 86-90); the arrays
are updated in place. -/
def foldStep [Add α] [Sub α] [Mul α] [Div α] (sqrt : α → α) (eps : α) (scale mean var bias : Nat → α)
    (st : (Nat → Nat → Nat → Nat → α) × (Nat → α)) (z : Nat) : (Nat → Nat → Nat → Nat → α) × (Nat → α) :=
  let alpha := foldAlpha sqrt eps scale var z
  let B := bias z - mean z * alpha
  (fun f p h w => if f = z then alpha * st.1 f p h w else st.1 f p h w,
   fun f => if f = z then alpha * st.2 f + B else st.2 f)

/-- The loop `for z in range(len(weights[:, 0, 0, 0]))` (`FuseConvBatchNorm.py` 86-93): the new weights and
biases of a convolution with `filters` filters. -/
def foldConvBN [Add α] [Sub α] [Mul α] [Div α] (sqrt : α → α) (eps : α) (scale mean var bias : Nat → α)
    (filters : Nat) (wt : Nat → Nat → Nat → Nat → α) (b : Nat → α) : (Nat → Nat → Nat → Nat → α) × (Nat → α) :=
  (List.range filters).foldl (foldStep sqrt eps scale mean var bias) (wt, b)

end Verif.Opt

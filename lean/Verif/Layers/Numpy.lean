import Mathlib.Algebra.BigOperators.Intervals

/-!
# The numpy functions used by the Python `forward_path_layer` methods

An array is a function of its indices; its shape is passed where numpy looks at it.  These are
models of library functions (documented behaviour), not of acetone code.
-/

namespace Verif.Np
variable {α : Type}

/-- `np.dot(x, w)` for a vector of `K` elements and a `K × N` matrix -/
def vecMat [AddCommMonoid α] [Mul α] (K : Nat) (x : Nat → α) (w : Nat → Nat → α) : Nat → α :=
  fun n => ∑ k ∈ Finset.range K, x k * w k n

/-- `np.dot(a, b)` / `a @ b` for an `M × K` and a `K × N` matrix -/
def matMul [AddCommMonoid α] [Mul α] (K : Nat) (a b : Nat → Nat → α) : Nat → Nat → α :=
  fun i j => ∑ k ∈ Finset.range K, a i k * b k j

/-- `a.transpose()` of a matrix -/
def transpose2 (a : Nat → Nat → α) : Nat → Nat → α := fun i j => a j i

/-- `np.matmul` on stacks of matrices (leading axis: channels); an operand with one matrix is
broadcast. -/
def matmul3 [AddCommMonoid α] [Mul α] (C₁ C₂ K : Nat) (a b : Nat → Nat → Nat → α) :
    Nat → Nat → Nat → α :=
  fun c => matMul K (a (if C₁ = 1 then 0 else c)) (b (if C₂ = 1 then 0 else c))

end Verif.Np

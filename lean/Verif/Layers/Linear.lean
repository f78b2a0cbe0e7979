import Verif.CMem.Loops
import Verif.Layers.Numpy

/-!
# Dense, MatMul and Gemm: generated code and Python reference

`act` is the activation expression of the layer (see `Verif/Props/Activations.lean` for the
expressions themselves).  Parameter arrays are flattened in C order by
`generator/neural_network.py` 603-611 and 1176-1186.
-/

namespace Verif.Layers
open Prog
variable {α : Type}

/-! ## Dense -/

/-- `templates/layers/template_Dense.c.tpl`, filled by `layers/dense/DenseDefault.py` 39-64. -/
def denseCode [Zero α] [Add α] [Mul α] (size prevSize : Nat) (idx : Nat) (act : α → α) (src : Buf)
    (road : Nat) : Prog α Unit := do
  forN size fun i => do
    let dot ← foldN prevSize 0 fun j dot => do
      let x ← load src (j : Int)
      let w ← load (.par .weights idx) ((j * size + i : Nat) : Int)
      pure (dot + x * w)
    let b ← load (.par .biases idx) (i : Int)
    store .temp (i : Int) (act (dot + b))
  copyMap size .temp (.out road) id

/-- `Dense.forward_path_layer` (`layers/dense/Dense.py` 91-99). -/
def denseForward [AddCommMonoid α] [Mul α] (prevSize : Nat) (act : α → α) (w : Nat → Nat → α)
    (b : Nat → α) (x : Nat → α) : Nat → α :=
  fun n => act (Np.vecMat prevSize x w n + b n)

/-! ## MatMul -/

/-- `templates/layers/template_MatMul.c.tpl`, filled by `layers/matmul/MatMulDefault.py` 38-65. -/
def matmulCode [Zero α] [Add α] [Mul α] (C H W K size : Nat) (act : α → α) (left right : Buf)
    (road : Nat) : Prog α Unit := do
  loop3 C H W fun f i j => do
    store .temp (at3 H W f i j : Int) 0
    forN K fun k => do
      let t ← load .temp (at3 H W f i j : Int)
      let a ← load left ((k + K * (i + H * f) : Nat) : Int)
      let b ← load right ((j + W * (k + K * f) : Nat) : Int)
      store .temp (at3 H W f i j : Int) (t + a * b)
  copyMap size .temp (.out road) act

/-- `MatMul.forward_path_layer` (`layers/matmul/MatMul.py` 78-94); the operands have the shapes
`input_shapes[0] = (1, C₁, H, K)` and `input_shapes[1] = (1, C₂, K, W)`. -/
def matmulForward [AddCommMonoid α] [Mul α] (C₁ C₂ K : Nat) (act : α → α)
    (a b : Nat → Nat → Nat → α) : Nat → Nat → Nat → α :=
  fun f i j => act (Np.matmul3 C₁ C₂ K a b f i j)

/-! ## Gemm -/

/-- `alpha`/`beta` are kept as a list that is empty when the factor is `1`
(`layers/gemm/Gemm.py` 61-68). -/
def factor [One α] [DecidableEq α] (a : α) : List α := if a ≠ 1 then [a] else []

/-- `{{#alpha}}{{.}}*{{/alpha}}x` -/
def scaled [Mul α] (l : List α) (x : α) : α :=
  match l with
  | [] => x
  | a :: _ => a * x

/-- The loop nest shared by `templates/layers/Gemm/template_gemm_{nn,nt,tn,tt}.c.tpl`; the four files
differ by the index expressions of `A` and `B`. -/
def gemmLoops [Zero α] [Add α] [Mul α] (m n k idx : Nat) (alpha beta : List α) (act : α → α) (A : Buf)
    (aIdx bIdx : Nat → Nat → Nat) : Prog α Unit :=
  forN m fun i => forN n fun j => do
    let output ← foldN k 0 fun p output => do
      let a ← load A (aIdx i p : Int)
      let b ← load (.par .weights idx) (bIdx p j : Int)
      pure (output + scaled alpha a * b)
    let c ← load (.par .biases idx) (j : Int)
    store .temp ((i * n + j : Nat) : Int) (act (output + scaled beta c))

/-- `algo_gemm_mapping` and the four templates (`layers/gemm/GemmDefault.py` 38-43). -/
def gemmAlgo [Zero α] [Add α] [Mul α] (tA tB : Bool) (m n k idx : Nat) (alpha beta : List α)
    (act : α → α) (A : Buf) : Prog α Unit :=
  match tA, tB with
  -- template_gemm_nn: A[(i*k)+p]*(B[(p*n)+j])
  | false, false => gemmLoops m n k idx alpha beta act A (fun i p => i * k + p) (fun p j => p * n + j)
  -- template_gemm_nt: A[(i*k)+p]*(B[(j*k)+p])
  | false, true => gemmLoops m n k idx alpha beta act A (fun i p => i * k + p) (fun p j => j * k + p)
  -- template_gemm_tn: A[p*m+i]*(B[p*n+j])
  | true, false => gemmLoops m n k idx alpha beta act A (fun i p => p * m + i) (fun p j => p * n + j)
  -- template_gemm_tt: A[p*m+i]*(B[j*k+p])
  | true, true => gemmLoops m n k idx alpha beta act A (fun i p => p * m + i) (fun p j => j * k + p)

/-- `templates/layers/Gemm/template_Gemm.c.tpl`, filled by `layers/gemm/GemmDefault.py` 177-211. -/
def gemmCode [Zero α] [Add α] [Mul α] (tA tB : Bool) (outH outW inH inW size idx : Nat)
    (alpha beta : List α) (act : α → α) (src : Buf) (road : Nat) : Prog α Unit := do
  forN (outW * outH) fun k => store .temp (k : Int) 0
  gemmAlgo tA tB outH outW (if tA then inH else inW) idx alpha beta act src
  copyMap size .temp (.out road) id

/-- `Gemm.forward_path_layer` (`layers/gemm/Gemm.py` 163-181); `bias i j` is the bias array broadcast
to the shape of the result. -/
def gemmForward [CommSemiring α] (tA tB : Bool) (k : Nat) (alpha beta : α) (act : α → α)
    (w : Nat → Nat → α) (bias : Nat → Nat → α) (x : Nat → Nat → α) : Nat → Nat → α :=
  let a := if tA then Np.transpose2 x else x
  let b := if tB then Np.transpose2 w else w
  fun i j => act (alpha * Np.matMul k a b i j + beta * bias i j)

end Verif.Layers

import Verif.CMem.Addr

/-!
# Input layer, Flatten layer, constant layer, and copy of the prediction: generated code and Python reference
-/

namespace Verif.Layers
open Prog
variable {α : Type}

/-- `"channels_first"` / `"channels_last"` -/
inductive DataFormat | first | last
  deriving DecidableEq, Repr

/-- Code of the input layer (`layers/input/InputDefault.py` 37-66, `template_Input_Layer.c.tpl`) whose
`input_shape` is `(batch, C, H, W)` (`rank4`) or anything else.  `fmt` is the layout of the model
(`data_format`), `gen` the layout of the working arrays (`gen_data_format`). -/
def inputCode (fmt gen : DataFormat) (rank4 : Bool) (C H W size road : Nat) : Prog α Unit :=
  if rank4 ∧ fmt = .first ∧ gen = .last then
    loop3 C H W fun f i j => do
      let x ← load .input (((i + H * f) * W + j : Nat) : Int)
      store (.out road) (((i * W + j) * C + f : Nat) : Int) x
  else if rank4 ∧ fmt = .last ∧ gen = .first then
    loop3 C H W fun f i j => do
      let x ← load .input (((i * W + j) * C + f : Nat) : Int)
      store (.out road) (((i + H * f) * W + j : Nat) : Int) x
  else copyMap size .input (.out road) id

/-- Copy of the last layer's buffer to `prediction` (`neural_network.py` 930-950,
`memory_layout/template_output.c.tpl`); `rank4` is `hasattr(layers[-1], "output_channels")`. -/
def outputCode (fmt gen : DataFormat) (rank4 : Bool) (C H W size path : Nat) : Prog α Unit :=
  if rank4 ∧ fmt = .first ∧ gen = .last then
    loop3 C H W fun f i j => do
      let x ← load (.out path) (((i * W + j) * C + f : Nat) : Int)
      store .pred (((f * H + i) * W + j : Nat) : Int) x
  else if rank4 ∧ fmt = .last ∧ gen = .first then
    loop3 C H W fun f i j => do
      let x ← load (.out path) (((f * H + i) * W + j : Nat) : Int)
      store .pred (((i * W + j) * C + f : Nat) : Int) x
  else copyMap size (.out path) .pred id

/-- Code of Flatten (`layers/flatten/FlattenDefault.py` 38-58, `template_Flatten.c.tpl`).  It reads and writes
the buffer of the layer itself, and is empty for channels-first models. -/
def flattenCode (fmt : DataFormat) (C H W size path : Nat) : Prog α Unit :=
  match fmt with
  | .last => do
    loop3 C H W fun f i j => do
      let x ← load (.out path) (((f * H + i) * W + j : Nat) : Int)
      store .temp (((i * W + j) * C + f : Nat) : Int) x
    copyMap size .temp (.out path) id
  | .first => pure ()

/-- `Flatten.forward_path_layer` (`Flatten.py` 79-86), flattened: `np.transpose(x, (1, 2, 0))` for channels-last
models, `x.flatten()` otherwise -/
def flattenForward (fmt : DataFormat) (C H W : Nat) (x : Nat → Nat → Nat → α) : List α :=
  match fmt with
  | .last => tensor3 H W C fun i j f => x f i j
  | .first => tensor3 C H W x

/-- Code of a constant layer (`layers/constant.py` 88-106, `template_constant.c.tpl`; the loop is omitted when
`size` is 0) -/
def constantCode (size idx road : Nat) : Prog α Unit :=
  copyMap size (.par .weights idx) (.out road) id

end Verif.Layers

import Verif.Onnx.Create

/-!
# Keras models

What `importers/H5_importer/parser_h5.py` reads of a Keras model: for each layer its class, its name, the names of the layers that produce
its inputs, the attributes `input_shape` and `output_shape` (without the batch dimension, which is `None`) and the class's own attributes.
Layers are called once (`layer.input` raises on shared layers) and have `data_format="channels_last"`: the importer's test of the format
(`parser_h5.py` 156-161) is a generator expression, which is always true, so `channels_last` is the only format it ever uses.
-/

namespace Verif.Keras
open Net

/-- the functions of `keras.activations` that the importer knows (`parser_h5.py` 119-139), and the others -/
inductive Activation
  | sigmoid | relu | tanh | linear | leakyRelu | softmax | swish | other
  deriving DecidableEq, Repr

/-- `padding` of Conv2D and of pooling layers -/
inductive Padding
  | valid | same
  deriving DecidableEq, Repr

/-- `padding` of ZeroPadding2D: an integer, a pair, or a pair of pairs -/
inductive ZeroPad
  | one (p : Nat)
  | two (h w : Nat)
  | four (top bottom left right : Nat)

/-- class and attributes of a layer; `weights` is `get_weights()` -/
inductive Kind
  | inputLayer
  | dense (weights : List (Nd ℝ)) (activation : Activation)
  | conv2D (weights : List (Nd ℝ)) (filters : Nat) (kernel strides dilation : Nat × Nat) (padding : Padding) (groups : Nat)
      (activation : Activation)
  | maxPooling2D (pool strides : Nat × Nat) (padding : Padding)
  | averagePooling2D (pool strides : Nat × Nat) (padding : Padding)
  | flatten | add | multiply | subtract | maximum | minimum | average
  | concatenate (axis : Int)
  | zeroPadding2D (padding : ZeroPad)
  /-- `axis` and `epsilon`; `scale` and `center` say whether the first two weights exist -/
  | batchNormalization (axis : Int) (epsilon : ℝ) (scale center : Bool) (weights : List (Nd ℝ))
  | reshape (target : List Nat) | dropout
  /-- any other class -/
  | other

structure Layer where
  name : String
  kind : Kind
  /-- names of the layers whose outputs are the inputs of this one -/
  inputs : List String
  inShapes : List (List Nat)
  outShape : List Nat

/-- A model with one input and one output: the output of the layer named `output`. -/
structure Model where
  sequential : Bool
  layers : List Layer
  inputShape : List Nat
  output : String

/-- the attribute `activation` -/
def Kind.activation? : Kind → Option Activation
  | .dense _ a | .conv2D _ _ _ _ _ _ _ a => some a
  | _ => none

def Kind.isInput : Kind → Bool
  | .inputLayer => true
  | _ => false

/-- the classes for which the importer makes no layer (`parser_h5.py` 444-445) -/
def Kind.skipped : Kind → Bool
  | .reshape _ | .dropout => true
  | _ => false

/-- the importer adds a Softmax layer after this one (`parser_h5.py` 210-214) -/
def Kind.softmaxed (k : Kind) : Bool := k.activation? = some .softmax

end Verif.Keras

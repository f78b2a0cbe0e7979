/-
Model of the NNET importer: `importers/NNET_importer/parser_NNET.py`, and of the execution (reference
and generated code) of the networks it builds.

Simplifications: `int(text)` is modelled for unsigned decimal texts only (other texts are refused);
`float(text)` is a parameter; `str.strip` removes ASCII blanks; weights are kept as a function of
the two indices instead of a 4-dimensional array whose two first dimensions are 1.
-/
import Verif.Gen.Normalize
import Verif.Graph.Exec
import Verif.Layers.Linear
import Verif.Layers.Layout

namespace Verif.Gen

variable {α : Type}

abbrev Line := List Char

/-- Blanks removed by `str.strip`. -/
def isBlank (c : Char) : Bool := c == ' ' || c == '\t' || c == '\n' || c == '\r'

/-- `str.strip()` -/
def strip (s : Line) : Line := ((s.dropWhile isBlank).reverse.dropWhile isBlank).reverse

/-- `str.split(",")` -/
def splitComma : Line → List Line
  | [] => [[]]
  | c :: cs =>
    match splitComma cs with
    | [] => [[c]]
    | h :: t => if c = ',' then [] :: h :: t else (c :: h) :: t

/-- `line.strip().split(",")[:-1]` -/
def fields (l : Line) : List Line := (splitComma (strip l)).dropLast

/-- `int(text)` for unsigned decimal texts. -/
def parseNat (s : Line) : Option Nat :=
  if s ≠ [] ∧ s.all Char.isDigit then some (Nat.ofDigitChars 10 s 0) else none

/-- `f.readline()`: the empty text at the end of the file. -/
def readline : List Line → Line × List Line
  | [] => ([], [])
  | l :: ls => (l, ls)

/-- The loop `while line[0:2] == "//": line = f.readline()` (parser_NNET.py 107-108): the first other
line and what follows. -/
def skipHeader : List Line → Line × List Line
  | [] => ([], [])
  | l :: ls => if l.take 2 = ['/', '/'] then skipHeader ls else (l, ls)

/-- One line of weights (parser_NNET.py 143-147): the first `prev` numbers of the line; `none` is an
`IndexError` or a `ValueError`. -/
def readRow (pf : Line → Option α) (prev : Nat) (l : Line) : Option (List α) :=
  match (fields l).mapM pf with
  | none => none
  | some aux => if prev ≤ aux.length then some (aux.take prev) else none

/-- The loop over the lines of weights of one layer (parser_NNET.py 142-147). -/
def readRows (pf : Line → Option α) (prev : Nat) : Nat → List Line → Option (List (List α) × List Line)
  | 0, ls => some ([], ls)
  | k + 1, ls =>
    match readRow pf prev (readline ls).1 with
    | none => none
    | some row =>
      match readRows pf prev k (readline ls).2 with
      | none => none
      | some (rows, rest) => some (row :: rows, rest)

/-- The loop over the lines of biases of one layer (parser_NNET.py 150-153): the first field. -/
def readBiases (pf : Line → Option α) : Nat → List Line → Option (List α × List Line)
  | 0, ls => some ([], ls)
  | k + 1, ls =>
    match (splitComma (strip (readline ls).1)).head? with
    | none => none
    | some t =>
      match pf t with
      | none => none
      | some b =>
        match readBiases pf k (readline ls).2 with
        | none => none
        | some (bs, rest) => some (b :: bs, rest)

/-- The loop over the layers (parser_NNET.py 135-153), from layer number `i` on, `k` layers to go. -/
def readLayers (pf : Line → Option α) (sizes : List Nat) :
    Nat → Nat → List Line → Option (List (List (List α) × List α))
  | 0, _, _ => some []
  | k + 1, i, ls =>
    match sizes[i]?, sizes[i + 1]? with
    | some prev, some cur =>
      match readRows pf prev cur ls with
      | none => none
      | some (rows, ls1) =>
        match readBiases pf cur ls1 with
        | none => none
        | some (bs, ls2) =>
          match readLayers pf sizes k (i + 1) ls2 with
          | none => none
          | some rest => some ((rows, bs) :: rest)
    | _, _ => none

/-- Parameters of a dense layer: weights as `weights[0][0][j][i]` (input `j`, output `i`), biases, and
whether the activation is `ReLu` (else `Linear`). -/
structure DenseP (α : Type) where
  w : Nat → Nat → α
  b : Nat → α
  relu : Bool

/-- A layer built by `generate_layers`: the input layer (`dense = none`) or a dense layer. -/
structure NLayer (α : Type) where
  idx : Nat
  size : Nat
  path : Nat
  prev : List Nat
  next : List Nat
  dense : Option (DenseP α)

/-- `layer.previous_layer.append(layers[-1]); layers[-1].next_layer.append(layer);
layers.append(layer)` (parser_NNET.py 71-74). -/
def addLayer (layers : List (NLayer α)) (l : NLayer α) : List (NLayer α) :=
  match layers.getLast? with
  | none => [l]
  | some p => layers.dropLast ++ [{ p with next := p.next ++ [l.idx] },
      { l with prev := l.prev ++ [p.idx] }]

/-- `np.transpose(np.array(weight))` (parser_NNET.py 158): the file has one line per output. -/
def transposed [Zero α] (rows : List (List α)) : Nat → Nat → α :=
  fun j i => (rows.getD i []).getD j 0

/-- The loop of `generate_layers` (parser_NNET.py 56-74), its first `k` iterations. -/
def genLoop [Zero α] (params : List (List (List α) × List α)) (sizes : List Nat) :
    Nat → Option (List (NLayer α))
  | 0 => match sizes[0]? with
    | none => none
    | some s => some [⟨0, s, 0, [], [], none⟩]
  | k + 1 =>
    match genLoop params sizes k with
    | none => none
    | some layers =>
      match params[k]?, sizes[k + 1]? with
      | some (rows, bs), some s =>
        -- Dense.__init__ checks the size against the shapes of weights and biases
        if rows.length = s ∧ bs.length = s then
          some (addLayer layers ⟨k + 1, s, 0, [], [], some ⟨transposed rows, fun i => bs.getD i 0, true⟩⟩)
        else none
      | _, _ => none

/-- `layers[-1].activation_function = Linear()` (parser_NNET.py 76). -/
def linearLast (layers : List (NLayer α)) : List (NLayer α) :=
  match layers.getLast? with
  | none => layers
  | some l => layers.dropLast ++ [{ l with dense := l.dense.map fun d => { d with relu := false } }]

/-- `generate_layers` (parser_NNET.py 33-78). -/
def generateLayers [Zero α] (numLayers : Nat) (params : List (List (List α) × List α))
    (sizes : List Nat) : Option (List (NLayer α)) :=
  (genLoop params sizes numLayers).map linearLast

/-- What `load_nnet` returns (parser_NNET.py 161-179): the layers and the data of the normalizer. -/
structure Nnet (α : Type) where
  layers : List (NLayer α)
  normalizer : Normalizer α

/-- `load_nnet` (parser_NNET.py 81-179). -/
def loadNnet [Zero α] (pf : Line → Option α) (file : List Line) : Option (Nnet α) :=
  let (l0, ls) := skipHeader file
  match (fields l0).mapM parseNat with
  | some [numLayers, _, _, _] =>
    let (l1, ls) := readline ls
    match (fields l1).mapM parseNat with
    | none => none
    | some sizes =>
      let (_, ls) := readline ls
      let (l2, ls) := readline ls
      let (l3, ls) := readline ls
      let (l4, ls) := readline ls
      let (l5, ls) := readline ls
      match (fields l2).mapM pf, (fields l3).mapM pf, (fields l4).mapM pf, (fields l5).mapM pf with
      | some mins, some maxes, some means, some ranges =>
        match readLayers pf sizes numLayers 0 ls with
        | none => none
        | some params =>
          match generateLayers numLayers params sizes, sizes.head?, sizes.getLast? with
          | some layers, some s0, some sl => some ⟨layers, ⟨s0, sl, mins, maxes, means, ranges⟩⟩
          | _, _, _ => none
      | _, _, _, _ => none
  | _ => none

/-! ### Running the loaded network -/

/-- The layer with a given index. -/
def Nnet.layer (net : Nnet α) (n : Nat) : Option (NLayer α) := net.layers.find? fun l => l.idx == n

/-- `previous_layer`, as indices. -/
def Nnet.prevOf (net : Nnet α) (n : Nat) : List Nat := ((net.layer n).map NLayer.prev).getD []

/-- `next_layer`, as indices. -/
def Nnet.nextOf (net : Nnet α) (n : Nat) : List Nat := ((net.layer n).map NLayer.next).getD []

/-- `layer.size` -/
def Nnet.sizeOf (net : Nnet α) (n : Nat) : Nat := ((net.layer n).map NLayer.size).getD 0

/-- `ReLu.compute` / `Linear.compute` (`generator/activation_functions.py` 125-127, 205-207). -/
def actPy [Zero α] [LinearOrder α] (relu : Bool) (v : α) : α := if relu then max 0 v else v

/-- The C expressions of `ReLu` / `Linear`: `v > 0 ? v : 0` and `v`
(`generator/activation_functions.py` 129-132, 209-211). -/
def actC [Zero α] [LinearOrder α] (relu : Bool) (v : α) : α :=
  if relu then (if 0 < v then v else 0) else v

/-- `forward_path_layer` of the layers of the network (`layers/input/Input.py` 86-91: the input itself;
`layers/dense/Dense.py` 91-99). -/
def Nnet.forward [AddCommMonoid α] [Mul α] [LinearOrder α] (net : Nnet α) (n : Nat)
    (ins : List (List α)) : List α :=
  let x := ins.getD 0 []
  match net.layer n with
  | none => x
  | some l =>
    match l.dense with
    | none => x
    | some d => tensor l.size (Layers.denseForward (net.sizeOf (l.prev.getD 0 0)) (actPy d.relu) d.w d.b
        fun j => x.getD j 0)

/-- `generate_inference_code_layer` of the layers of the network (`InputDefault.py` 37-66 for a
one-dimensional input, `DenseDefault.py` 39-64). -/
def Nnet.code [Zero α] [Add α] [Mul α] [LinearOrder α] (net : Nnet α) (n : Nat) (srcs : List Buf)
    (_dst : Buf) : Prog α Unit :=
  match net.layer n with
  | none => Prog.ret ()
  | some l =>
    match l.dense with
    | none => Layers.inputCode .first .first false 0 0 0 l.size l.path
    | some d => Layers.denseCode l.size (net.sizeOf (l.prev.getD 0 0)) l.idx (actC d.relu)
        (srcs.getD 0 .temp) l.path

/-- The plan of the network: layers in file order, everything in `output_0`, no saved copies
(parser_NNET.py 60-72 and 98-99: `path = 0`, `max_road = 1`, `dict_cst = {}`). -/
def Nnet.plan (net : Nnet α) : Graph.Plan :=
  { order := net.layers.map NLayer.idx
    path := fun n => ((net.layer n).map NLayer.path).getD 0
    maxPath := 1
    cst := fun _ => none }

/-- The generated `inference` function of a normalised network (`templates/template_source_file.c.tpl`
87, 88-125 and 139; `generator/neural_network.py` 952-954): pre-processing, layers, post-processing. -/
def Nnet.normalisedInference [Zero α] [Add α] [Mul α] [Sub α] [Div α] [LinearOrder α] (net : Nnet α)
    (K : NormConsts α) : Prog α Unit :=
  Prog.andThen (preCode net.normalizer.inputSize K) fun _ =>
  Prog.andThen (Graph.inference net.plan net.prevOf net.sizeOf net.code) fun _ =>
  postCode net.normalizer.outputSize K

end Verif.Gen

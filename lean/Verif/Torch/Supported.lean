import Verif.Torch.Load
import Verif.Torch.Spec

/-!
# The exported programs to which the import theorem applies

Conditions on the program alone: its nodes, the shapes PyTorch declares for them, the dimensions of its parameters.
-/

namespace Verif.Torch
open Net
open scoped Classical

/-- the node is the input of the program or a call -/
def Node.isValue (n : Node) : Prop :=
  match n.kind with
  | .placeholder _ | .call _ _ _ => True
  | _ => False

/-- the node is a parameter -/
def Node.isParam (n : Node) : Prop := ∃ v, n.kind = .getAttr v

/-- the names a call reads -/
def Node.callReads (n : Node) : List String :=
  match n.kind with
  | .call _ args _ => args.flatMap Arg.names
  | _ => []

/-- a call whose layer can take over an activation function -/
def Node.fuses (n : Node) : Prop :=
  ∃ t args kw, n.kind = .call t args kw ∧ (branch t = .linear ∨ branch t = .conv2d ∨ branch t = .batchNorm ∨ branch t = .add ∨ branch t = .cat)

/-- a convolution -/
def Node.isConv (n : Node) : Prop := ∃ t args kw, n.kind = .call t args kw ∧ branch t = .conv2d

/-- a dropout or flatten -/
def Node.isAlias (n : Node) : Prop := ∃ t args kw, n.kind = .call t args kw ∧ branch t = .alias

/-- `s` is an activation's or normalisation's operand -/
def Node.absorbs (n : Node) (s : String) : Prop :=
  ∃ t args kw, n.kind = .call t (.node s :: args) kw ∧ (branch t = .relu ∨ branch t = .clamp ∨ branch t = .batchNorm)

/-- `s` is the input of the program or the result of a call, with the declared shape `d` -/
def Program.Tensor (p : Program) (s : String) (d : List Nat) : Prop := ∃ m ∈ p.nodes, m.name = s ∧ m.isValue ∧ m.shape = d

/-- `s` is a parameter with the value `v` -/
def Program.Param (p : Program) (s : String) (v : Nd ℝ) : Prop := ∃ m ∈ p.nodes, m.name = s ∧ m.kind = .getAttr v

/-- `s` is the result of a call that satisfies `P`, and `n` is the only call that reads it -/
def Program.Only (p : Program) (n : Node) (s : String) (P : Node → Prop) : Prop :=
  (∃ m ∈ p.nodes, m.name = s ∧ P m) ∧ ∀ m ∈ p.nodes, s ∈ m.callReads → m.name = n.name

/-- an optional tensor -/
def biasArg : Option String → Arg
  | some b => .node b
  | none => .absent

/-- the calls to which the theorem applies -/
inductive Supported (p : Program) (n : Node) : Prop
  | linear (s w b : String) (vw vb : Nd ℝ) (i : Nat) : n.kind = .call "linear.default" [.node s, .node w, .node b] [] → p.Tensor s [1, i] → p.Param w vw →
      p.Param b vb → Supported p n
  | relu (s t : String) : t = "relu.default" ∨ t = "relu_.default" → n.kind = .call t [.node s] [] → p.Only n s Node.fuses → Supported p n
  | clamp (s : String) (lo hi : Arg) (a b : ℝ) : n.kind = .call "clamp.default" [.node s, lo, hi] [] → lo.number? = some a → hi.number? = some b → a ≤ b →
      p.Only n s Node.fuses → Supported p n
  /-- one image, a square kernel, the same stride for both axes, no dilation, no groups -/
  | conv2d (s w : String) (bias : Option String) (d : List Nat) (vw : Nd ℝ) (f c k st : Nat) (rest : List Arg) :
      n.kind = .call "conv2d.default" (.node s :: .node w :: biasArg bias :: rest) [] →
      p.Tensor s d → d.head? = some 1 → p.Param w vw → vw.dims = [f, c, k, k] → (∀ b, bias = some b → ∃ vb, p.Param b vb) →
      (rest[0]? = some (.ints [st, st]) ∨ rest[0]? = none ∧ st = 1) →
      ((∃ q r, rest[1]? = some (.ints [q, r])) ∨ rest[1]? = none) →
      (rest[2]? = some (.ints [1, 1]) ∨ rest[2]? = none) → (rest[3]? = some (.int 1) ∨ rest[3]? = none) → rest.length ≤ 4 → Supported p n
  /-- after a convolution -/
  | batchNorm (s w b rm rv : String) (vw vb vm vv : Nd ℝ) (mom eps : ℝ) (cudnn : Bool) :
      n.kind = .call "batch_norm.default" [.node s, .node w, .node b, .node rm, .node rv, .bool false, .num mom, .num eps, .bool cudnn] [] →
      p.Param w vw → p.Param b vb → p.Param rm vm → p.Param rv vv → p.Only n s Node.isConv → Supported p n
  /-- images; the second one has the shape of the first one or is broadcast to it -/
  | add (a b : String) (da db : List Nat) : n.kind = .call "add.Tensor" [.node a, .node b] [] → p.Tensor a da → p.Tensor b db → da.head? = some 1 →
      db.head? = some 1 → da.length = 4 → db.length = 4 → n.shape = da → Supported p n
  /-- images; the axis is not the first one and counted from the start -/
  | cat (l : List String) (axis : Int) : n.kind = .call "cat.default" [.nodes l, .int axis] [] → 2 ≤ l.length → 1 ≤ axis →
      (∀ s ∈ l, ∃ d, p.Tensor s d ∧ d.head? = some 1 ∧ d.length = 4) → Supported p n
  | dropout (s : String) (d : List Nat) (r : ℝ) : n.kind = .call "dropout.default" [.node s, .num r, .bool false] [] → p.Tensor s d → Supported p n
  | flatten (s : String) (d : List Nat) (axes : List Int) : n.kind = .call "flatten.using_ints" (.node s :: axes.map .int) [] → p.Tensor s d → axes.length ≤ 2 →
      Supported p n
  /-- a square window, the stride is given and the same for both axes -/
  | maxPool (s : String) (d : List Nat) (k st : Nat) : n.kind = .call "max_pool2d.default" [.node s, .ints [k, k], .ints [st, st]] [] → p.Tensor s d →
      d.head? = some 1 → Supported p n
  /-- of square images, to one pixel -/
  | avgPool (s : String) (d : List Nat) : n.kind = .call "adaptive_avg_pool2d.default" [.node s, .ints [1, 1]] [] → p.Tensor s d → d.head? = some 1 →
      d.getD 2 0 = d.getD 3 0 → Supported p n

/-- The program has one input, a batch of one, in the default memory format; every tensor but the output `out` is read by a call, the output is read by none. -/
structure Valid (p : Program) (out : String) : Prop where
  names : (p.nodes.map Node.name).Nodup
  input : ∃ pre n post, p.nodes = pre ++ n :: post ∧ (∀ m ∈ pre, m.isParam) ∧ n.kind = .placeholder false ∧ n.shape.head? = some 1 ∧
    ∀ m ∈ post, ∀ l, m.kind ≠ .placeholder l
  supported : ∀ n ∈ p.nodes, ∀ t args kw, n.kind = .call t args kw → Supported p n
  shapes : ∀ n ∈ p.nodes, n.isValue → n.shape.length ≤ 4 ∧ ∀ d ∈ n.shape, 0 < d
  returned : Spec.outputName p = some out
  made : ∃ n ∈ p.nodes, n.isValue ∧ n.name = out
  unread : ∀ n ∈ p.nodes, out ∉ n.callReads
  live : ∀ n ∈ p.nodes, n.isValue → n.name ≠ out → ∃ m ∈ p.nodes, n.name ∈ m.callReads

/-- the declared shapes are those of the values -/
def Fits (p : Program) (E : Spec.Env) : Prop := ∀ n ∈ p.nodes, n.isValue → ∀ t, E n.name = some t → t.dims = n.shape

/-- no sum or concatenation reads a tensor twice or reads the result of a dropout or flatten -/
def Program.Plain (p : Program) : Prop :=
  ∀ n ∈ p.nodes, ∀ t args kw, n.kind = .call t args kw → branch t = .add ∨ branch t = .cat →
    (args.flatMap Arg.names).Nodup ∧ ∀ s ∈ args.flatMap Arg.names, ∀ m ∈ p.nodes, m.name = s → ¬ m.isAlias

end Verif.Torch

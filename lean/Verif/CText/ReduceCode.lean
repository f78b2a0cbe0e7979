import Verif.CText.Std
import Verif.Layers.Reduce

/-!
# The text of the reductions: hashes and programs
-/

namespace Verif.CText
open Prog Layers
set_option linter.unusedVariables false
variable {K : Type} [Field K] [LinearOrder K] [FloorRing K]

/-- a reduction's name (`ReduceSum`, ..) -/
def redName : RFunc → List Char
  | .sum => chars! "ReduceSum" | .prod => chars! "ReduceProd" | .mean => chars! "ReduceMean" | .max => chars! "ReduceMax" | .min => chars! "ReduceMin"

/-- `Max`, `Min`, `Other`, `Mean`, `func` (`Reduce.py` 156-173) -/
def redKind (fn : RFunc) : Hash K :=
  match fn with
  | .max => [(chars! "Max", .bool true)]
  | .min => [(chars! "Min", .bool true)]
  | .sum => [(chars! "Other", .bool true), (chars! "func", .toks [.punct .plus])]
  | .mean => [(chars! "Other", .bool true), (chars! "Mean", .bool true), (chars! "func", .toks [.punct .plus])]
  | .prod => [(chars! "Other", .bool true), (chars! "func", .toks [.punct .star])]

/-- `starting_value` (`Reduce.py` 168-173, 186-187, ..): for `Max` and `Min` the text `f"ctx->{output_str}[{at}]"` -/
def redStarting (fn : RFunc) (src : Ref) (pos : List (CTok K)) : HVal K :=
  match fn with
  | .sum | .mean => .toks [.num 0]
  | .prod => .toks [.num 1]
  | .max | .min => .toks (rendered (chars! "ctx->{{output_str}}[{{at}}]") [(chars! "output_str", src.text), (chars! "at", .toks pos)])

/-- the tokens of the text `t` with the numbers `ns` for `{{0}}`, `{{1}}` -/
def posText (t : List Char) (w h : Nat) : List (CTok K) := rendered t [(chars! "w", .num w), (chars! "h", .num h)]

/-- what `Reduce.generate_inference_code_layer` (`Reduce.py` 135-259) passes to the template -/
def reduceHash (fn : RFunc) (c : RedP) (size idx : Nat) (act : CAct K) (src : Ref) (road : Nat) : Hash K :=
  redKind fn ++
  [(chars! "name", .word (redName fn)), (chars! "idx", .num2 idx), (chars! "output_str", src.text), (chars! "road", .num road)] ++
  match decide (1 ∈ c.axes), decide (2 ∈ c.axes), decide (3 ∈ c.axes) with
  | false, false, false =>
    if c.noop then
      [(chars! "none", .bool true), (chars! "size", .num size),
       (chars! "activation_function", act.text [.id (.ctx, none), .punct .arrow, .id (.output, some ⟨false, road⟩), .punct .lbrk, .id (.k, none), .punct .rbrk])]
    else
      [(chars! "all", .bool true), (chars! "size", .num (c.C * c.H * c.W)), (chars! "activation_function", act.text [.id (.reduced, none)]),
       (chars! "starting_value", redStarting fn src [.num 0])]
  | true, true, true =>
    [(chars! "all", .bool true), (chars! "size", .num (c.C * c.H * c.W)), (chars! "activation_function", act.text [.id (.reduced, none)]),
     (chars! "starting_value", redStarting fn src [.num 0])]
  | true, false, false =>
    [(chars! "one", .bool true), (chars! "size", .num size),
     (chars! "activation_function", act.text [.id (.ctx, none), .punct .arrow, .id (.tensor_temp, none), .punct .lbrk, .id (.k, none), .punct .rbrk]),
     (chars! "output_dimension_1", .num c.oH), (chars! "output_dimension_2", .num c.oW), (chars! "reduced_dimension", .num c.C),
     (chars! "position_1", .toks (posText (chars! "i + {{w}}*f") c.oW 0)),
     (chars! "position_2", .toks (posText (chars! "i + {{w}}*(f + {{h}}*j)") c.W c.H)),
     (chars! "starting_value", redStarting fn src (posText (chars! "i + {{w}}*f") c.W 0))]
  | false, true, false =>
    [(chars! "one", .bool true), (chars! "size", .num size),
     (chars! "activation_function", act.text [.id (.ctx, none), .punct .arrow, .id (.tensor_temp, none), .punct .lbrk, .id (.k, none), .punct .rbrk]),
     (chars! "output_dimension_1", .num c.oC), (chars! "output_dimension_2", .num c.oW), (chars! "reduced_dimension", .num c.H),
     (chars! "position_1", .toks (posText (chars! "i + {{w}}*f") c.oW 0)),
     (chars! "position_2", .toks (posText (chars! "i + {{w}}*(j + {{h}}*f)") c.W c.H)),
     (chars! "starting_value", redStarting fn src (posText (chars! "i + {{w}}*f") (c.W * c.H) 0))]
  | false, false, true =>
    [(chars! "one", .bool true), (chars! "size", .num size),
     (chars! "activation_function", act.text [.id (.ctx, none), .punct .arrow, .id (.tensor_temp, none), .punct .lbrk, .id (.k, none), .punct .rbrk]),
     (chars! "output_dimension_1", .num c.oC), (chars! "output_dimension_2", .num c.oH), (chars! "reduced_dimension", .num c.W),
     (chars! "position_1", .toks (posText (chars! "i + {{w}}*f") c.oH 0)),
     (chars! "position_2", .toks (posText (chars! "j + {{w}}*(i + {{h}}*f)") c.W c.H)),
     (chars! "starting_value", redStarting fn src (posText (chars! "{{w}}*(i + {{h}}*f)") c.W c.H))]
  | true, true, false =>
    [(chars! "two", .bool true), (chars! "size", .num size),
     (chars! "activation_function", act.text [.id (.ctx, none), .punct .arrow, .id (.tensor_temp, none), .punct .lbrk, .id (.k, none), .punct .rbrk]),
     (chars! "output_dimension", .num c.oW), (chars! "reduced_dimension_1", .num c.C), (chars! "reduced_dimension_2", .num c.H),
     (chars! "position", .toks (posText (chars! "f + {{w}}*(j + {{h}}*i)") c.W c.H)),
     (chars! "starting_value", redStarting fn src (posText (chars! "{{w}}*f") c.W 0)), (chars! "nb_elements", .num (c.C * c.H))]
  | true, false, true =>
    [(chars! "two", .bool true), (chars! "size", .num size),
     (chars! "activation_function", act.text [.id (.ctx, none), .punct .arrow, .id (.tensor_temp, none), .punct .lbrk, .id (.k, none), .punct .rbrk]),
     (chars! "output_dimension", .num c.oH), (chars! "reduced_dimension_1", .num c.C), (chars! "reduced_dimension_2", .num c.W),
     (chars! "position", .toks (posText (chars! "j + {{w}}*(f + {{h}}*i)") c.W c.H)),
     (chars! "starting_value", redStarting fn src (posText (chars! "{{w}}*f") c.H 0)), (chars! "nb_elements", .num (c.C * c.W))]
  | false, true, true =>
    [(chars! "two", .bool true), (chars! "size", .num size),
     (chars! "activation_function", act.text [.id (.ctx, none), .punct .arrow, .id (.tensor_temp, none), .punct .lbrk, .id (.k, none), .punct .rbrk]),
     (chars! "output_dimension", .num c.oC), (chars! "reduced_dimension_1", .num c.H), (chars! "reduced_dimension_2", .num c.W),
     (chars! "position", .toks (posText (chars! "j + {{w}}*(i + {{h}}*f)") c.W c.H)),
     (chars! "starting_value", redStarting fn src (posText (chars! "{{w}}*f") c.C 0)), (chars! "nb_elements", .num (c.H * c.W))]

/-! the programs that the texts are -/

/-- `starting_value` as an expression -/
def redStartE (fn : RFunc) (src : Ref) (pos : Expr K) : Expr K :=
  match fn with
  | .sum | .mean => .num 0
  | .prod => .num 1
  | .max | .min => .idx true src.ident pos

/-- the update of the accumulator `l` (read as `a`) with `x`; `y` is compared -/
def redStepS (fn : RFunc) (l : LVal K) (a y x : Expr K) : Stmt K :=
  match fn with
  | .max => .ite (.bin .gt y a) (.block (.assign l .set x)) .skip
  | .min => .ite (.bin .lt y a) (.block (.assign l .set x)) .skip
  | .sum | .mean => .assign l .add x
  | .prod => .assign l .mul x

/-- the statement of `{{#Mean}}` after `s` -/
def redMeanS (fn : RFunc) (s : Stmt K) (l : LVal K) (a : Expr K) (n : Nat) : Stmt K :=
  match fn with
  | .mean => .seq s (.assign l .set (.bin .div a (.num n)))
  | _ => s

def redAllAst (fn : RFunc) (n : Nat) (act : CAct K) (src : Ref) (road : Nat) : Stmt K :=
  let r : Ident := (.reduced, none)
  let loopS : Stmt K := loop (.k, none) n (.block (redStepS fn (.var r) (.var r) (.idx true src.ident (.var (.k, none))) (.idx true src.ident (.var (.k, none)))))
  let store : Stmt K := .assign (.idx true (.output, some ⟨false, road⟩) (.num 0)) .set (act.expr (.var r))
  .seq (.assign (.var r) .set (redStartE fn src (.num 0)))
    (match fn with
    | .mean => .seq loopS (.seq (.assign (.var r) .set (.bin .div (.var r) (.num n))) store)
    | _ => .seq loopS store)

def redCloseS (size : Nat) (act : CAct K) (src : Ident) (road : Nat) : Stmt K :=
  loop (.k, none) size (.block (.assign (.idx true (.output, some ⟨false, road⟩) (.var (.k, none))) .set (act.expr (.idx true src (.var (.k, none))))))

def redOneAst (fn : RFunc) (d1 d2 red : Nat) (start pos2 : Expr K) (size : Nat) (act : CAct K) (src : Ref) (road : Nat) : Stmt K :=
  let p1 : Expr K := .bin .add (.var (.i, none)) (.bin .mul (.num d2) (.var (.f, none)))
  let cell : LVal K := .idx true (.tensor_temp, none) p1
  let a : Expr K := .idx true (.tensor_temp, none) p1
  .seq (loop (.f, none) d1 (.block (loop (.i, none) d2 (.block
    (.seq (.assign cell .set (redStartE fn src start))
      (redMeanS fn (loop (.j, none) red (.block (redStepS fn cell a (.idx true src.ident pos2) (.idx true src.ident pos2)))) cell a red))))))
    (redCloseS size act (.tensor_temp, none) road)

def redTwoAst (fn : RFunc) (d red1 red2 : Nat) (start pos : Expr K) (size : Nat) (act : CAct K) (src : Ref) (road : Nat) : Stmt K :=
  let cell : LVal K := .idx true (.tensor_temp, none) (.var (.f, none))
  let a : Expr K := .idx true (.tensor_temp, none) (.var (.f, none))
  .seq (loop (.f, none) d (.block
    (.seq (.assign cell .set (redStartE fn src start))
      (redMeanS fn (loop (.i, none) red1 (.block (loop (.j, none) red2 (.block
        (redStepS fn cell a (.idx true (.output, some ⟨false, road⟩) pos) (.idx true src.ident pos)))))) cell a (red1 * red2)))))
    (redCloseS size act (.tensor_temp, none) road)

/-- `a + w*(b + h*c)` -/
def posE (a b c : Ident) (w h : Nat) : Expr K :=
  .bin .add (.var a) (.bin .mul (.num w) (.bin .add (.var b) (.bin .mul (.num h) (.var c))))

def reduceAst (fn : RFunc) (c : RedP) (size : Nat) (act : CAct K) (src : Ref) (road : Nat) : Stmt K :=
  let f : Ident := (.f, none)
  let i : Ident := (.i, none)
  let j : Ident := (.j, none)
  match decide (1 ∈ c.axes), decide (2 ∈ c.axes), decide (3 ∈ c.axes) with
  | false, false, false =>
    if c.noop then redCloseS size act (.output, some ⟨false, road⟩) road else redAllAst fn (c.C * c.H * c.W) act src road
  | true, true, true => redAllAst fn (c.C * c.H * c.W) act src road
  | true, false, false => redOneAst fn c.oH c.oW c.C (.bin .add (.var i) (.bin .mul (.num c.W) (.var f))) (posE i f j c.W c.H) size act src road
  | false, true, false => redOneAst fn c.oC c.oW c.H (.bin .add (.var i) (.bin .mul (.num (c.W * c.H)) (.var f))) (posE i j f c.W c.H) size act src road
  | false, false, true => redOneAst fn c.oC c.oH c.W (.bin .mul (.num c.W) (.bin .add (.var i) (.bin .mul (.num c.H) (.var f)))) (posE j i f c.W c.H) size act src road
  | true, true, false => redTwoAst fn c.oW c.C c.H (.bin .mul (.num c.W) (.var f)) (posE f j i c.W c.H) size act src road
  | true, false, true => redTwoAst fn c.oH c.C c.W (.bin .mul (.num c.H) (.var f)) (posE j f i c.W c.H) size act src road
  | false, true, true => redTwoAst fn c.oC c.H c.W (.bin .mul (.num c.C) (.var f)) (posE j i f c.W c.H) size act src road

omit [LinearOrder K] [FloorRing K] in
theorem reduce_code_fff_all (fn : RFunc) (c : RedP) (size idx : Nat) (act : CAct K) (src : Ref) (road : Nat)
    (h1 : decide (1 ∈ c.axes) = false) (h2 : decide (2 ∈ c.axes) = false) (h3 : decide (3 ∈ c.axes) = false) (hn : c.noop = false) :
    code Tpl.reduce (reduceHash fn c size idx act src road) = some (reduceAst fn c size act src road) := by
  obtain ⟨x, n, ht, hi⟩ := src.any K
  unfold reduceHash reduceAst redOneAst redTwoAst redAllAst redStarting redStartE redMeanS
  rw [ht, hi]
  clear ht hi
  rw [h1, h2, h3]
  clear h1 h2 h3
  simp only [hn]
  clear hn
  obtain ⟨C, H, W, axes, noop⟩ := c
  dsimp only
  rcases act with _ | _ | _ | ⟨_ | _, _⟩ | _ | _ | _ | _ | ⟨⟨_ | _, _⟩, ⟨_ | _, _⟩⟩ <;> cases fn <;> kernel_rfl

omit [LinearOrder K] [FloorRing K] in
theorem reduce_code_fff_noop (fn : RFunc) (c : RedP) (size idx : Nat) (act : CAct K) (src : Ref) (road : Nat)
    (h1 : decide (1 ∈ c.axes) = false) (h2 : decide (2 ∈ c.axes) = false) (h3 : decide (3 ∈ c.axes) = false) (hn : c.noop = true) :
    code Tpl.reduce (reduceHash fn c size idx act src road) = some (reduceAst fn c size act src road) := by
  obtain ⟨x, n, ht, hi⟩ := src.any K
  unfold reduceHash reduceAst redOneAst redTwoAst redAllAst redStarting redStartE redMeanS
  rw [ht, hi]
  clear ht hi
  rw [h1, h2, h3]
  clear h1 h2 h3
  simp only [hn]
  clear hn
  obtain ⟨C, H, W, axes, noop⟩ := c
  dsimp only
  rcases act with _ | _ | _ | ⟨_ | _, _⟩ | _ | _ | _ | _ | ⟨⟨_ | _, _⟩, ⟨_ | _, _⟩⟩ <;> cases fn <;> kernel_rfl

omit [LinearOrder K] [FloorRing K] in
theorem reduce_code_fft (fn : RFunc) (c : RedP) (size idx : Nat) (act : CAct K) (src : Ref) (road : Nat)
    (h1 : decide (1 ∈ c.axes) = false) (h2 : decide (2 ∈ c.axes) = false) (h3 : decide (3 ∈ c.axes) = true) :
    code Tpl.reduce (reduceHash fn c size idx act src road) = some (reduceAst fn c size act src road) := by
  obtain ⟨x, n, ht, hi⟩ := src.any K
  unfold reduceHash reduceAst redOneAst redTwoAst redAllAst redStarting redStartE redMeanS
  rw [ht, hi]
  clear ht hi
  rw [h1, h2, h3]
  clear h1 h2 h3
  obtain ⟨C, H, W, axes, noop⟩ := c
  dsimp only
  generalize RedP.oC _ = oC
  generalize RedP.oH _ = oH
  generalize RedP.oW _ = oW
  rcases act with _ | _ | _ | ⟨_ | _, _⟩ | _ | _ | _ | _ | ⟨⟨_ | _, _⟩, ⟨_ | _, _⟩⟩ <;> cases fn <;> kernel_rfl

omit [LinearOrder K] [FloorRing K] in
theorem reduce_code_ftf (fn : RFunc) (c : RedP) (size idx : Nat) (act : CAct K) (src : Ref) (road : Nat)
    (h1 : decide (1 ∈ c.axes) = false) (h2 : decide (2 ∈ c.axes) = true) (h3 : decide (3 ∈ c.axes) = false) :
    code Tpl.reduce (reduceHash fn c size idx act src road) = some (reduceAst fn c size act src road) := by
  obtain ⟨x, n, ht, hi⟩ := src.any K
  unfold reduceHash reduceAst redOneAst redTwoAst redAllAst redStarting redStartE redMeanS
  rw [ht, hi]
  clear ht hi
  rw [h1, h2, h3]
  clear h1 h2 h3
  obtain ⟨C, H, W, axes, noop⟩ := c
  dsimp only
  generalize RedP.oC _ = oC
  generalize RedP.oH _ = oH
  generalize RedP.oW _ = oW
  rcases act with _ | _ | _ | ⟨_ | _, _⟩ | _ | _ | _ | _ | ⟨⟨_ | _, _⟩, ⟨_ | _, _⟩⟩ <;> cases fn <;> kernel_rfl

omit [LinearOrder K] [FloorRing K] in
theorem reduce_code_ftt (fn : RFunc) (c : RedP) (size idx : Nat) (act : CAct K) (src : Ref) (road : Nat)
    (h1 : decide (1 ∈ c.axes) = false) (h2 : decide (2 ∈ c.axes) = true) (h3 : decide (3 ∈ c.axes) = true) :
    code Tpl.reduce (reduceHash fn c size idx act src road) = some (reduceAst fn c size act src road) := by
  obtain ⟨x, n, ht, hi⟩ := src.any K
  unfold reduceHash reduceAst redOneAst redTwoAst redAllAst redStarting redStartE redMeanS
  rw [ht, hi]
  clear ht hi
  rw [h1, h2, h3]
  clear h1 h2 h3
  obtain ⟨C, H, W, axes, noop⟩ := c
  dsimp only
  generalize RedP.oC _ = oC
  generalize RedP.oH _ = oH
  generalize RedP.oW _ = oW
  rcases act with _ | _ | _ | ⟨_ | _, _⟩ | _ | _ | _ | _ | ⟨⟨_ | _, _⟩, ⟨_ | _, _⟩⟩ <;> cases fn <;> kernel_rfl

omit [LinearOrder K] [FloorRing K] in
theorem reduce_code_tff (fn : RFunc) (c : RedP) (size idx : Nat) (act : CAct K) (src : Ref) (road : Nat)
    (h1 : decide (1 ∈ c.axes) = true) (h2 : decide (2 ∈ c.axes) = false) (h3 : decide (3 ∈ c.axes) = false) :
    code Tpl.reduce (reduceHash fn c size idx act src road) = some (reduceAst fn c size act src road) := by
  obtain ⟨x, n, ht, hi⟩ := src.any K
  unfold reduceHash reduceAst redOneAst redTwoAst redAllAst redStarting redStartE redMeanS
  rw [ht, hi]
  clear ht hi
  rw [h1, h2, h3]
  clear h1 h2 h3
  obtain ⟨C, H, W, axes, noop⟩ := c
  dsimp only
  generalize RedP.oC _ = oC
  generalize RedP.oH _ = oH
  generalize RedP.oW _ = oW
  rcases act with _ | _ | _ | ⟨_ | _, _⟩ | _ | _ | _ | _ | ⟨⟨_ | _, _⟩, ⟨_ | _, _⟩⟩ <;> cases fn <;> kernel_rfl

omit [LinearOrder K] [FloorRing K] in
theorem reduce_code_tft (fn : RFunc) (c : RedP) (size idx : Nat) (act : CAct K) (src : Ref) (road : Nat)
    (h1 : decide (1 ∈ c.axes) = true) (h2 : decide (2 ∈ c.axes) = false) (h3 : decide (3 ∈ c.axes) = true) :
    code Tpl.reduce (reduceHash fn c size idx act src road) = some (reduceAst fn c size act src road) := by
  obtain ⟨x, n, ht, hi⟩ := src.any K
  unfold reduceHash reduceAst redOneAst redTwoAst redAllAst redStarting redStartE redMeanS
  rw [ht, hi]
  clear ht hi
  rw [h1, h2, h3]
  clear h1 h2 h3
  obtain ⟨C, H, W, axes, noop⟩ := c
  dsimp only
  generalize RedP.oC _ = oC
  generalize RedP.oH _ = oH
  generalize RedP.oW _ = oW
  rcases act with _ | _ | _ | ⟨_ | _, _⟩ | _ | _ | _ | _ | ⟨⟨_ | _, _⟩, ⟨_ | _, _⟩⟩ <;> cases fn <;> kernel_rfl

omit [LinearOrder K] [FloorRing K] in
theorem reduce_code_ttf (fn : RFunc) (c : RedP) (size idx : Nat) (act : CAct K) (src : Ref) (road : Nat)
    (h1 : decide (1 ∈ c.axes) = true) (h2 : decide (2 ∈ c.axes) = true) (h3 : decide (3 ∈ c.axes) = false) :
    code Tpl.reduce (reduceHash fn c size idx act src road) = some (reduceAst fn c size act src road) := by
  obtain ⟨x, n, ht, hi⟩ := src.any K
  unfold reduceHash reduceAst redOneAst redTwoAst redAllAst redStarting redStartE redMeanS
  rw [ht, hi]
  clear ht hi
  rw [h1, h2, h3]
  clear h1 h2 h3
  obtain ⟨C, H, W, axes, noop⟩ := c
  dsimp only
  generalize RedP.oC _ = oC
  generalize RedP.oH _ = oH
  generalize RedP.oW _ = oW
  rcases act with _ | _ | _ | ⟨_ | _, _⟩ | _ | _ | _ | _ | ⟨⟨_ | _, _⟩, ⟨_ | _, _⟩⟩ <;> cases fn <;> kernel_rfl

omit [LinearOrder K] [FloorRing K] in
theorem reduce_code_ttt (fn : RFunc) (c : RedP) (size idx : Nat) (act : CAct K) (src : Ref) (road : Nat)
    (h1 : decide (1 ∈ c.axes) = true) (h2 : decide (2 ∈ c.axes) = true) (h3 : decide (3 ∈ c.axes) = true) :
    code Tpl.reduce (reduceHash fn c size idx act src road) = some (reduceAst fn c size act src road) := by
  obtain ⟨x, n, ht, hi⟩ := src.any K
  unfold reduceHash reduceAst redOneAst redTwoAst redAllAst redStarting redStartE redMeanS
  rw [ht, hi]
  clear ht hi
  rw [h1, h2, h3]
  clear h1 h2 h3
  obtain ⟨C, H, W, axes, noop⟩ := c
  dsimp only
  rcases act with _ | _ | _ | ⟨_ | _, _⟩ | _ | _ | _ | _ | ⟨⟨_ | _, _⟩, ⟨_ | _, _⟩⟩ <;> cases fn <;> kernel_rfl

omit [LinearOrder K] [FloorRing K] in
theorem reduce_code (fn : RFunc) (c : RedP) (size idx : Nat) (act : CAct K) (src : Ref) (road : Nat) :
    code Tpl.reduce (reduceHash fn c size idx act src road) = some (reduceAst fn c size act src road) := by
  cases h1 : decide (1 ∈ c.axes) <;> cases h2 : decide (2 ∈ c.axes) <;> cases h3 : decide (3 ∈ c.axes)
  · cases hn : c.noop
    · exact reduce_code_fff_all fn c size idx act src road h1 h2 h3 hn
    · exact reduce_code_fff_noop fn c size idx act src road h1 h2 h3 hn
  · exact reduce_code_fft fn c size idx act src road h1 h2 h3
  · exact reduce_code_ftf fn c size idx act src road h1 h2 h3
  · exact reduce_code_ftt fn c size idx act src road h1 h2 h3
  · exact reduce_code_tff fn c size idx act src road h1 h2 h3
  · exact reduce_code_tft fn c size idx act src road h1 h2 h3
  · exact reduce_code_ttf fn c size idx act src road h1 h2 h3
  · exact reduce_code_ttt fn c size idx act src road h1 h2 h3

end Verif.CText

import Lean.Elab.Term
import Lean.ToExpr

/-!
# Templates: mustache tags and C tokens

The templates of `/repo/src/acetone_nnet/templates` are embedded verbatim (`Verif/CText/Templates.lean`).  This file
reads such a text: first the mustache tags (variables, sections, inverted sections), then, in the literal text, the
tokens of C.  Both are plain functions on lists of characters, evaluated by the kernel.

Simplifications: white space (and so mustache's rule for standalone tags) is not kept, comments and lines starting
with `#` are skipped, the contents of strings (in which no template uses escapes other than `\n`) are not kept.
-/

namespace Verif.CText

open Lean in
/-- a string literal as the list of its characters -/
elab "chars! " s:str : term => return toExpr s.getString.toList

/-! ## Mustache -/

/-- the parts of a template -/
inductive Node
  | ch (c : Char)
  /-- `{{key}}` -/
  | var (key : List Char)
  /-- `{{{key}}}` -/
  | raw (key : List Char)
  /-- `{{#key}} .. {{/key}}` -/
  | sec (key : List Char) (body : List Node)
  /-- `{{^key}} .. {{/key}}` -/
  | inv (key : List Char) (body : List Node)

/-- tags and characters of a template, before sections are matched -/
inductive Tag
  | ch (c : Char) | var (key : List Char) | raw (key : List Char) | opn (key : List Char) | invOpn (key : List Char)
  | close (key : List Char)

/-- a key, up to the closing braces, without blanks -/
def takeKey : List Char → List Char × List Char
  | [] => ([], [])
  | '}' :: cs => ([], '}' :: cs)
  | ' ' :: cs => takeKey cs
  | c :: cs => let (k, r) := takeKey cs; (c :: k, r)

/-- the tags of a template -/
def tags : Nat → List Char → Option (List Tag)
  | 0, _ => none
  | _ + 1, [] => some []
  | n + 1, '{' :: '{' :: '{' :: cs =>
    match takeKey cs with
    | (k, '}' :: '}' :: '}' :: r) => (tags n r).map (.raw k :: ·)
    | _ => none
  | n + 1, '{' :: '{' :: cs =>
    match takeKey cs with
    | ('#' :: k, '}' :: '}' :: r) => (tags n r).map (.opn k :: ·)
    | ('^' :: k, '}' :: '}' :: r) => (tags n r).map (.invOpn k :: ·)
    | ('/' :: k, '}' :: '}' :: r) => (tags n r).map (.close k :: ·)
    | (k, '}' :: '}' :: r) => (tags n r).map (.var k :: ·)
    | _ => none
  | n + 1, c :: cs => (tags n cs).map (.ch c :: ·)

/-- matches sections: the nodes up to the closing tag of the enclosing section, and the rest -/
def nodes : Nat → List Tag → Option (List Node × List Tag)
  | 0, _ => none
  | _ + 1, [] => some ([], [])
  | _ + 1, .close k :: ts => some ([], .close k :: ts)
  | n + 1, .ch c :: ts => (nodes n ts).map fun (ns, r) => (.ch c :: ns, r)
  | n + 1, .var k :: ts => (nodes n ts).map fun (ns, r) => (.var k :: ns, r)
  | n + 1, .raw k :: ts => (nodes n ts).map fun (ns, r) => (.raw k :: ns, r)
  | n + 1, .opn k :: ts =>
    match nodes n ts with
    | some (body, .close k' :: r) => if k = k' then (nodes n r).map fun (ns, r') => (.sec k body :: ns, r') else none
    | _ => none
  | n + 1, .invOpn k :: ts =>
    match nodes n ts with
    | some (body, .close k' :: r) => if k = k' then (nodes n r).map fun (ns, r') => (.inv k body :: ns, r') else none
    | _ => none

/-- the nodes of a template -/
def template (text : List Char) : Option (List Node) :=
  match tags (text.length + 1) text with
  | none => none
  | some ts => match nodes (ts.length + 1) ts with
    | some (ns, []) => some ns
    | _ => none

/-! ## C tokens -/

inductive Punct
  | lpar | rpar | lbrk | rbrk | lbrc | rbrc | semi | comma | plus | minus | star | slash | percent | lt | gt | le | ge
  | eqeq | assign | plusEq | starEq | inc | arrow | quest | colon | andand | oror | amp
  /-- a string literal, whose contents are not kept -/
  | str
  deriving DecidableEq, Repr

inductive Kw | for_ | if_ | else_ | int_ | float_ | register_ | const_ | restrict_
  deriving DecidableEq, Repr

/-- part of an identifier -/
inductive Part | lit (cs : List Char) | hole (key : List Char)
  deriving DecidableEq, Repr

/-- A token of a template: a C token, possibly with holes, or a section of tokens. -/
inductive TTok
  | punct (p : Punct)
  /-- an integer literal -/
  | num (n : Nat)
  /-- the floating literal `m / 10^e` -/
  | flt (m e : Nat)
  /-- an identifier, keyword or number made of literal text and holes -/
  | word (parts : List Part)
  /-- `{{{key}}}` -/
  | raw (key : List Char)
  /-- `{{key}}=`, which may make an operator such as `+=` -/
  | opEq (key : List Char)
  | sec (key : List Char) (body : List TTok)
  | inv (key : List Char) (body : List TTok)

/-- what the lexer is in the middle of -/
inductive Mode | code | line | block | str
  deriving DecidableEq

def isLetter (c : Char) : Bool := (97 ≤ c.toNat && c.toNat ≤ 122) || (65 ≤ c.toNat && c.toNat ≤ 90) || c = '_'
def isNum (c : Char) : Bool := 48 ≤ c.toNat && c.toNat ≤ 57
def isBlank (c : Char) : Bool := c = ' ' || c = '\n' || c = '\t' || c = '\r'

/-- the value of decimal digits -/
def digits (cs : List Char) : Nat := cs.foldl (fun a c => 10 * a + (c.toNat - 48)) 0

/-- operators of two characters -/
def punct2 : Char → Char → Option Punct
  | '-', '>' => some .arrow
  | '+', '+' => some .inc
  | '+', '=' => some .plusEq
  | '*', '=' => some .starEq
  | '<', '=' => some .le
  | '>', '=' => some .ge
  | '=', '=' => some .eqeq
  | '&', '&' => some .andand
  | '|', '|' => some .oror
  | _, _ => none

def punct1 : Char → Option Punct
  | '(' => some .lpar | ')' => some .rpar | '[' => some .lbrk | ']' => some .rbrk | '{' => some .lbrc | '}' => some .rbrc
  | ';' => some .semi | ',' => some .comma | '+' => some .plus | '-' => some .minus | '*' => some .star
  | '/' => some .slash | '%' => some .percent | '<' => some .lt | '>' => some .gt | '=' => some .assign
  | '?' => some .quest | ':' => some .colon | '&' => some .amp
  | _ => none

/-- the longest prefix made of letters, digits and holes -/
def takeWord : List Node → List Part × List Node
  | .ch c :: ns =>
    if isLetter c || isNum c then
      match takeWord ns with
      | (.lit cs :: ps, r) => (.lit (c :: cs) :: ps, r)
      | (ps, r) => (.lit [c] :: ps, r)
    else ([], .ch c :: ns)
  | .var k :: ns => let (ps, r) := takeWord ns; (.hole k :: ps, r)
  | ns => ([], ns)

def takeDigits : List Node → List Char × List Node
  | .ch c :: ns => if isNum c then let (cs, r) := takeDigits ns; (c :: cs, r) else ([], .ch c :: ns)
  | ns => ([], ns)

/-- an optional suffix `f` -/
def dropF : List Node → List Node
  | .ch 'f' :: ns => ns
  | ns => ns

/-- The tokens of a template.  Inside a comment, tags are skipped with the rest. -/
def lex : Nat → Mode → List Node → Option (List TTok)
  | 0, _, _ => none
  | _ + 1, .block, [] => none
  | _ + 1, .str, [] => none
  | _ + 1, _, [] => some []
  | n + 1, .line, .ch '\n' :: ns => lex n .code ns
  | n + 1, .line, _ :: ns => lex n .line ns
  | n + 1, .block, .ch '*' :: .ch '/' :: ns => lex n .code ns
  | n + 1, .block, _ :: ns => lex n .block ns
  | n + 1, .str, .ch '"' :: ns => (lex n .code ns).map (.punct .str :: ·)
  | n + 1, .str, _ :: ns => lex n .str ns
  | n + 1, .code, .ch '"' :: ns => lex n .str ns
  | n + 1, .code, .ch '/' :: .ch '/' :: ns => lex n .line ns
  | n + 1, .code, .ch '/' :: .ch '*' :: ns => lex n .block ns
  | n + 1, .code, .ch '#' :: ns => lex n .line ns
  | n + 1, .code, .raw k :: ns => (lex n .code ns).map (.raw k :: ·)
  | n + 1, .code, .sec k b :: ns =>
    match lex n .code b, lex n .code ns with
    | some tb, some ts => some (.sec k tb :: ts)
    | _, _ => none
  | n + 1, .code, .inv k b :: ns =>
    match lex n .code b, lex n .code ns with
    | some tb, some ts => some (.inv k tb :: ts)
    | _, _ => none
  | n + 1, .code, .var k :: ns =>
    match takeWord (.var k :: ns) with
    | ([.hole k], .ch '=' :: .ch '=' :: r) => (lex n .code (.ch '=' :: .ch '=' :: r)).map (.word [.hole k] :: ·)
    | ([.hole k], .ch '=' :: r) => (lex n .code r).map (.opEq k :: ·)
    | (ps, r) => (lex n .code r).map (.word ps :: ·)
  | n + 1, .code, .ch c :: ns =>
    if isBlank c then lex n .code ns
    else if isLetter c then
      let (ps, r) := takeWord (.ch c :: ns)
      (lex n .code r).map (.word ps :: ·)
    else if isNum c then
      let (ds, r) := takeDigits (.ch c :: ns)
      match r with
      | .ch '.' :: r1 =>
        let (es, r2) := takeDigits r1
        (lex n .code (dropF r2)).map (.flt (digits (ds ++ es)) es.length :: ·)
      | _ => (lex n .code r).map (.num (digits ds) :: ·)
    else
      match ns with
      | .ch c' :: ns' =>
        match punct2 c c' with
        | some p => (lex n .code ns').map (.punct p :: ·)
        | none => match punct1 c with
          | some p => (lex n .code ns).map (.punct p :: ·)
          | none => none
      | _ => match punct1 c with
        | some p => (lex n .code ns).map (.punct p :: ·)
        | none => none

/-- the tokens of a template text -/
def tokens (text : List Char) : Option (List TTok) :=
  (template text).bind fun ns => lex (text.length + 1) .code ns

/-! ## Filling the holes -/

/-- The identifiers that the proofs have to tell apart; any other one is `other`. -/
inductive Name
  | f | i | j | k | p | h | w | ii | jj | dotproduct | sum | max | count | reduced | position | output | weight
  | x | y | x0 | y0 | x1 | y1 | col_index | a | b | s | f0 | f1 | f2 | b0 | b1 | b2 | f11 | f12 | f21 | f22
  | new_f | new_i | new_j | i_offset | j_offset | c_offset | bk | k_base | oh | ow | kh_s | kh_e | kw_s | kw_e | o_ptr | bc | c_base
  | kh | kw | ih | iw | i_ptr | w_ptr_base | c | iv
  | ctx | tensor_temp | cst | nn_input | prediction
  | exp | expf | log | sqrt | floor | ceil | fmax | fmin | fabs | INFINITY
  | other (cs : List Char)
  deriving DecidableEq, Repr

/-- the identifiers with a name of their own -/
def nameTable : List (List Char × Name) :=
  [(chars! "f", .f), (chars! "i", .i), (chars! "j", .j), (chars! "k", .k), (chars! "p", .p), (chars! "h", .h),
   (chars! "w", .w), (chars! "ii", .ii), (chars! "jj", .jj), (chars! "dotproduct", .dotproduct), (chars! "sum", .sum),
   (chars! "max", .max), (chars! "count", .count), (chars! "reduced", .reduced), (chars! "position", .position),
   (chars! "output", .output), (chars! "weight", .weight), (chars! "x", .x), (chars! "y", .y), (chars! "x0", .x0),
   (chars! "y0", .y0), (chars! "x1", .x1), (chars! "y1", .y1), (chars! "col_index", .col_index), (chars! "a", .a),
   (chars! "b", .b), (chars! "s", .s), (chars! "f0", .f0), (chars! "f1", .f1), (chars! "f2", .f2), (chars! "b0", .b0),
   (chars! "b1", .b1), (chars! "b2", .b2), (chars! "f11", .f11), (chars! "f12", .f12), (chars! "f21", .f21),
   (chars! "f22", .f22), (chars! "new_f", .new_f), (chars! "new_i", .new_i), (chars! "new_j", .new_j),
   (chars! "i_offset", .i_offset), (chars! "j_offset", .j_offset), (chars! "c_offset", .c_offset), (chars! "bk", .bk),
   (chars! "k_base", .k_base), (chars! "oh", .oh), (chars! "ow", .ow), (chars! "kh_s", .kh_s), (chars! "kh_e", .kh_e),
   (chars! "kw_s", .kw_s), (chars! "kw_e", .kw_e), (chars! "o_ptr", .o_ptr), (chars! "bc", .bc), (chars! "c_base", .c_base),
   (chars! "kh", .kh), (chars! "kw", .kw), (chars! "ih", .ih), (chars! "iw", .iw), (chars! "i_ptr", .i_ptr),
   (chars! "w_ptr_base", .w_ptr_base), (chars! "c", .c), (chars! "iv", .iv), (chars! "ctx", .ctx),
   (chars! "tensor_temp", .tensor_temp), (chars! "cst", .cst), (chars! "nn_input", .nn_input),
   (chars! "prediction", .prediction), (chars! "exp", .exp), (chars! "expf", .expf), (chars! "log", .log),
   (chars! "sqrt", .sqrt), (chars! "floor", .floor), (chars! "ceil", .ceil), (chars! "fmax", .fmax),
   (chars! "fmin", .fmin), (chars! "fabs", .fabs), (chars! "INFINITY", .INFINITY)]

def Name.ofChars (cs : List Char) : Name := (nameTable.lookup cs).getD (.other cs)

/-- The number at the end of an identifier, after an underscore: `padded` if it is written with a leading zero
(`f"{idx:02d}"` for `idx < 10`). -/
structure Suffix where
  padded : Bool
  value : Nat
  deriving DecidableEq, Repr

/-- An identifier: what precedes a final `_<digits>` (everything, if there is none), and these digits. -/
abbrev Ident := Name × Option Suffix

/-- a C token whose holes are filled -/
inductive CTok (K : Type)
  | punct (p : Punct) | num (n : Nat) | flt (q : K) | id (x : Ident) | kw (k : Kw)
  deriving DecidableEq

/-- The values of a mustache hash.  `num n` prints as `str(n)`, `num2 n` as `f"{n:02d}"`, `ref x n` as the text `x`,
an underscore and `n`; `words cs` is printed as is and must be one identifier. -/
inductive HVal (K : Type)
  | num (n : Nat) | num2 (n : Nat) | ref (x : List Char) (n : Nat) | word (cs : List Char)
  /-- a text that is more than one token, given by its tokens -/
  | toks (ts : List (CTok K))
  /-- a truth value, an absent key being false -/
  | bool (b : Bool)
  /-- a function for sections, applied to the rendered body (pystache applies it to the body and then renders) -/
  | lam (f : List (CTok K) → Option (List (CTok K)))
  /-- a list of hashes, for sections -/
  | list (hs : List (List (List Char × HVal K)))

abbrev Hash (K : Type) := List (List Char × HVal K)

def kwTable : List (List Char × Kw) :=
  [(chars! "for", .for_), (chars! "if", .if_), (chars! "else", .else_), (chars! "int", .int_), (chars! "float", .float_),
   (chars! "register", .register_), (chars! "const", .const_), (chars! "restrict", .restrict_)]

/-- splits `_<digits>` off the end of a word -/
def splitSuffix (cs : List Char) : Ident :=
  let ds := (cs.reverse.takeWhile isNum).reverse
  let pre := cs.take (cs.length - ds.length)
  if ds ≠ [] ∧ pre.getLast? = some '_' then
    (.ofChars pre.dropLast, some ⟨decide (1 < ds.length ∧ ds.head? = some '0'), digits ds⟩)
  else (.ofChars cs, none)

/-- a keyword or identifier without holes -/
def wordTok {K : Type} (cs : List Char) : CTok K :=
  match kwTable.lookup cs with
  | some k => .kw k
  | none => .id (splitSuffix cs)

/-- the text of the parts of a word that have no number in them -/
def partsText {K : Type} (h : Hash K) : List Part → Option (List Char)
  | [] => some []
  | .lit cs :: ps => (partsText h ps).map (cs ++ ·)
  | .hole k :: ps =>
    match h.lookup k with
    | some (.word cs) => (partsText h ps).map (cs ++ ·)
    | _ => none

/-- A word with its holes filled: a number; a reference; or literal text and names, possibly with a number after an
underscore at the end. -/
def instWord {K : Type} (h : Hash K) (ps : List Part) : Option (CTok K) :=
  match ps with
  | [.hole k] =>
    match h.lookup k with
    | some (.num n) => some (.num n)
    | some (.ref x n) => some (.id (.ofChars x, some ⟨false, n⟩))
    | some (.word cs) => some (wordTok cs)
    | _ => none
  | _ =>
    match ps.getLast? with
    | some (.hole k) =>
      match h.lookup k with
      | some (.num n) => (partsText h ps.dropLast).bind fun cs =>
        if cs.getLast? = some '_' then some (.id (.ofChars cs.dropLast, some ⟨false, n⟩)) else none
      | some (.num2 n) => (partsText h ps.dropLast).bind fun cs =>
        if cs.getLast? = some '_' then some (.id (.ofChars cs.dropLast, some ⟨decide (n < 10), n⟩)) else none
      | _ => (partsText h ps).map wordTok
    | _ => (partsText h ps).map wordTok

/-- is a value true in mustache's sense (`0`, `False`, the empty string and the empty list are false) -/
def HVal.truthy {K : Type} : HVal K → Bool
  | .num n => n ≠ 0
  | .num2 _ => true
  | .ref .. => true
  | .word cs => cs ≠ []
  | .toks ts => !ts.isEmpty
  | .bool b => b
  | .lam _ => true
  | .list hs => !hs.isEmpty

/-- concatenation of texts, none of which failed -/
def joinAll {K : Type} : List (Option (List (CTok K))) → Option (List (CTok K))
  | [] => some []
  | none :: _ => none
  | some a :: ts => (joinAll ts).map (a ++ ·)

/-- the value of the literal `m / 10^e` -/
def lit (K : Type) [NatCast K] [Div K] (m e : Nat) : K := (m : K) / ((10 ^ e : Nat) : K)

mutual
/-- The tokens of a template once rendered (`pystache.render`). -/
def inst {K : Type} [NatCast K] [Div K] : List TTok → Hash K → Option (List (CTok K))
  | [], _ => some []
  | t :: ts, h =>
    match inst1 t h, inst ts h with
    | some a, some b => some (a ++ b)
    | _, _ => none
/-- One token or section.  In a section over a list, the keys of each element hide those of the enclosing hash.  An
absent key prints nothing; a word may start with an operator. -/
def inst1 {K : Type} [NatCast K] [Div K] : TTok → Hash K → Option (List (CTok K))
  | .punct p, _ => some [.punct p]
  | .num m, _ => some [.num m]
  | .flt m e, _ => some [.flt (lit K m e)]
  | .word ps, h => match ps with
    | [.hole k] => match h.lookup k with
      | some (.toks ts) => some ts
      | none => some []
      | _ => (instWord h ps).map ([·])
    | .hole k :: qs => match h.lookup k with
      | some (.toks [.punct p]) => (instWord h qs).map ([.punct p, ·])
      | _ => (instWord h ps).map ([·])
    | _ => (instWord h ps).map ([·])
  | .raw k, h => match h.lookup k with
    | some (.toks ts) => some ts
    | none => some []
    | _ => none
  | .opEq k, h => match h.lookup k with
    | some (.toks [.punct .plus]) => some [.punct .plusEq]
    | some (.toks [.punct .star]) => some [.punct .starEq]
    | some (.toks _) => none
    | _ => (instWord h [.hole k]).map ([·, .punct .assign])
  | .sec k b, h =>
    match h.lookup k with
    | none => some []
    | some (.lam f) => (inst b h).bind f
    | some (.list hs) => joinAll (hs.map fun h' => inst b (h' ++ h))
    | some v => if v.truthy then inst b h else some []
  | .inv k b, h =>
    match h.lookup k with
    | none => inst b h
    | some v => if v.truthy then some [] else inst b h
end

end Verif.CText

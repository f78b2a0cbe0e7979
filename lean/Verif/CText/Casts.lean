import Verif.CText.Std
import Verif.CText.MoreTemplates

/-!
# Casts

`template_Conv_DW_HWC.c.tpl` and `template_Pooling2D_HWC.c.tpl` convert pointers to float to pointers to float, convert an integer to float
before dividing a float by it, and declare pointers without `restrict`.  Such texts are read after these conversions, which change no value, are
erased, and `restrict`, which constrains the caller only, is added.
-/

namespace Verif.CText
variable {K : Type}

/-- erases `(float * restrict)`, `(const float * restrict)` (with the parentheses of `((const float * restrict) x)`) and `(float)`; turns `float * x`
into `float * restrict x` -/
def uncast : List (CTok K) → List (CTok K)
  | .punct .lpar :: .punct .lpar :: .kw .const_ :: .kw .float_ :: .punct .star :: .kw .restrict_ :: .punct .rpar :: .id x :: .punct .rpar :: r => .id x :: uncast r
  | .punct .lpar :: .kw .const_ :: .kw .float_ :: .punct .star :: .kw .restrict_ :: .punct .rpar :: r => uncast r
  | .punct .lpar :: .kw .float_ :: .punct .star :: .kw .restrict_ :: .punct .rpar :: r => uncast r
  | .punct .lpar :: .kw .float_ :: .punct .rpar :: r => uncast r
  | .kw .float_ :: .punct .star :: .id x :: r => .kw .float_ :: .punct .star :: .kw .restrict_ :: .id x :: uncast r
  | t :: r => t :: uncast r
  | [] => []

/-- the C code that a template with casts becomes when it is rendered with a hash -/
def codeC [NatCast K] [Div K] (text : List Char) (h : Hash K) : Option (Stmt K) :=
  (tokens text).bind fun tt => (inst tt h).bind fun ts => program (uncast ts)

end Verif.CText

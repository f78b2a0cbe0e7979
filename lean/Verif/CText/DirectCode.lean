import Verif.CText.Std
import Verif.Layers.Direct

/-!
# The text of the blocked convolution (`direct_block`): hash and program
-/

namespace Verif.CText
open Prog Layers
set_option linter.unusedVariables false
variable {K : Type} [Field K] [LinearOrder K] [FloorRing K]

/-- `for (int x = lo; x < hi; ++x)` -/
abbrev loopD (x : Ident) (lo hi : Expr K) (b : Stmt K) : Stmt K := .for_ (.decl .int x lo) (.bin .lt (.var x) hi) (.incr x) b

/-- what `layers/convolution/Conv2Ddirect_block.py` 71-104 passes to the template; `activation_function` is absent when the function is linear (83-84) -/
def directHash (c : ConvP) (bk size idx : Nat) (act : CAct K) (src : Ref) (road : Nat) : Hash K :=
  (match act with
    | .linear => []
    | a => [(chars! "activation_function", a.text [.id (.ctx, none), .punct .arrow, .id (.tensor_temp, none), .punct .lbrk, .id (.k, none), .punct .rbrk])]) ++
  [(chars! "name", .word (chars! "Conv2D")), (chars! "idx", .num2 idx), (chars! "output_str", src.text), (chars! "road", .num road), (chars! "size", .num size),
   (chars! "H_in", .num c.inH), (chars! "W_in", .num c.inW), (chars! "C", .num c.inC), (chars! "H_out", .num c.outH), (chars! "W_out", .num c.outW),
   (chars! "K", .num c.filters), (chars! "KH", .num c.kh), (chars! "KW", .num c.kw), (chars! "STRIDE", .num c.stride), (chars! "PAD", .num c.padLeft),
   (chars! "BLOCK_C", .num c.inC), (chars! "BLOCK_K", .num bk), (chars! "NB_BLOCK_C", .num (c.inC / c.inC)), (chars! "NB_BLOCK_K", .num (c.filters / bk))]

/-- `PAD - x * STRIDE` -/
def padE (c : ConvP) (x : Name) : Expr K := .bin .sub (.num c.padLeft) (.bin .mul (.var (x, none)) (.num c.stride))

/-- `(n + PAD - x * STRIDE)` -/
def endE (c : ConvP) (n : Nat) (x : Name) : Expr K :=
  .bin .sub (.bin .add (.num n) (.num c.padLeft)) (.bin .mul (.var (x, none)) (.num c.stride))

/-- the loop over the channels of a block and over the filters of a block -/
def directInner (c : ConvP) (bk : Nat) : Stmt K :=
  loopD (.c, none) (.num 0) (.num c.inC) (.block
    (.seq (.decl .float (.iv, none) (.idx false (.i_ptr, none) (.var (.c, none))))
      (loopD (.k, none) (.num 0) (.num bk)
        (.assign (.idx false (.o_ptr, none) (.var (.k, none))) .add (.bin .mul (.var (.iv, none))
          (.idx false (.w_ptr_base, none) (.bin .add (.bin .mul (.var (.c, none)) (.num bk)) (.var (.k, none)))))))))

/-- the body of the loops over the window -/
def directPixel (c : ConvP) (bk idx : Nat) (src : Ident) : Stmt K :=
  .block (.seq (.decl .int (.iw, none) (.bin .add (.bin .sub (.bin .mul (.var (.ow, none)) (.num c.stride)) (.num c.padLeft)) (.var (.kw, none))))
    (.seq (.decl .ptr (.i_ptr, none) (.addr true src (.bin .add (.bin .mul (.bin .mul (.bin .add (.bin .mul (.var (.ih, none)) (.num c.inW)) (.var (.iw, none)))
        (.num c.inC)) (.num (c.inC / c.inC))) (.var (.c_base, none)))))
      (.seq (.decl .ptr (.w_ptr_base, none) (.addr false (.other (chars! "weights_Conv2D"), some ⟨decide (idx < 10), idx⟩)
          (.bin .mul (.bin .mul (.bin .add (.bin .mul (.bin .add (.bin .mul (.bin .add (.bin .mul (.var (.bk, none)) (.num (c.inC / c.inC))) (.var (.bc, none)))
            (.num c.kh)) (.var (.kh, none))) (.num c.kw)) (.var (.kw, none))) (.num c.inC)) (.num bk))))
        (directInner c bk))))

/-- the body of the loops over the blocks of channels -/
def directWindow (c : ConvP) (bk idx : Nat) (src : Ident) : Stmt K :=
  .block (.seq (.decl .int (.c_base, none) (.bin .mul (.var (.bc, none)) (.num c.inC)))
    (loopD (.kh, none) (.var (.kh_s, none)) (.var (.kh_e, none)) (.block
      (.seq (.decl .int (.ih, none) (.bin .add (.bin .sub (.bin .mul (.var (.oh, none)) (.num c.stride)) (.num c.padLeft)) (.var (.kh, none))))
        (loopD (.kw, none) (.var (.kw_s, none)) (.var (.kw_e, none)) (directPixel c bk idx src))))))

/-- the body of the loops over the pixels of the output -/
def directOut (c : ConvP) (bk idx : Nat) (src : Ident) : Stmt K :=
  .block (.seq (.decl .int (.kw_s, none) (.cond (.bin .gt (padE c .ow) (.num 0)) (padE c .ow) (.num 0)))
    (.seq (.decl .int (.kw_e, none) (.cond (.bin .lt (.num c.kw) (endE c c.inW .ow)) (.num c.kw) (endE c c.inW .ow)))
      (.seq (.decl .ptr (.o_ptr, none) (.addr true (.tensor_temp, none) (.bin .add (.bin .add (.bin .mul (.bin .mul (.var (.oh, none)) (.num c.outW))
          (.num c.filters)) (.bin .mul (.var (.ow, none)) (.num c.filters))) (.var (.k_base, none)))))
        (.seq (loopD (.k, none) (.num 0) (.num bk) (.assign (.idx false (.o_ptr, none) (.var (.k, none))) .set
            (.idx false (.other (chars! "biases_Conv2D"), some ⟨decide (idx < 10), idx⟩) (.bin .add (.var (.k_base, none)) (.var (.k, none))))))
          (loopD (.bc, none) (.num 0) (.num (c.inC / c.inC)) (directWindow c bk idx src))))))

/-- the program that the text is -/
def directAst (c : ConvP) (bk size idx : Nat) (act : CAct K) (src : Ref) (road : Nat) : Stmt K :=
  .seq (loopD (.bk, none) (.num 0) (.num (c.filters / bk)) (.block
      (.seq (.decl .int (.k_base, none) (.bin .mul (.var (.bk, none)) (.num bk)))
        (loopD (.oh, none) (.num 0) (.num c.outH) (.block
          (.seq (.decl .int (.kh_s, none) (.cond (.bin .gt (padE c .oh) (.num 0)) (padE c .oh) (.num 0)))
            (.seq (.decl .int (.kh_e, none) (.cond (.bin .lt (.num c.kh) (endE c c.inH .oh)) (.num c.kh) (endE c c.inH .oh)))
              (loopD (.ow, none) (.num 0) (.num c.outW) (directOut c bk idx src.ident)))))))))
    (loop (.k, none) size (.block
      (.assign (.idx true (.output, some ⟨false, road⟩) (.var (.k, none))) .set (act.expr (.idx true (.tensor_temp, none) (.var (.k, none)))))))

omit [LinearOrder K] [FloorRing K] in
theorem direct_code (c : ConvP) (bk size idx : Nat) (act : CAct K) (src : Ref) (road : Nat) :
    code Tpl.conv_direct_block (directHash c bk size idx act src road) = some (directAst c bk size idx act src road : Stmt K) := by
  obtain ⟨x_src, n_src, ht_src, hi_src⟩ := src.any K
  unfold directHash directAst
  rw [ht_src, hi_src]
  clear ht_src hi_src
  rcases act with _ | _ | _ | ⟨_ | _, _⟩ | _ | _ | _ | _ | ⟨⟨_ | _, _⟩, ⟨_ | _, _⟩⟩ <;>
    kernel_rfl

end Verif.CText

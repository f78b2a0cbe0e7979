import Verif.CText.Direct
import Verif.Props.Direct

/-!
# What the text of the blocked convolution computes

`C50_block_code` is about the program `directBlockCode`; `direct_renders` says that the generated text is this program.
Together: running the text leaves the convolution in the output array.
-/

namespace Verif.CText
open Prog Layers
variable {K : Type} [Field K] [LinearOrder K] [FloorRing K]

/-- **C50, on the text.** The template `template_Conv_direct_block.c.tpl`, rendered with the values that
`Conv2D_direct_block` passes, is a C program; run on a channels-last feature map and on the weights in the layout of the
layer it terminates without out-of-bounds access, leaves the convolution, channels-last, in the output array, and changes no
other array but the temporary one and no variable but `k`. -/
theorem C50_block_text (L : Lib K) {ints : Ident → Option (List Nat)} (hints : ∀ n, ints (n, none) = none)
    (c : ConvP) (bk size idx road : Nat) (act : CAct K) (src : Ref) (wt : Nat → Nat → Nat → Nat → K) (bias : Nat → K)
    (x : Nat → Nat → Nat → K) (m : Mem K) (lay : List K)
    (hdil : c.dil = 1) (hpad : c.padLeft = c.padTop) (hC : 0 < c.inC) (hF : bk ≤ c.filters) (hbk : 0 < bk)
    (hx : Holds m src.buf (tensor3 c.inH c.inW c.inC fun i j p => x p i j))
    (hlay : blockLayout c bk wt = some lay) (hw : Holds m (.par .weights idx) lay)
    (hb : Holds m (.par .biases idx) (tensor c.filters bias))
    (hsize : size = c.filters * c.outH * c.outW) (ht : size ≤ m.size .temp) (ho : size ≤ m.size (.out road)) :
    ∃ s m', code Tpl.conv_direct_block (directHash c bk size idx act src road) = some s ∧
      (∃ F₀, ∀ e, IsInt e (.k, none) → ∀ F, F₀ ≤ F →
        ∃ e', Agree [(.k, none)] e' e ∧ s.run (std L ints) F e m = some (e', m')) ∧
      Holds m' (.out road) (tensor3 c.outH c.outW c.filters fun i j f => convSpec c (act.fn (std L ints)) wt bias x f i j) ∧
      OnlyChanges [.out road, .temp] m m' := by
  obtain ⟨m', hm, hh, hch⟩ := C50_block_code c bk size idx road (act.fn (std L ints)) src.buf wt bias x m lay
    (by cases src <;> simp [Ref.buf]) hdil hpad hC hF hbk hx hlay hw hb hsize ht ho
  obtain ⟨s, hs, F₀, hr⟩ := direct_renders L hints c bk size idx act src road
  refine ⟨s, m', hs, ⟨F₀, fun e he F hF => ?_⟩, hh, hch⟩
  have := hr e (by intro p hp; simp only [List.mem_singleton] at hp; subst hp; exact he) F hF m
  rw [hm] at this
  exact this

end Verif.CText

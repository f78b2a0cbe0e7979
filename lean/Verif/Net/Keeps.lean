import Verif.Net.Model

/-!
# What no layer's code touches

Whatever memory a layer's code is started on, it changes neither the sizes of the arrays nor the constant parameter arrays.
-/

namespace Verif.Net
open Prog Layers
variable {K β γ : Type}

/-- the program changes neither the sizes of the arrays nor the parameters -/
structure Keeps (p : Prog K β) : Prop where
  keeps : ∀ m b m', p m = some (b, m') → m'.size = m.size ∧ ∀ k n, m'.val (.par k n) = m.val (.par k n)

theorem Keeps.ret (b : β) : Keeps (Prog.ret b : Prog K β) := by
  refine ⟨fun m c m' h => ?_⟩
  simp only [Prog.ret, Option.some.injEq, Prod.mk.injEq] at h
  exact h.2 ▸ ⟨rfl, fun _ _ => rfl⟩

theorem Keeps.pure (b : β) : Keeps (Pure.pure b : Prog K β) := Keeps.ret b

theorem Keeps.none : Keeps (fun _ => none : Prog K β) := ⟨fun _ _ _ h => by cases h⟩

theorem Keeps.load (b : Buf) (a : Int) : Keeps (Prog.load b a : Prog K K) := by
  refine ⟨fun m c m' h => ?_⟩
  unfold Prog.load at h
  split at h
  · simp only [Option.some.injEq, Prod.mk.injEq] at h
    exact h.2 ▸ ⟨rfl, fun _ _ => rfl⟩
  · cases h

theorem Keeps.store {b : Buf} (hb : ∀ k n, b ≠ .par k n) (a : Int) (v : K) : Keeps (Prog.store b a v) := by
  refine ⟨fun m c m' h => ?_⟩
  unfold Prog.store at h
  split at h
  · simp only [Option.some.injEq, Prod.mk.injEq] at h
    obtain ⟨-, rfl⟩ := h
    exact ⟨rfl, fun k n => by funext i; simp [(hb k n).symm]⟩
  · cases h

theorem Keeps.andThen {p : Prog K β} {q : β → Prog K γ} (hp : Keeps p) (hq : ∀ b, Keeps (q b)) : Keeps (Prog.andThen p q) := by
  refine ⟨fun m c m' h => ?_⟩
  unfold Prog.andThen at h
  split at h
  · cases h
  · rename_i b m₁ h₁
    have h1 := hp.keeps _ _ _ h₁
    have h2 := (hq _).keeps _ _ _ h
    exact ⟨h2.1.trans h1.1, fun k n => (h2.2 k n).trans (h1.2 k n)⟩

theorem Keeps.bind {p : Prog K β} {q : β → Prog K γ} (hp : Keeps p) (hq : ∀ b, Keeps (q b)) : Keeps (p >>= q) := Keeps.andThen hp hq

theorem Keeps.foldN {n : Nat} {init : β} {body : Nat → β → Prog K β} (h : ∀ i b, Keeps (body i b)) : Keeps (Prog.foldN n init body) := by
  induction n with
  | zero => exact Keeps.ret _
  | succ n ih => exact Keeps.andThen ih fun b => h n b

theorem Keeps.forN {n : Nat} {body : Nat → Prog K Unit} (h : ∀ i, Keeps (body i)) : Keeps (Prog.forN n body) := Keeps.foldN fun i _ => h i

theorem Keeps.ite {c : Prop} [Decidable c] {p q : Prog K β} (hp : Keeps p) (hq : Keeps q) : Keeps (if c then p else q) := by
  split <;> assumption

macro "keeps" : tactic => `(tactic| repeat' (first
  | exact Keeps.none | exact Keeps.ret _ | exact Keeps.pure _ | exact Keeps.load _ _ | exact Keeps.store (by intro k n h; cases h) _ _
  | apply Keeps.bind | apply Keeps.andThen | apply Keeps.forN | apply Keeps.foldN | apply Keeps.ite | assumption | (intro _) | split))


section
variable {K : Type} [Field K] [LinearOrder K] [FloorRing K]
set_option linter.unusedSectionVars false

theorem keeps_divCount (s : K) (n : Nat) : Keeps (divCount s n) := by
  refine ⟨fun m b m' h => ?_⟩
  simp only [divCount] at h
  split at h
  · cases h
  · simp only [Option.some.injEq, Prod.mk.injEq] at h
    exact h.2 ▸ ⟨rfl, fun _ _ => rfl⟩

theorem keeps_loadIdx (l : List Nat) (k : Nat) : Keeps (loadIdx (α := K) l k) := by
  refine ⟨fun m b m' h => ?_⟩
  simp only [loadIdx] at h
  split at h
  · simp only [Option.some.injEq, Prod.mk.injEq] at h
    exact h.2 ▸ ⟨rfl, fun _ _ => rfl⟩
  · cases h

theorem keeps_liftOpt {β : Type} (o : Option β) : Keeps (liftOpt (α := K) o) := by
  refine ⟨fun m b m' h => ?_⟩
  cases o with
  | none => cases h
  | some c =>
    simp only [liftOpt, Option.map_some, Option.some.injEq, Prod.mk.injEq] at h
    exact h.2 ▸ ⟨rfl, fun _ _ => rfl⟩

theorem keeps_chain (op : K → K → K) (f i j : Nat) (l : List Operand) : ∀ x, Keeps (chain op f i j l x) := by
  induction l with
  | nil => exact fun x => Keeps.pure _
  | cons o l ih => exact fun x => Keeps.bind (Keeps.load _ _) fun _ => ih _

theorem keeps_chainTemp (op : K → K → K) (H W f i j : Nat) (l : List Operand) : Keeps (chainTemp op H W f i j l) := by
  induction l with
  | nil => exact Keeps.pure _
  | cons o l ih =>
    unfold chainTemp
    keeps

theorem keeps_concat (a : Np.Axis) (H W f i j : Nat) (l : List Operand) : ∀ n, Keeps (concatStmts (α := K) a H W f i j l n) := by
  induction l with
  | nil => exact fun _ => Keeps.pure _
  | cons o l ih =>
    intro n
    unfold concatStmts
    refine Keeps.bind ?_ fun _ => ih _
    unfold concatOne
    keeps

theorem keeps_redStart (fn : RFunc) (src : Buf) (a : Nat) : Keeps (redStart (α := K) fn src a) := by unfold redStart; keeps
theorem keeps_redLocal (fn : RFunc) (src : Buf) (a : Nat) (acc : K) : Keeps (redLocal fn src a acc) := by unfold redLocal; keeps
theorem keeps_redCell (fn : RFunc) (b : Buf) (src : Buf) (a p : Nat) : Keeps (redCell (α := K) fn b src a p) := by unfold redCell; keeps
theorem keeps_redMean (fn : RFunc) (n p : Nat) : Keeps (redMean (α := K) fn n p) := by unfold redMean; keeps

theorem keeps_gatherLoops (a idx W H Co Ho Wo) (act : K → K) (src) : Keeps (gatherLoops a idx W H Co Ho Wo act src) := by
  have := @keeps_loadIdx K
  unfold gatherLoops
  keeps
  all_goals first | exact keeps_loadIdx .. | skip
  all_goals (unfold gatherInner; keeps)


macro "keeps_all" : tactic => `(tactic| repeat' (first
  | exact keeps_divCount .. | exact keeps_loadIdx .. | exact keeps_liftOpt .. | exact keeps_chain .. | exact keeps_chainTemp .. | exact keeps_concat ..
  | exact keeps_redStart .. | exact keeps_redLocal .. | exact keeps_redCell .. | exact keeps_redMean .. | exact keeps_gatherLoops ..
  | exact Keeps.none | exact Keeps.ret _ | exact Keeps.pure _ | exact Keeps.load _ _ | exact Keeps.store (by intro k n h; cases h) _ _
  | apply Keeps.bind | apply Keeps.andThen | apply Keeps.forN | apply Keeps.foldN | apply Keeps.ite | assumption | (intro _) | split))

theorem keeps_input (fmt gen r C H W size road) : Keeps (inputCode (α := K) fmt gen r C H W size road) := by unfold inputCode; keeps_all
theorem keeps_outputCode (fmt gen r C H W size road) : Keeps (outputCode (α := K) fmt gen r C H W size road) := by unfold outputCode; keeps_all
theorem keeps_constant (n idx road) : Keeps (constantCode (α := K) n idx road) := by unfold constantCode; keeps_all
theorem keeps_dense (n p idx) (act : K → K) (src road) : Keeps (denseCode n p idx act src road) := by unfold denseCode; keeps_all
theorem keeps_activation (n) (act : K → K) (src road) : Keeps (activationLayerCode n act src road) := by unfold activationLayerCode; keeps_all
theorem keeps_flatten (fmt C H W size road) : Keeps (flattenCode (α := K) fmt C H W size road) := by unfold flattenCode; keeps_all
theorem keeps_matmul (C H W n size) (act : K → K) (l r road) : Keeps (matmulCode C H W n size act l r road) := by unfold matmulCode; keeps_all
theorem keeps_gemmAlgo (tA tB M N l idx f g) (act : K → K) (src) : Keeps (gemmAlgo tA tB M N l idx f g act src) := by unfold gemmAlgo; keeps_all
theorem keeps_gemm (tA tB M N a b size idx f g) (act : K → K) (src road) : Keeps (gemmCode tA tB M N a b size idx f g act src road) := by
  unfold gemmCode; keeps_all
  all_goals exact keeps_gemmAlgo ..
theorem keeps_conv6 (c size idx) (act : K → K) (src road) : Keeps (conv6Code c size idx act src road) := by unfold conv6Code; keeps_all
theorem keeps_stdGemm (c size idx) (act : K → K) (src road) : Keeps (stdGemmCode c size idx act src road) := by unfold stdGemmCode; keeps_all
theorem keeps_maxPool (c size ninf) (act : K → K) (src road) : Keeps (maxPoolCode c size ninf act src road) := by unfold maxPoolCode; keeps_all
theorem keeps_avgPool (c size) (act : K → K) (src road) : Keeps (avgPoolCode c size act src road) := by unfold avgPoolCode; keeps_all
theorem keeps_broadcast (op C H W size) (act : K → K) (os cst road) : Keeps (broadcastCode op C H W size act os cst road) := by unfold broadcastCode; keeps_all
theorem keeps_concatCode (a C H W size) (act : K → K) (os road) : Keeps (concatCode a C H W size act os road) := by unfold concatCode; keeps_all
theorem keeps_gather (a l W H Co Ho Wo size) (act : K → K) (src road) : Keeps (gatherCode a l W H Co Ho Wo size act src road) := by unfold gatherCode; keeps_all
theorem keeps_gatherElements (a l W H Co Ho Wo size) (act : K → K) (src road) : Keeps (gatherElementsCode a l W H Co Ho Wo size act src road) := by unfold gatherElementsCode; keeps_all
theorem keeps_tile (C H W a b c size) (act : K → K) (src road) : Keeps (tileCode C H W a b c size act src road) := by unfold tileCode; keeps_all
theorem keeps_transpose (p H W a b c size) (act : K → K) (src road) : Keeps (transposeCode p H W a b c size act src road) := by unfold transposeCode; keeps_all
theorem keeps_constantPad (H W C' H' W' a b c d e f size) (k : K) (act : K → K) (src road) : Keeps (constantPadCode H W C' H' W' a b c d e f size k act src road) := by unfold constantPadCode; keeps_all
theorem keeps_pad (m C H W C' H' W' a b c size) (act : K → K) (src road) : Keeps (padCode m C H W C' H' W' a b c size act src road) := by unfold padCode; keeps_all
theorem keeps_batchNorm (sq : K → K) (C n idx eps) (act : K → K) (src road) : Keeps (batchNormCode sq C n idx eps act src road) := by unfold batchNormCode; keeps_all
theorem keeps_reduce (fn c size) (act : K → K) (src road) : Keeps (reduceCode fn c size act src road) := by unfold reduceCode; keeps_all
theorem keeps_softmax1 (ex : K → K) (size) (act : K → K) (src road) : Keeps (softmaxCode1 ex size act src road) := by unfold softmaxCode1; keeps_all
theorem keeps_softmax3 (ex : K → K) (C H W a src road) : Keeps (softmaxCode3 ex C H W a src road) := by unfold softmaxCode3; keeps_all

theorem keeps_nearest (mode nm C size h w) (act : K → K) (src road p) (hp : nearestCode mode nm C size h w act src road = some p) : Keeps p := by
  unfold nearestCode at hp
  split at hp <;> cases hp
  keeps_all

theorem keeps_linear (mode C size h w) (act : K → K) (src road p) (hp : linearCode mode C size h w act src road = some p) : Keeps p := by
  unfold linearCode linear1Code linear2Code at hp
  repeat' split at hp
  all_goals cases hp
  all_goals keeps_all

theorem keeps_cubic (a mode C size h w) (act : K → K) (src road p) (hp : cubicCode a mode C size h w act src road = some p) : Keeps p := by
  unfold cubicCode cubic1Code cubic2Code at hp
  repeat' split at hp
  all_goals cases hp
  all_goals keeps_all

/-- **No layer's code, on any memory, changes the size of an array or a parameter.** -/
theorem Op.code_keeps (M : CMath K) (fmt : DataFormat) (idx road : Nat) (op : Op K) (srcs : List Buf) (p : Prog K Unit)
    (h : op.code M fmt idx road srcs = some p) : Keeps p := by
  unfold Op.code at h
  split at h
  all_goals first
    | (cases h; done)
    | (cases h
       first
       | with_reducible exact keeps_input .. | with_reducible exact keeps_constant .. | with_reducible exact keeps_dense .. | with_reducible exact keeps_activation .. | with_reducible exact keeps_flatten .. | with_reducible exact keeps_matmul ..
       | with_reducible exact keeps_gemm .. | with_reducible exact keeps_conv6 .. | with_reducible exact keeps_stdGemm .. | with_reducible exact keeps_maxPool .. | with_reducible exact keeps_avgPool .. | with_reducible exact keeps_broadcast ..
       | with_reducible exact keeps_concatCode .. | with_reducible exact keeps_gather .. | with_reducible exact keeps_gatherElements .. | with_reducible exact keeps_tile .. | with_reducible exact keeps_transpose ..
       | with_reducible exact keeps_constantPad .. | with_reducible exact keeps_pad .. | with_reducible exact keeps_batchNorm .. | with_reducible exact keeps_reduce ..)
    | with_reducible exact keeps_nearest _ _ _ _ _ _ _ _ _ _ h
    | with_reducible exact keeps_linear _ _ _ _ _ _ _ _ _ h
    | with_reducible exact keeps_cubic _ _ _ _ _ _ _ _ _ _ h
    | skip
  · unfold softmaxCode at h
    split at h
    · cases h; exact keeps_softmax1 ..
    · obtain ⟨a, -, rfl⟩ := Option.map_eq_some_iff.1 h
      exact keeps_softmax3 ..

theorem Network.layerCode_keeps (net : Network K) (M : CMath K) (n : Nat) (srcs : List Buf) (dst : Buf) : Keeps (net.layerCode M n srcs dst) := by
  unfold Network.layerCode
  split
  · cases h : (net.op n).code M net.fmt n _ srcs with
    | none => exact Keeps.none
    | some p => exact Op.code_keeps M net.fmt n _ _ _ _ h
  · exact Keeps.none

end

end Verif.Net

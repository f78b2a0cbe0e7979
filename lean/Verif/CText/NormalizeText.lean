import Verif.CText.NormalizeCode
import Verif.CText.Rules
import Verif.Props.Normalize

/-!
# The texts of the normalisation of NNET networks
-/

namespace Verif.CText
open Prog Gen
set_option linter.unusedVariables false
set_option linter.unusedSectionVars false
variable {K : Type} [Field K] [LinearOrder K] [FloorRing K]
variable {ints : Ident → Option (List Nat)}

/-- where the four constant arrays of the normalisation are in the memory -/
structure CstBufs where
  lo : Buf
  hi : Buf
  mean : Buf
  range : Buf

/-- what the names of the constant arrays of `template_normalization_cst_in_global_var_file.c.tpl` designate -/
def cstBuf (B : CstBufs) (cs : List Char) : Option Buf :=
  if cs = chars! "input_min" then some B.lo
  else if cs = chars! "input_max" then some B.hi
  else if cs = chars! "input_mean" then some B.mean
  else if cs = chars! "input_range" then some B.range
  else none

/-- the arrays of a generated program with normalisation -/
def stdCst (L : Lib K) (ints : Ident → Option (List Nat)) (B : CstBufs) : Globals K :=
  { std L ints with buf := fun c x => match c, x with
      | false, (.other cs, none) => cstBuf B cs
      | c, x => stdBuf c x }

/-- the memory holds the constants -/
structure HoldsCst (B : CstBufs) (n : Nat) (C : NormConsts K) (m : Mem K) : Prop where
  lo : ∀ i, i < n → i < m.size B.lo ∧ m.val B.lo i = C.inputMin i
  hi : ∀ i, i < n → i < m.size B.hi ∧ m.val B.hi i = C.inputMax i
  mean : ∀ i, i < n → i < m.size B.mean ∧ m.val B.mean i = C.inputMean i
  range : ∀ i, i < n → i < m.size B.range ∧ m.val B.range i = C.inputRange i

/-- the arrays of the constants are not the input -/
structure CstBufs.Apart (B : CstBufs) : Prop where
  lo : B.lo ≠ .input
  hi : B.hi ≠ .input
  mean : B.mean ≠ .input
  range : B.range ≠ .input

/-- a conditional statement whose condition reads the memory -/
theorem Sim.iteM {β : Type} {G : Globals K} {F : Nat} {V V' : List Ident} {e : Env K} {c : Expr K} {a b : Stmt K}
    {q : Prog K Bool} {r s : Prog K β} {post : β → Env K}
    (hd : ∀ y ∈ c.vars, y ∉ V) (hc : (c.eval G e >>= truth) = q)
    (ha : Sim G F V V' e a r post) (hb : Sim G F V V' e b s post) :
    Sim G F V V' e (.ite c a b) (q >>= fun t => if t then r else s) post := by
  intro e₁ h1 m
  have hrun : (Stmt.ite c a b).run G F e₁ m = andThen q (fun t => if t then a.run G F e₁ else b.run G F e₁) m := by
    rw [← hc]
    simp only [Stmt.run]
    rw [eval_congr G h1 c hd]
    exact (congrFun (bind_assoc' _ _ _) m).symm
  have hp : (q >>= fun t => if t then r else s) m = andThen q (fun t => if t then r else s) m := rfl
  rw [hrun, hp]
  unfold andThen
  cases hq : q m with
  | none => rfl
  | some x =>
    obtain ⟨t, m'⟩ := x
    cases t
    · exact hb e₁ h1 m'
    · exact ha e₁ h1 m'

/-- the program of the text of the pre-processing, with the constants in the memory -/
def preMem (n : Nat) (B : CstBufs) : Prog K Unit :=
  forN n fun i =>
    (load .input (i : Int) >>= fun x => load B.lo (i : Int) >>= fun l => ret (decide (x < l))) >>= fun t => if t then
      (load B.lo (i : Int) >>= fun x => load B.mean (i : Int) >>= fun u => load B.range (i : Int) >>= fun v => ret ((x - u) / v)) >>= fun y => store .input (i : Int) y
    else (load .input (i : Int) >>= fun x => load B.hi (i : Int) >>= fun l => ret (decide (x > l))) >>= fun t => if t then
      (load B.hi (i : Int) >>= fun x => load B.mean (i : Int) >>= fun u => load B.range (i : Int) >>= fun v => ret ((x - u) / v)) >>= fun y => store .input (i : Int) y
    else (load .input (i : Int) >>= fun x => load B.mean (i : Int) >>= fun u => load B.range (i : Int) >>= fun v => ret ((x - u) / v)) >>= fun y => store .input (i : Int) y

theorem pre_mem (L : Lib K) (n : Nat) (B : CstBufs) : Renders (stdCst L ints B) Tpl.pre_processing (normPreHash n) [((.i, none), .int)] (preMem n B) := by
  refine Renders.of_sim (n + 1) (pre_code n) fun e he F hF => ?_
  have hi := he.int (.i, none) (by simp)
  have h0 : (stdCst L ints B).buf false (.nn_input, none) = some .input := rfl
  have h1 : (stdCst L ints B).buf false (.other (chars! "input_min"), none) = some B.lo := rfl
  have h2 : (stdCst L ints B).buf false (.other (chars! "input_max"), none) = some B.hi := rfl
  have h3 : (stdCst L ints B).buf false (.other (chars! "input_mean"), none) = some B.mean := rfl
  have h4 : (stdCst L ints B).buf false (.other (chars! "input_range"), none) = some B.range := rfl
  have hn : ∀ x, (stdCst L ints B).ints x = ints x := fun _ => rfl
  refine Sim.for' (by simp) (by simp) (by omega) hi rfl fun i hin => ?_
  have hx : ∀ y ∈ ([((.i, none) : Ident)].filter (· ≠ (.i, none))), False := by simp
  have hv : ∀ (ex : Expr K), ∀ y ∈ ex.vars, y ∉ ([((.i, none) : Ident)].filter (· ≠ (.i, none))) := fun _ y _ h => hx y h
  refine Sim.iteM (hv _) ?_ (Sim.block' (Sim.store h0 (hv _) (hv _) (by ceval) ?_) rfl)
    (Sim.block' (Sim.iteM (hv _) ?_ (Sim.block' (Sim.store h0 (hv _) (hv _) (by ceval) ?_) rfl) (Sim.block' (Sim.store h0 (hv _) (hv _) (by ceval) ?_) rfl)) rfl)
  · ceval [h0, h1]
  · ceval [h1, h3, h4]
  · ceval [h0, h2]
  · ceval [h2, h3, h4]
  · ceval [h0, h3, h4]

/-- loops with equal bodies, where an invariant holds -/
theorem forN_inv {P : Mem K → Prop} {n : Nat} {f g : Nat → Prog K Unit} (h : ∀ i, i < n → ∀ m, P m → f i m = g i m)
    (hp : ∀ i, i < n → ∀ m u m', P m → g i m = some (u, m') → P m') (m : Mem K) (hm : P m) :
    forN n f m = forN n g m ∧ ∀ u m', forN n g m = some (u, m') → P m' := by
  induction n generalizing m with
  | zero =>
    refine ⟨rfl, fun u m' h => ?_⟩
    simp only [forN, foldN, pure, ret, Option.some.injEq, Prod.mk.injEq] at h
    exact h.2 ▸ hm
  | succ n ih =>
    obtain ⟨h1, h2⟩ := ih (fun i hi => h i (by omega)) (fun i hi => hp i (by omega)) m hm
    have e : ∀ b : Nat → Prog K Unit, forN (n + 1) b m = andThen (forN n b) (fun _ => b n) m := fun _ => rfl
    rw [e, e]
    unfold andThen
    rw [h1]
    cases hg : forN n g m with
    | none => exact ⟨rfl, fun _ _ h => by cases h⟩
    | some x =>
      obtain ⟨u, m'⟩ := x
      have hP := h2 _ _ hg
      exact ⟨h n (by omega) m' hP, fun u' m'' h => hp n (by omega) m' u' m'' hP h⟩

theorem holds_store {B : CstBufs} {n : Nat} {C : NormConsts K} {m m' : Mem K} {u : Unit} {a : Int} {v : K} (hB : B.Apart) (h : HoldsCst B n C m)
    (hs : store .input a v m = some (u, m')) : HoldsCst B n C m' := by
  unfold store at hs
  split at hs
  · simp only [Option.some.injEq, Prod.mk.injEq] at hs
    obtain ⟨-, rfl⟩ := hs
    constructor <;> intro i hi
    · simpa [hB.lo] using h.lo i hi
    · simpa [hB.hi] using h.hi i hi
    · simpa [hB.mean] using h.mean i hi
    · simpa [hB.range] using h.range i hi
  · cases hs

theorem load_holds {b : Buf} {i : Nat} {v : K} {m : Mem K} {β : Type} (h : i < m.size b ∧ m.val b i = v) (k : K → Prog K β) :
    (load b (i : Int) >>= k) m = k v m := by
  simp [bind, andThen, load, h.1, h.2]

theorem preMem_eq {B : CstBufs} (hB : B.Apart) {n : Nat} {C : NormConsts K} {m : Mem K} (h : HoldsCst B n C m) :
    preMem n B m = preCode n C m := by
  refine (forN_inv (P := HoldsCst B n C) ?_ ?_ m h).1
  · intro i hi m hm
    by_cases hin : i < m.size .input
    swap
    · have hn : ∀ {β : Type} (k : K → Prog K β), (load .input (i : Int) >>= k) m = none := fun k => by
        simp [bind, andThen, load, hin]
      have hn' : ∀ {β : Type} (k : K → Prog K β), andThen (load .input (i : Int)) k m = none := fun k => hn k
      simp only [bind_assoc']
      rw [hn]
      exact (hn _).symm
    · have l0 : ∀ {β : Type} (k : K → Prog K β), (load .input (i : Int) >>= k) m = k (m.val .input i) m := fun k => load_holds ⟨hin, rfl⟩ k
      have l1 : ∀ {β : Type} (k : K → Prog K β), (load B.lo (i : Int) >>= k) m = k (C.inputMin i) m := fun k => load_holds (hm.lo i hi) k
      have l2 : ∀ {β : Type} (k : K → Prog K β), (load B.hi (i : Int) >>= k) m = k (C.inputMax i) m := fun k => load_holds (hm.hi i hi) k
      have l3 : ∀ {β : Type} (k : K → Prog K β), (load B.mean (i : Int) >>= k) m = k (C.inputMean i) m := fun k => load_holds (hm.mean i hi) k
      have l4 : ∀ {β : Type} (k : K → Prog K β), (load B.range (i : Int) >>= k) m = k (C.inputRange i) m := fun k => load_holds (hm.range i hi) k
      simp only [bind_assoc', ret_bind]
      rw [l0, l1, l0]
      by_cases h1 : m.val .input i < C.inputMin i
      · simp only [h1, decide_true, if_true]
        rw [l1, l3, l4]
      · simp only [h1, decide_false, if_false, Bool.false_eq_true]
        rw [l0, l2, l0]
        by_cases h2 : m.val .input i > C.inputMax i
        · simp only [h2, decide_true, if_true]
          rw [l2, l3, l4]
        · simp only [h2, decide_false, if_false, Bool.false_eq_true]
          rw [l0, l3, l4, l0]
  · intro i hi m u m' hm hg
    by_cases hin : i < m.size .input
    swap
    · have hn : ∀ {β : Type} (k : K → Prog K β), (load .input (i : Int) >>= k) m = none := fun k => by
        simp [bind, andThen, load, hin]
      rw [hn] at hg
      cases hg
    · have l0 : ∀ {β : Type} (k : K → Prog K β), (load .input (i : Int) >>= k) m = k (m.val .input i) m := fun k => load_holds ⟨hin, rfl⟩ k
      rw [l0] at hg
      by_cases h1 : m.val .input i < C.inputMin i
      · simp only [h1, if_true] at hg
        exact holds_store hB hm hg
      · simp only [h1, if_false] at hg
        rw [l0] at hg
        by_cases h2 : m.val .input i > C.inputMax i
        · simp only [h2, if_true] at hg
          exact holds_store hB hm hg
        · simp only [h2, if_false] at hg
          rw [l0] at hg
          exact holds_store hB hm hg

/-- **The text of the pre-processing** (`template_pre_processing.c.tpl`, rendered) is a C program that, run where the four
constant arrays hold the constants, does to the memory exactly what `Gen.preCode` does. -/
theorem pre_renders (L : Lib K) (n : Nat) {B : CstBufs} (hB : B.Apart) (C : NormConsts K) :
    ∃ s, code Tpl.pre_processing (normPreHash n) = some s ∧ ∃ F₀, ∀ e, IsInt e (.i, none) → ∀ F, F₀ ≤ F → ∀ m, HoldsCst B n C m →
      match preCode n C m with
      | none => s.run (stdCst L ints B) F e m = none
      | some (_, m') => ∃ e', Agree [(.i, none)] e' e ∧ s.run (stdCst L ints B) F e m = some (e', m') := by
  obtain ⟨s, hs, F₀, h⟩ := pre_mem (ints := ints) L n B
  refine ⟨s, hs, F₀, fun e he F hF m hm => ?_⟩
  rw [← preMem_eq hB hm]
  exact h e (by intro p hp; simp only [List.mem_singleton] at hp; subst hp; exact he) F hF m

/-- **The text of the post-processing** (`template_post_processing.c.tpl`, rendered) is a C program that, run where the two
constants have their values, does to the memory exactly what `Gen.postCode` does. -/
theorem post_renders (L : Lib K) (n : Nat) (C : NormConsts K) :
    ∃ s, code Tpl.post_processing (normPostHash n) = some s ∧ ∃ F₀, ∀ e, IsInt e (.k, none) →
      e (.other (chars! "output_range"), none) = some (.flt C.outputRange) → e (.other (chars! "output_mean"), none) = some (.flt C.outputMean) →
      ∀ F, F₀ ≤ F → ∀ m,
      match postCode n C m with
      | none => s.run (std L ints) F e m = none
      | some (_, m') => ∃ e', Agree [(.k, none)] e' e ∧ s.run (std L ints) F e m = some (e', m') := by
  refine ⟨_, post_code n, n + 1, fun e hk hr hm F hF m => ?_⟩
  have hsim : Sim (std L ints) F [(.k, none)] [(.k, none)] e (normPostAst n) (postCode n C) (fun _ => e) := by
    refine Sim.for' (by simp) (by simp) (by omega) hk rfl fun k hkn => ?_
    have hx : ∀ y ∈ ([((.k, none) : Ident)].filter (· ≠ (.k, none))), False := by simp
    have hv : ∀ (ex : Expr K), ∀ y ∈ ex.vars, y ∉ ([((.k, none) : Ident)].filter (· ≠ (.k, none))) := fun _ y _ h => hx y h
    have h0 : (std L ints).buf false (.prediction, none) = some .pred := rfl
    refine (Sim.store (za := k) (q := load .pred (k : Int) >>= fun y => ret (y * C.outputRange + C.outputMean)) h0 (hv _) (hv _) (by ceval) ?_).congr ?_
    · ceval [h0, hr, hm]
    · simp only [bind_eq, andThen_assoc, ret_andThen]
  have := hsim e (Agree.refl _ _) m
  cases hp : postCode n C m with
  | none => rw [hp] at this; exact this
  | some r => rw [hp] at this; exact this

/-- **C46, on the text.** With the constants that `Normalizer` writes in its arrays, the rendered text of the pre-processing
normalises the input like `Normalizer.pre_processing`, and changes no other array. -/
theorem C46_pre_text (L : Lib K) {B : CstBufs} (hB : B.Apart) (N : Normalizer K) (hN : N.WellFormed) (C : NormConsts K) (hC : N.consts = some C)
    (x : List K) (hx : x.length = N.inputSize) (m : Mem K) (hm : Holds m .input x) (hc : HoldsCst B N.inputSize C m) :
    ∃ s m' ys, code Tpl.pre_processing (normPreHash N.inputSize) = some s ∧ N.preProcessing N.inputSize x = some ys ∧
      (∃ F₀, ∀ e, IsInt e (.i, none) → ∀ F, F₀ ≤ F → ∃ e', Agree [(.i, none)] e' e ∧ s.run (stdCst L ints B) F e m = some (e', m')) ∧
      Holds m' .input ys ∧ OnlyChanges [.input] m m' := by
  obtain ⟨C', m', ys, h1, h2, h3, h4, h5, -⟩ := C46_pre N hN x hx m hm
  obtain rfl : C = C' := by rw [hC] at h1; exact Option.some.inj h1
  obtain ⟨s, hs, F₀, h⟩ := pre_renders (ints := ints) L N.inputSize hB C
  refine ⟨s, m', ys, hs, h3, ⟨F₀, fun e he F hF => ?_⟩, h4, h5⟩
  have := h e he F hF m hc
  rw [h2] at this
  exact this

/-- **C46, on the text**, for the outputs: `Normalizer.post_processing`. -/
theorem C46_post_text (L : Lib K) (N : Normalizer K) (hN : N.WellFormed) (C : NormConsts K) (hC : N.consts = some C)
    (y : List K) (hy : y.length = N.outputSize) (m : Mem K) (hm : Holds m .pred y) (range mean : K)
    (hrange : N.ranges.getLast? = some range) (hmean : N.means.getLast? = some mean) :
    ∃ s m' ys, code Tpl.post_processing (normPostHash N.outputSize) = some s ∧ N.postProcessing y = some ys ∧
      (∃ F₀, ∀ e, IsInt e (.k, none) → e (.other (chars! "output_range"), none) = some (.flt range) →
        e (.other (chars! "output_mean"), none) = some (.flt mean) → ∀ F, F₀ ≤ F →
        ∃ e', Agree [(.k, none)] e' e ∧ s.run (std L ints) F e m = some (e', m')) ∧
      Holds m' .pred ys ∧ OnlyChanges [.pred] m m' := by
  obtain ⟨C', m', h1, h2, h3, h4, h5⟩ := C46_post N hN y hy m hm range mean hrange hmean
  obtain rfl : C = C' := by rw [hC] at h1; exact Option.some.inj h1
  obtain ⟨D, hD, -, d1, d2⟩ := consts_eq N hN
  obtain rfl : C = D := by rw [hC] at hD; exact Option.some.inj hD
  rw [hmean, Option.some.injEq] at d1
  rw [hrange, Option.some.injEq] at d2
  obtain ⟨s, hs, F₀, h⟩ := post_renders (ints := ints) L N.outputSize C
  refine ⟨s, m', _, hs, h3, ⟨F₀, fun e he hr hme F hF => ?_⟩, h4, h5⟩
  have := h e he (by rw [hr, d2]) (by rw [hme, d1]) F hF m
  rw [h2] at this
  exact this

/-! ### A case that meets the hypotheses -/

/-- arrays apart from the input -/
def exBufs : CstBufs := ⟨.cst 0, .cst 1, .cst 2, .cst 3⟩

example : exBufs.Apart := ⟨by decide, by decide, by decide, by decide⟩

/-- the constants of `exNormalizer` in memory, and an input -/
def exCstMem : Mem ℚ where
  size := fun _ => 2
  val := fun b i => match b, i with
    | .cst 0, 0 => 0 | .cst 0, 1 => -1
    | .cst 1, _ => 1
    | .cst 2, 0 => 0 | .cst 2, 1 => 1
    | .cst 3, 0 => 1 | .cst 3, 1 => 2
    | .input, 0 => 5 | .input, 1 => 0
    | _, _ => 0

example : ∃ C, exNormalizer.consts = some C ∧ HoldsCst exBufs 2 C exCstMem ∧ Holds exCstMem .input [5, 0] ∧
    exNormalizer.preProcessing 2 [5, 0] = some [1, -1/2] := by
  refine ⟨_, rfl, ⟨?_, ?_, ?_, ?_⟩, ⟨by decide, ?_⟩, by decide +kernel⟩
  all_goals
    intro i hi
    rcases i with _ | _ | i
    all_goals first | (exfalso; simp at hi; done) | exact ⟨by decide, by decide +kernel⟩ | rfl | (revert hi; decide +kernel)

end Verif.CText

import Verif.Opt.Interp
import Verif.Opt.RealSem
import Verif.Opt.Examples

/-!
# C34, C35, C36: the optimisation pass as a whole

`Graph.interp` and `Graph.inference` are the reference interpreter and the generated function of the network as
loaded; `Net.interp` and `Net.inference` those of the network after the pass.
-/

namespace Verif.Opt
open Verif.Graph
variable {P T α : Type}

section
variable {dnn : Dnn} {plan : Plan} {cls : Nat → Cls} {fn : Nat → Fn} {fold : P → P → P} {S : Sem P T}

/-- The pass always finishes and never raises an exception, when no activation layer follows a layer that does not
apply the activation function it carries. -/
theorem C35_optimise_finishes (hS : SemOK fold S) (I : Imported dnn cls fn) (h : triTopo dnn = some plan)
    (par : Nat → P) (hk : Keeps S (load dnn plan cls fn par)) :
    ∃ net', optimise fold (load dnn plan cls fn par) = .done net' := by
  unfold optimise
  cases hr : matchLoop fold (((load dnn plan cls fn par).layers.length + 1) *
      ((load dnn plan cls fn par).layers.length + 1) + 1) (load dnn plan cls fn par) 0 with
  | done net' => exact ⟨net', rfl⟩
  | raised =>
    exact absurd hr (matchLoop_not_raised hS _ _ _ (load_inv I h par S hk) (load_sourced I h par))
  | timeout =>
    refine absurd hr (matchLoop_terminates (load dnn plan cls fn par).layers.length _ _ _ (Nat.le_refl _) ?_)
    generalize (load dnn plan cls fn par).layers.length = n
    simp only [Nat.add_mul, Nat.mul_add]; omega

theorem load_last (h : triTopo dnn = some plan) : ∃ n, plan.order.getLast? = some n := by
  obtain ⟨f⟩ := facts h
  cases hd : plan.order.getLast? with
  | none =>
    have : plan.order = [] := List.getLast?_eq_none_iff.1 hd
    have hm := f.hmove
    rw [this] at hm
    unfold moveConsts at hm
    split at hm <;> simp at hm
  | some n => exact ⟨n, rfl⟩

theorem load_interp (I : Imported dnn cls fn) (h : triTopo dnn = some plan) (par : Nat → P) (x : T) {v : Nat → T}
    (hv : (load dnn plan cls fn par).IsVal S x v) :
    Graph.interp dnn.prevOf dnn.nextOf ((load dnn plan cls fn par).eval S) plan.order x = plan.order.getLast?.map v := by
  rw [← interp_load, interp_correct (load_wf I h par) (by intro o _ q _ e; exact e) S hv]
  rfl

/-- The pass preserves what the network computes: every layer `o` of the optimised network computes, on every input,
the tensor that the layer `σ o` of the original network computes, for every meaning of the layers in which a batch
normalisation folds into a convolution and `x * sigmoid(x)` is `silu(x)`.  The layers without consumer, and the last
one, are still there. -/
theorem C35_optimise_preserves_layers_partial (hS : SemOK fold S) (I : Imported dnn cls fn)
    (h : triTopo dnn = some plan) (par : Nat → P) (hk : Keeps S (load dnn plan cls fn par)) {net' : Net P}
    (hr : optimise fold (load dnn plan cls fn par) = .done net') :
    ∃ σ : Nat → Nat, (∀ o ∈ net'.layers, σ o ∈ plan.order) ∧
      (∀ x v w, (load dnn plan cls fn par).IsVal S x v → net'.IsVal S x w → ∀ o ∈ net'.layers, w o = v (σ o)) ∧
      (∀ c ∈ plan.order, dnn.nextOf c = [] → ∃ o ∈ net'.layers, net'.next o = [] ∧ σ o = c) ∧
      (∀ l l', plan.order.getLast? = some l → net'.layers.getLast? = some l' → σ l' = l) := by
  obtain ⟨⟨j, I'⟩, σ, R⟩ := matchLoop_inv hS _ _ _ _ (load_inv I h par S hk) hr
  refine ⟨σ, R.mem, ?_, R.outs, R.last⟩
  intro x v w hv hw o ho
  rw [isVal_unique I'.wf hw (R.val x v hv) o ho]; rfl

/-- The output of the optimised network is the output of the original one, as computed by the reference
interpreter. -/
theorem C35_optimise_preserves_output_partial [Inhabited T] (hS : SemOK fold S) (I : Imported dnn cls fn)
    (h : triTopo dnn = some plan) (par : Nat → P) (hk : Keeps S (load dnn plan cls fn par)) {net' : Net P}
    (hr : optimise fold (load dnn plan cls fn par) = .done net') (x : T) :
    ∃ y w l, Graph.interp dnn.prevOf dnn.nextOf ((load dnn plan cls fn par).eval S) plan.order x = some y ∧
      net'.layers.getLast? = some l ∧ net'.IsVal S x w ∧ w l = y ∧
      ∀ w', net'.IsVal S x w' → w' l = y := by
  obtain ⟨v, hv⟩ := exists_valuation (fwd := (load dnn plan cls fn par).eval S) (x := x) (plan_sorted h)
  have hv' : (load dnn plan cls fn par).IsVal S x v := hv
  have hin := load_interp I h par x hv'
  obtain ⟨n, hn⟩ := load_last h
  obtain ⟨⟨j, I'⟩, σ, R⟩ := matchLoop_inv hS _ _ _ _ (load_inv I h par S hk) hr
  have hw := R.val x v hv'
  have hne : net'.layers ≠ [] := matchLoop_nonempty hS _ _ _ _ (load_inv I h par S hk) (by
    intro e; change plan.order = [] at e; rw [e] at hn; simp at hn) hr
  obtain ⟨l, hl'⟩ : ∃ l, net'.layers.getLast? = some l := by
    cases hx : net'.layers.getLast? with
    | none => exact absurd (List.getLast?_eq_none_iff.1 hx) hne
    | some l => exact ⟨l, rfl⟩
  have e := R.last n l hn hl'
  refine ⟨v n, _, l, by rw [hin, hn]; rfl, hl', hw, by rw [Function.comp_apply, e], ?_⟩
  intro w' hw'
  rw [isVal_unique I'.wf hw' hw l (List.mem_of_getLast? hl'), Function.comp_apply, e]

/-- With consecutive numbers (`Orderly`) the numbers of the optimised network are distinct, so its parameter arrays
have distinct names; every layer with several consumers has its saved copy, and consumers read a layer's output
where the generated code puts it. -/
theorem C36_indices_partial (hS : SemOK fold S) (I : Imported dnn cls fn) (h : triTopo dnn = some plan)
    (par : Nat → P) (hk : Keeps S (load dnn plan cls fn par)) (O : Orderly (load dnn plan cls fn par)) {net' : Net P}
    (hr : optimise fold (load dnn plan cls fn par) = .done net') :
    (net'.layers.map net'.num).Nodup ∧
    (∀ k, net'.dict k ≠ none → ∃ o ∈ net'.layers, net'.num o = k) ∧
    ∀ o ∈ net'.layers,
      (net'.next o ≠ [] → net'.outS o = .out (net'.path o) ∨
        ∃ k, net'.dict (net'.num o) = some k ∧ net'.outS o = .cst k) ∧
      (2 ≤ (net'.next o).length → ∃ k, net'.dict (net'.num o) = some k ∧ net'.outS o = .cst k) := by
  have I0 := load_inv I h par S hk
  have X := matchLoop_safe hS _ _ _ _ I0 (load_safe I h par O) hr
  obtain ⟨⟨j, I'⟩, -⟩ := matchLoop_inv hS _ _ _ _ I0 hr
  refine ⟨?_, X.keyed.keys, fun o ho => ⟨X.own o ho, X.multi o ho⟩⟩
  rw [List.nodup_map_iff_inj_on I'.wf.nodup]
  exact fun o ho q hq e => X.keyed.inj o ho q hq e

/-- If moreover the imported layers are numbered `0, 1, …`, so are the layers of the optimised network. -/
theorem C36_consecutive_partial (hS : SemOK fold S) (I : Imported dnn cls fn) (h : triTopo dnn = some plan)
    (par : Nat → P) (hk : Keeps S (load dnn plan cls fn par)) (O : Orderly (load dnn plan cls fn par))
    (hd : dnn.idxs.Perm (List.range dnn.length)) {net' : Net P}
    (hr : optimise fold (load dnn plan cls fn par) = .done net') :
    (net'.layers.map net'.num).Perm (List.range net'.layers.length) := by
  have I0 := load_inv I h par S hk
  have hperm := plan_perm I.unique I.consistent h
  have D : Dense (load dnn plan cls fn par) := by
    intro o ho
    have := (hperm.trans hd).mem_iff.1 ho
    have hl : plan.order.length = dnn.length := by rw [(hperm.trans hd).length_eq]; simp
    change o < plan.order.length
    rw [hl]; simpa using this
  have D' := matchLoop_dense hS _ _ _ _ I0 (load_safe I h par O) D hr
  obtain ⟨hn, -⟩ := C36_indices_partial hS I h par hk O hr
  refine List.Subperm.perm_of_length_le (List.subperm_of_subset hn ?_) (by simp)
  intro i hi
  obtain ⟨o, ho, rfl⟩ := List.mem_map.1 hi
  simpa using D' o ho

/-- With consecutive numbers, the Python reference run on the optimised network returns the output of the original
network. -/
theorem C36_interp_partial [Inhabited T] (hS : SemOK fold S) (I : Imported dnn cls fn) (h : triTopo dnn = some plan)
    (par : Nat → P) (hk : Keeps S (load dnn plan cls fn par)) (O : Orderly (load dnn plan cls fn par)) {net' : Net P}
    (hr : optimise fold (load dnn plan cls fn par) = .done net') (x : T) :
    ∃ y, Graph.interp dnn.prevOf dnn.nextOf ((load dnn plan cls fn par).eval S) plan.order x = some y ∧
      net'.interp S x = some y := by
  have I0 := load_inv I h par S hk
  have X := matchLoop_safe hS _ _ _ _ I0 (load_safe I h par O) hr
  obtain ⟨⟨j, I'⟩, -⟩ := matchLoop_inv hS _ _ _ _ I0 hr
  obtain ⟨y, w, l, hy, hl, hw, e, -⟩ := C35_optimise_preserves_output_partial hS I h par hk hr x
  exact ⟨y, hy, by rw [interp_correct I'.wf X.keyed.inj S hw, hl]; simp [e]⟩

/-- With consecutive numbers, the C program generated for the optimised network runs without out-of-bounds access
and leaves the output of the original network in `prediction`, if the code of each optimised layer computes its
function (`CodeOK`; what the theorems on the layers prove) and the arrays are large enough. -/
theorem C36_optimised_code_partial [Inhabited T] (hS : SemOK fold S) (I : Imported dnn cls fn)
    (h : triTopo dnn = some plan)
    (par : Nat → P) (hk : Keeps S (load dnn plan cls fn par)) (O : Orderly (load dnn plan cls fn par)) {net' : Net P}
    (hr : optimise fold (load dnn plan cls fn par) = .done net')
    (enc : T → List α) (code : Nat → List Buf → Buf → Prog α Unit) (size : Nat → Nat) (x : T) (m : Mem α)
    (hcode : ∀ o ∈ net'.layers, CodeOK net' S enc code m size x o)
    (hsz : ∀ w, net'.IsVal S x w → ∀ o ∈ net'.layers, (enc (w o)).length = size o)
    (hcs : ∀ o ∈ net'.layers, ∀ k, net'.dict (net'.num o) = some k → size o ≤ m.size (.cst k))
    (hpred : ∀ l, net'.layers.getLast? = some l → size l ≤ m.size .pred) :
    ∃ y m', Graph.interp dnn.prevOf dnn.nextOf ((load dnn plan cls fn par).eval S) plan.order x = some y ∧
      net'.inference size code m = some ((), m') ∧ Holds m' .pred (enc y) := by
  have I0 := load_inv I h par S hk
  have X := matchLoop_safe hS _ _ _ _ I0 (load_safe I h par O) hr
  obtain ⟨⟨j, I'⟩, -⟩ := matchLoop_inv hS _ _ _ _ I0 hr
  obtain ⟨y, w, l, hy, hl, hw, e, -⟩ := C35_optimise_preserves_output_partial hS I h par hk hr x
  obtain ⟨m', e1, e2⟩ := inference_correct I'.wf X hw (fun o ho m1 => hcode o ho m1 w) (hsz w hw) hcs hl (hpred l hl)
  exact ⟨y, m', hy, e1, by rw [← e]; exact e2⟩

end

/-! ### Hypotheses that can be met -/

private def L (i : Nat) (p n : List Nat) : Layer := ⟨i, p, n, false⟩

/-- input, convolution, batch normalisation, activation, convolution, `Multiply(Sigmoid(x), x)`, another layer -/
def goodDnn : Dnn := [L 0 [] [1], L 1 [0] [2], L 2 [1] [3], L 3 [2] [4], L 4 [3] [5, 6], L 5 [4] [6],
  L 6 [5, 4] [7], L 7 [6] []]
def goodCls : Nat → Cls := clsOf [.input, .conv, .batchNorm, .activation, .conv, .activation, .multiply, .other 2]
def goodFn : Nat → Fn := fnOf [.linear, .linear, .linear, .other 0, .linear, .sigmoid]
def goodPlan : Plan := (triTopo goodDnn).get (by decide)
def goodNet : Net Nat := load goodDnn goodPlan goodCls goodFn id

theorem good_imported : Imported goodDnn goodCls goodFn :=
  ⟨by decide, by decide, by decide, by decide, sorted_of_check (by decide), by decide, by decide, by decide,
    by decide, by decide⟩

theorem good_plan : triTopo goodDnn = some goodPlan := (Option.some_get _).symm

/-- Everything the theorems above ask for holds of this network: the pass fuses it to four layers, and the Python
reference and the C program of the optimised network give its output. -/
example : ∃ net', optimise (· + ·) goodNet = .done net' ∧ net'.layers.map net'.num = [0, 1, 2, 3] ∧
    ∀ x, ∃ y m', Graph.interp goodDnn.prevOf goodDnn.nextOf (goodNet.eval exSem) goodPlan.order x = some y ∧
      net'.interp exSem x = some y ∧
      net'.inference (fun _ => 1) (cellCode net') ⟨fun _ => 1, fun _ _ => x⟩ = some ((), m') ∧ Holds m' .pred [y] := by
  have hk : Keeps exSem goodNet := by decide
  have hO : Orderly goodNet := orderly_of_check (by decide)
  obtain ⟨net', hr⟩ := C35_optimise_finishes exSem_ok good_imported good_plan id hk
  have hshow : (optimise (· + ·) goodNet).show (fun n => n.layers.map n.num) = some [0, 1, 2, 3] := by decide +kernel
  refine ⟨net', hr, ?_, ?_⟩
  · unfold goodNet at hshow
    rw [hr] at hshow
    simpa [Res.show] using hshow
  · intro x
    obtain ⟨y, h1, h2⟩ := C36_interp_partial exSem_ok good_imported good_plan id hk hO hr x
    obtain ⟨y', m', h1', h3, h4⟩ := C36_optimised_code_partial exSem_ok good_imported good_plan id hk hO hr
      (fun y => [y]) (cellCode net') (fun _ => 1) x ⟨fun _ => 1, fun _ _ => x⟩
      (fun o _ => cellCode_ok net' x o) (by intros; rfl) (by intros; exact Nat.le_refl 1)
      (by intros; exact Nat.le_refl 1)
    have hyy : y = y' := Option.some.inj (h1.symm.trans h1')
    subst hyy
    exact ⟨y, m', h1, h2, h3, h4⟩

/-- The meaning of the layers over the reals is one of those the theorems are about. -/
example (g : Nat → ℝ → ℝ) (other : Cls → RPar → List (Option Ten) → Option Ten) (applies : Cls → Bool) :
    SemOK rfold (realSem g other applies) := realSem_ok g other applies

/-! ### The properties for every network, and why they fail -/

/-- C35 for every imported network. -/
def C35_statement : Prop :=
  ∀ (dnn : Dnn) (plan : Plan) (cls : Nat → Cls) (fn : Nat → Fn), Imported dnn cls fn → triTopo dnn = some plan →
    ∃ net', optimise (· + ·) (load dnn plan cls fn id) = .done net' ∧
      ∀ x, net'.layers.getLast?.isSome ∧ ∀ w l, net'.IsVal exSem x w → net'.layers.getLast? = some l →
        Graph.interp dnn.prevOf dnn.nextOf ((load dnn plan cls fn id).eval exSem) plan.order x = some (w l)

def flatDnn : Dnn := [L 0 [] [1], L 1 [0] [2], L 2 [1] []]
def flatPlan : Plan := (triTopo flatDnn).get (by decide)
def flatCls : Nat → Cls := clsOf [.input, .flatten, .activation]
def flatFn : Nat → Fn := fnOf [.linear, .linear, .other 0]

/-- An activation layer after a `Flatten` layer is fused into it although `Flatten` does not apply it: the
optimised network returns the `Flatten`'s result. -/
theorem C35_fails_flatten : ¬ C35_statement := by
  intro H
  obtain ⟨net', hr, hx⟩ := H flatDnn flatPlan flatCls flatFn
    ⟨by decide, by decide, by decide, by decide, sorted_of_check (by decide), by decide, by decide, by decide,
      by decide, by decide⟩ (Option.some_get _).symm
  have h1 : (optimise (· + ·) (load flatDnn flatPlan flatCls flatFn id)).show (fun n =>
      (n.layers, n.layers.map (fun o => (n.cls o, n.prev o)))) =
      some ([0, 1], [(.input, []), (.flatten, [0])]) := by decide +kernel
  rw [hr] at h1
  simp only [Res.show, Option.some.injEq, Prod.mk.injEq] at h1
  obtain ⟨hl, hc⟩ := h1
  rw [hl] at hc
  simp only [List.map_cons, List.map_nil, List.cons.injEq, Prod.mk.injEq, and_true] at hc
  obtain ⟨⟨c0, p0⟩, c1, p1⟩ := hc
  obtain ⟨-, h2⟩ := hx 1
  have h3 := h2 (fun _ => 1) 1 (by
    intro o ho
    rw [hl] at ho
    simp at ho
    rcases ho with rfl | rfl
    · simp [Net.eval, c0, exSem, argsOf, p0]
    · simp [Net.eval, c1, exSem, argsOf, p1]) (by rw [hl]; rfl)
  revert h3
  decide +kernel

def headDnn : Dnn := [L 0 [] [1], L 1 [0] []]
def headPlan : Plan := (triTopo headDnn).get (by decide)

/-- An activation layer directly after the first layer makes the pass raise `ValueError` (`update_indices` is
called on the first position). -/
theorem C35_fails_first :
    ∃ (dnn : Dnn) (plan : Plan) (cls : Nat → Cls) (fn : Nat → Fn), Imported dnn cls fn ∧ triTopo dnn = some plan ∧
      (match optimise (· + ·) (load dnn plan cls fn id) with
        | .raised => True
        | _ => False) :=
  ⟨headDnn, headPlan, clsOf [.input, .activation], fnOf [.linear, .other 0],
    ⟨by decide, by decide, by decide, by decide, sorted_of_check (by decide), by decide, by decide, by decide,
      by decide, by decide⟩, (Option.some_get _).symm, by
    have : (match optimise (· + ·) (load headDnn headPlan (clsOf [.input, .activation])
        (fnOf [.linear, .other 0]) id) with | .raised => true | _ => false) = true := by decide +kernel
    revert this
    split <;> simp⟩

/-- C36 for every imported network in which no activation is lost: distinct indices, and the Python reference and
the C program of the optimised network return the output of the original one. -/
def C36_statement (claim : Dnn → Plan → Net Nat → Net Nat → Prop) : Prop :=
  ∀ (dnn : Dnn) (plan : Plan) (cls : Nat → Cls) (fn : Nat → Fn), Imported dnn cls fn → triTopo dnn = some plan →
    Keeps exSem (load dnn plan cls fn id) →
    ∀ net', optimise (· + ·) (load dnn plan cls fn id) = .done net' → claim dnn plan (load dnn plan cls fn id) net'

def collideDnn : Dnn := [L 0 [] [1, 2], L 1 [0] [3], L 2 [0] [4], L 3 [1] [5], L 4 [2] [5], L 5 [3, 4] []]
def collidePlan : Plan := (triTopo collideDnn).get (by decide)
def collideCls : Nat → Cls := clsOf [.input, .conv, .conv, .conv, .activation, .add]
def collideFn : Nat → Fn := fnOf [.linear, .linear, .linear, .linear, .other 0]

/-- Two parallel branches `0 → 1 → 3`, `0 → 2 → 4`: fusing the activation layer 4 into the convolution 2 turns the
index of the convolution 3 into 2.  Two convolutions then have the index 2, so the same parameter arrays
`weights_Conv2D_2`, and the Python reference on the optimised network fails. -/
theorem C36_fails_collision :
    ¬ C36_statement (fun _ _ _ net' => (net'.layers.map net'.num).Nodup) ∧
    ¬ C36_statement (fun dnn plan net net' => ∀ x,
      net'.interp exSem x = Graph.interp dnn.prevOf dnn.nextOf (net.eval exSem) plan.order x) := by
  have I : Imported collideDnn collideCls collideFn :=
    ⟨by decide, by decide, by decide, by decide, sorted_of_check (by decide), by decide, by decide, by decide,
      by decide, by decide⟩
  have hp : triTopo collideDnn = some collidePlan := (Option.some_get _).symm
  have hk : Keeps exSem (load collideDnn collidePlan collideCls collideFn id) := by decide
  obtain ⟨net', hr⟩ := C35_optimise_finishes exSem_ok I hp id hk
  have h1 : (optimise (· + ·) (load collideDnn collidePlan collideCls collideFn id)).show (fun n =>
      (n.layers.map n.num, n.interp exSem 5)) = some ([0, 2, 1, 2, 4], none) := by decide +kernel
  rw [hr] at h1
  simp only [Res.show, Option.some.injEq, Prod.mk.injEq] at h1
  constructor
  · intro H
    have := H _ _ _ _ I hp hk net' hr
    dsimp only at this
    rw [h1.1] at this
    revert this; decide
  · intro H
    have := H _ _ _ _ I hp hk net' hr 5
    rw [h1.2] at this
    revert this; decide +kernel

def dictDnn : Dnn := [L 0 [] [1], L 1 [0] [2], L 2 [1] [3, 4], L 3 [2] [5, 7], L 4 [2] [6, 8], L 5 [3] [9],
  L 6 [4] [9], L 7 [3] [9], L 8 [4] [9], L 9 [5, 6, 7, 8] []]
def dictPlan : Plan := (triTopo dictDnn).get (by decide)
def dictCls : Nat → Cls := clsOf [.input, .conv, .activation, .other 0, .other 0, .other 0, .other 0, .other 0,
  .other 0, .add]
def dictFn : Nat → Fn := fnOf [.linear, .linear, .other 0]

/-- Consecutive indices are not enough: here the layers 3 and 4, both with two consumers, run in the order 4, 3.
Fusing the activation layer 2 into the convolution 1 renumbers 4 to 3 first, which overwrites the entry of 3 in
`dict_cst`; then 3 to 2 takes that entry away.  The former layer 4 has no saved copy any more, its consumers read an
array `cst` that holds something else, and the C program returns a wrong result. -/
theorem C36_fails_dict :
    ¬ C36_statement (fun _ _ _ net' => ∀ o ∈ net'.layers, 2 ≤ (net'.next o).length →
      (net'.dict (net'.num o)).isSome) ∧
    ¬ C36_statement (fun dnn plan net net' => ∀ x, ∃ y m',
      Graph.interp dnn.prevOf dnn.nextOf (net.eval exSem) plan.order x = some y ∧
      net'.inference (fun _ => 1) (cellCode net') ⟨fun _ => 1, fun _ _ => x⟩ = some ((), m') ∧
      Holds m' .pred [y]) := by
  have I : Imported dictDnn dictCls dictFn :=
    ⟨by decide, by decide, by decide, by decide, sorted_of_check (by decide), by decide, by decide, by decide,
      by decide, by decide⟩
  have hp : triTopo dictDnn = some dictPlan := (Option.some_get _).symm
  have hk : Keeps exSem (load dictDnn dictPlan dictCls dictFn id) := by decide
  obtain ⟨net', hr⟩ := C35_optimise_finishes exSem_ok I hp id hk
  have h1 : (optimise (· + ·) (load dictDnn dictPlan dictCls dictFn id)).show (fun n =>
      (decide (4 ∈ n.layers), (n.next 4).length, n.dict (n.num 4),
        (n.inference (fun _ => 1) (cellCode n) ⟨fun _ => 1, fun _ _ => 5⟩).map fun r => r.2.val .pred 0)) =
      some (true, 2, none, some 118) := by decide +kernel
  rw [hr] at h1
  simp only [Res.show, Option.some.injEq, Prod.mk.injEq, decide_eq_true_eq] at h1
  obtain ⟨h1, h2, h3, h4⟩ := h1
  constructor
  · intro H
    have := H _ _ _ _ I hp hk net' hr 4 h1 (by omega)
    rw [h3] at this; simp at this
  · intro H
    obtain ⟨y, m', e1, e2, e3⟩ := H _ _ _ _ I hp hk net' hr 5
    rw [e2] at h4
    simp only [Option.map_some, Option.some.injEq] at h4
    have h5 := e3.2 0 (by simp)
    rw [h4] at h5
    simp only [List.getElem_cons_zero] at h5
    subst h5
    revert e1; decide +kernel

def mulDnn : Dnn := [L 0 [] [1], L 1 [0] [2, 3], L 2 [1] [3], L 3 [1, 2] [4], L 4 [3] []]
def mulPlan : Plan := (triTopo mulDnn).get (by decide)
def mulCls : Nat → Cls := clsOf [.input, .conv, .activation, .multiply, .other 0]
def mulFn : Nat → Fn := fnOf [.linear, .linear, .sigmoid]

/-- `Multiply(x, Sigmoid(x))` with one consumer, in this order of the arguments: the product was in the buffer of
the `Sigmoid`, the layer that computes it after the pass writes to the buffer of `x`, and the consumer still reads the
former: the C program returns a wrong result, although the Python reference is right. -/
theorem C34_fails_buffer :
    ¬ C36_statement (fun dnn plan net net' => ∀ x, ∃ y m',
      Graph.interp dnn.prevOf dnn.nextOf (net.eval exSem) plan.order x = some y ∧
      net'.interp exSem x = some y ∧
      net'.inference (fun _ => 1) (cellCode net') ⟨fun _ => 1, fun _ _ => x⟩ = some ((), m') ∧
      Holds m' .pred [y]) := by
  have I : Imported mulDnn mulCls mulFn :=
    ⟨by decide, by decide, by decide, by decide, sorted_of_check (by decide), by decide, by decide, by decide,
      by decide, by decide⟩
  have hp : triTopo mulDnn = some mulPlan := (Option.some_get _).symm
  have hk : Keeps exSem (load mulDnn mulPlan mulCls mulFn id) := by decide
  obtain ⟨net', hr⟩ := C35_optimise_finishes exSem_ok I hp id hk
  have h1 : (optimise (· + ·) (load mulDnn mulPlan mulCls mulFn id)).show (fun n =>
      (n.interp exSem 5,
        (n.inference (fun _ => 1) (cellCode n) ⟨fun _ => 1, fun _ _ => 5⟩).map fun r => r.2.val .pred 0)) =
      some (some 88, some 14) := by decide +kernel
  rw [hr] at h1
  simp only [Res.show, Option.some.injEq, Prod.mk.injEq] at h1
  intro H
  obtain ⟨y, m', e1, e2, e3, e4⟩ := H _ _ _ _ I hp hk net' hr 5
  rw [e2, e3] at h1
  simp only [Option.map_some, Option.some.injEq] at h1
  have h5 := e4.2 0 (by simp)
  rw [h1.2] at h5
  simp only [List.getElem_cons_zero] at h5
  omega

end Verif.Opt

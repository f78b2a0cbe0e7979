import Verif.Opt.Inv
import Mathlib.Tactic.Ring
import Mathlib.Tactic.Linarith

/-! # The whole pass: invariants and termination -/

namespace Verif.Opt
variable {P T : Type}

/-- What the pass expects of the layers' functions: the linear activation is the identity, an
activation layer applies its activation function to its input, folding a batch normalisation into a
convolution and replacing `x * sigmoid(x)` by `silu(x)` are equivalences. -/
structure SemOK (fold : P → P → P) (S : Sem P T) : Prop where
  linear : ∀ x, S.den .linear x = x
  act : ∀ p x, S.op .activation p [x] = x
  appAct : S.applies .activation = true
  appConv : S.applies .conv = true
  appBN : S.applies .batchNorm = true
  appMul : S.applies .multiply = true
  notInput : S.applies .input = false
  notConst : S.applies .constant = false
  convBN : ∀ pc pb xs, S.op .batchNorm pb [S.op .conv pc xs] = S.op .conv (fold pc pb) xs
  silu : ∀ p x, S.op .multiply p [x, S.den .sigmoid x] = S.den .silu x
  silu' : ∀ p x, S.op .multiply p [S.den .sigmoid x, x] = S.den .silu x

structure Inv (S : Sem P T) (net : Net P) (i : Nat) : Prop where
  wf : WF net
  pairs : Pairs net
  triples : Triples net
  quiet : Quiet net i
  mulLin : MulLin net
  keeps : Keeps S net

theorem inner_of_applies {fold : P → P → P} {S : Sem P T} (hS : SemOK fold S) {net : Net P} {p : Nat}
    (h : S.applies (net.cls p) = true) : Inner net p := by
  constructor <;> intro hc <;> rw [hc] at h
  · rw [hS.notInput] at h; cases h
  · rw [hS.notConst] at h; cases h

/-- one iteration of the loop of the pass -/
inductive Step (fold : P → P → P) (net : Net P) (i o : Nat) : Net P → Nat → Prop
  | skip : ¬ isFuseAct net o → ¬ isConvBN net o → ¬ isSilu net o → Step fold net i o net i
  | act {net' i' p} : Fused net net' net.par p o i i' → net.cls o = .activation → net.cls p ≠ .activation →
      Step fold net i o net' i'
  | bn {net' i' p} : Fused net net' (Function.update net.par p (fold (net.par p) (net.par o))) p o i i' →
      net.cls o = .batchNorm → net.cls p = .conv → Step fold net i o net' i'
  | silu {net' i' q m} : Silued net net' q o m i i' → Step fold net i o net' i'

theorem step_of_patterns {fold : P → P → P} {net net' : Net P} {i i' o : Nat} (wf : WF net) (hP : Pairs net)
    (ho : net.layers[i]? = some o) (h : patterns fold o (net, i) = some (net', i')) :
    Step fold net i o net' i' := by
  have hom := mem_of_pos ho
  unfold patterns at h
  rw [Option.bind_eq_some_iff] at h
  obtain ⟨⟨n1, i1⟩, h1, h⟩ := h
  rw [Option.bind_eq_some_iff] at h
  obtain ⟨⟨n2, i2⟩, h2, h⟩ := h
  rw [Option.bind_eq_some_iff] at h
  obtain ⟨⟨n3, i3⟩, h3, h4⟩ := h
  unfold tryPattern at h1 h2 h3 h4
  by_cases c1 : isFuseAct net o
  · simp only [c1, if_true] at h1
    obtain ⟨p, F, ca, cp⟩ := applyFuseAct_eq wf ho c1 h1
    have FF := F.facts wf
    have e2 : ¬ isConvBN n1 o := by
      rintro ⟨hc, _⟩; rw [FF.cls, ca] at hc; cases hc
    have e3 : ¬ isMatMulAdd n1 o := by
      rintro ⟨hc, _⟩; rw [FF.cls, ca] at hc; cases hc
    have e4 : ¬ isSilu n1 o := by
      rintro ⟨hc, hf, q, hp, hl, _⟩
      rw [FF.prev o hom, F.hp] at hp
      have hpo : p ≠ o := FF.ne
      simp [ren, hpo] at hp
      subst hp
      rw [FF.fn, Function.update_self] at hl
      rw [FF.fn, Function.update_of_ne hpo.symm] at hf
      rw [hl] at hf; cases hf
    simp only [e2, if_false, Option.some.injEq, Prod.mk.injEq] at h2
    obtain ⟨rfl, rfl⟩ := h2
    simp only [e3, if_false, Option.some.injEq, Prod.mk.injEq] at h3
    obtain ⟨rfl, rfl⟩ := h3
    simp only [e4, if_false, Option.some.injEq, Prod.mk.injEq] at h4
    obtain ⟨rfl, rfl⟩ := h4
    exact .act F ca cp
  · simp only [c1, if_false, Option.some.injEq, Prod.mk.injEq] at h1
    obtain ⟨rfl, rfl⟩ := h1
    by_cases c2 : isConvBN net o
    · simp only [c2, if_true] at h2
      have hadj : ∀ p ∈ net.prev o, net.layers[i - 1]? = some p := by
        intro p hp
        obtain ⟨_, p', hp', hcp, hlen, _⟩ := c2
        rw [hp'] at hp; simp at hp; subst hp
        have hpm : p ∈ net.prev o := by rw [hp']; simp
        have hn := single_of_length hlen (wf.back o hom p hpm)
        obtain ⟨j, e1, e2⟩ := hP p (wf.prev_mem hom hpm) o (by unfold Inner; rw [hcp]; simp) hn hp'
        have := wf.pos_inj e2 ho
        subst this
        simpa using e1
      obtain ⟨p, F, ca, cp⟩ := applyConvBN_eq wf ho c2 hadj h2
      have FF := F.facts wf
      have e3 : ¬ isMatMulAdd n2 o := by
        rintro ⟨hc, _⟩; rw [FF.cls, ca] at hc; cases hc
      have e4 : ¬ isSilu n2 o := by
        rintro ⟨hc, _⟩; rw [FF.cls, ca] at hc; cases hc
      simp only [e3, if_false, Option.some.injEq, Prod.mk.injEq] at h3
      obtain ⟨rfl, rfl⟩ := h3
      simp only [e4, if_false, Option.some.injEq, Prod.mk.injEq] at h4
      obtain ⟨rfl, rfl⟩ := h4
      exact .bn F ca cp
    · simp only [c2, if_false, Option.some.injEq, Prod.mk.injEq] at h2
      obtain ⟨rfl, rfl⟩ := h2
      have e3 : ¬ isMatMulAdd net o := by
        rintro ⟨hc, hl, _⟩; exact wf.matMul o hom hc hl
      simp only [e3, if_false, Option.some.injEq, Prod.mk.injEq] at h3
      obtain ⟨rfl, rfl⟩ := h3
      by_cases c4 : isSilu net o
      · simp only [c4, if_true] at h4
        obtain ⟨q, m, F⟩ := applySilu_eq wf ho c4 h4
        exact .silu F
      · simp only [c4, if_false, Option.some.injEq, Prod.mk.injEq] at h4
        obtain ⟨rfl, rfl⟩ := h4
        exact .skip c1 c2 c4

/-- the last layer -/
theorem last_pos {l : List Nat} {o : Nat} : l.getLast? = some o ↔ l[l.length - 1]? = some o := by
  rw [List.getLast?_eq_getElem?]

theorem fused_last {net net' : Net P} {par' : Nat → P} {p a i i' : Nat} (wf : WF net)
    (h : Fused net net' par' p a i i') (hadj : Adj net.layers p a) (v : Nat → T) {o o' : Nat}
    (ho : net.layers.getLast? = some o) (ho' : net'.layers.getLast? = some o') :
    Function.update v p (v a) o' = v o := by
  have F := h.facts wf
  rw [last_pos] at ho ho'
  have hlen : i < net.layers.length := (List.getElem?_eq_some_iff.1 h.ha).1
  rw [F.layers, List.length_eraseIdx_of_lt hlen, er_get] at ho'
  obtain ⟨j, e1, e2⟩ := hadj
  have hji := wf.pos_inj e2 h.ha
  split at ho'
  · -- `a` was last
    have : i = net.layers.length - 1 := by omega
    rw [show net.layers.length - 1 - 1 = j by omega, e1] at ho'
    rw [← this, h.ha] at ho
    simp at ho ho'
    subst ho; subst ho'; simp
  · rw [show net.layers.length - 1 - 1 + 1 = net.layers.length - 1 by omega] at ho'
    rw [ho] at ho'
    simp at ho'; subst ho'
    have : o ≠ p := by
      rintro rfl
      have := wf.pos_inj ho e1
      omega
    rw [Function.update_of_ne this]

theorem silued_last {net net' : Net P} {q s m i i' : Nat} (wf : WF net) (h : Silued net net' q s m i i')
    (hadj : Adj3 net.layers q s m) (v : Nat → T) {o o' : Nat}
    (ho : net.layers.getLast? = some o) (ho' : net'.layers.getLast? = some o') :
    Function.update v s (v m) o' = v o := by
  obtain ⟨k, F⟩ := h.facts wf
  rw [last_pos] at ho ho'
  have hlen : k < net.layers.length := (List.getElem?_eq_some_iff.1 F.hk).1
  rw [F.layers, List.length_eraseIdx_of_lt hlen, er_get] at ho'
  obtain ⟨j, e1, e2, e3⟩ := hadj
  have hji := wf.pos_inj e3 F.hk
  split at ho'
  · have : k = net.layers.length - 1 := by omega
    rw [show net.layers.length - 1 - 1 = j + 1 by omega, e2] at ho'
    rw [← this, F.hk] at ho
    simp at ho ho'
    subst ho; subst ho'; simp
  · rw [show net.layers.length - 1 - 1 + 1 = net.layers.length - 1 by omega] at ho'
    rw [ho] at ho'
    simp at ho'; subst ho'
    have : o ≠ s := by
      rintro rfl
      have := wf.pos_inj ho e2
      omega
    rw [Function.update_of_ne this]

/-- Layer `o` of `net'` computes, on every input, what layer `σ o` of `net` computes; the output layers and the last
layer of `net` are still there. -/
structure Rep (S : Sem P T) (net net' : Net P) (σ : Nat → Nat) : Prop where
  val : ∀ x v, net.IsVal S x v → net'.IsVal S x (v ∘ σ)
  mem : ∀ o ∈ net'.layers, σ o ∈ net.layers
  last : ∀ l l', net.layers.getLast? = some l → net'.layers.getLast? = some l' → σ l' = l
  outs : ∀ c ∈ net.layers, net.next c = [] → ∃ o ∈ net'.layers, net'.next o = [] ∧ σ o = c

theorem Rep.refl (S : Sem P T) (net : Net P) : Rep S net net id :=
  ⟨fun _ _ h => h, fun _ h => h, fun l l' h1 h2 => by rw [h1] at h2; simp at h2; rw [h2]; rfl,
    fun c hc hn => ⟨c, hc, hn, rfl⟩⟩

theorem Rep.trans {S : Sem P T} {a b c : Net P} {σ τ : Nat → Nat} (h1 : Rep S a b σ) (h2 : Rep S b c τ)
    (hb : b.layers ≠ []) : Rep S a c (σ ∘ τ) := by
  refine ⟨fun x v hv => ?_, fun o ho => h1.mem _ (h2.mem o ho), fun l l' e1 e2 => ?_, fun o ho hn => ?_⟩
  · rw [← Function.comp_assoc]; exact h2.val x _ (h1.val x v hv)
  · have := h2.last _ l' (List.getLast?_eq_some_getLast hb) e2
    rw [Function.comp_apply, this]
    exact h1.last l _ e1 (List.getLast?_eq_some_getLast hb)
  · obtain ⟨p, hp, np, e⟩ := h1.outs o ho hn
    obtain ⟨q, hq, nq, e'⟩ := h2.outs p hp np
    exact ⟨q, hq, nq, by rw [Function.comp_apply, e', e]⟩

theorem comp_upd (v : Nat → T) (p a : Nat) : v ∘ Function.update id p a = Function.update v p (v a) := by
  rw [Function.comp_update]; rfl

theorem fused_rep {S : Sem P T} {net net' : Net P} {par' : Nat → P} {p a i i' : Nat} (wf : WF net)
    (h : Fused net net' par' p a i i') (hadj : Adj net.layers p a)
    (hval : ∀ x v, net.IsVal S x v → net'.IsVal S x (Function.update v p (v a))) :
    Rep S net net' (Function.update id p a) := by
  have F := h.facts wf
  refine ⟨fun x v hv => by rw [comp_upd]; exact hval x v hv, ?_, ?_, ?_⟩
  · intro o ho
    by_cases e : o = p
    · subst e; simpa using F.am
    · rw [Function.update_of_ne e]; exact ((F.mem o).1 ho).1
  · intro l l' h1 h2
    exact fused_last wf h hadj id h1 h2
  · intro c hc hn
    by_cases e : c = a
    · subst e
      exact ⟨p, (F.mem p).2 ⟨F.pm, F.ne⟩, by rw [F.next]; simpa using hn, by simp⟩
    · have hcp : c ≠ p := by rintro rfl; rw [h.hn] at hn; simp at hn
      exact ⟨c, (F.mem c).2 ⟨hc, e⟩, by rw [F.next, Function.update_of_ne hcp]; exact hn,
        by rw [Function.update_of_ne hcp]; rfl⟩

theorem silued_rep {S : Sem P T} {net net' : Net P} {q s m i i' : Nat} (wf : WF net)
    (h : Silued net net' q s m i i') (hadj : Adj3 net.layers q s m)
    (hval : ∀ x v, net.IsVal S x v → net'.IsVal S x (Function.update v s (v m))) :
    Rep S net net' (Function.update id s m) := by
  obtain ⟨k, F⟩ := h.facts wf
  refine ⟨fun x v hv => by rw [comp_upd]; exact hval x v hv, ?_, ?_, ?_⟩
  · intro o ho
    by_cases e : o = s
    · subst e; simpa using F.mm
    · rw [Function.update_of_ne e]; exact ((F.mem o).1 ho).1
  · intro l l' h1 h2
    exact silued_last wf h hadj id h1 h2
  · intro c hc hn
    by_cases e : c = m
    · subst e
      exact ⟨s, (F.mem s).2 ⟨F.sm, F.n2⟩, by rw [F.next_s]; exact hn, by simp⟩
    · have hcs : c ≠ s := by rintro rfl; rw [h.hn] at hn; simp at hn
      have hcq : c ≠ q := by
        rintro rfl
        rcases h.hq with e | e <;> rw [e] at hn <;> simp at hn
      exact ⟨c, (F.mem c).2 ⟨hc, e⟩, by rw [F.next_of hcq hcs]; exact hn,
        by rw [Function.update_of_ne hcs]; rfl⟩

/-- One iteration keeps the invariant, and the values of the layers. -/
theorem step_inv {fold : P → P → P} {S : Sem P T} (hS : SemOK fold S) {net net' : Net P} {i i' o : Nat}
    (I : Inv S net i) (ho : net.layers[i]? = some o) (h : Step fold net i o net' i') :
    Inv S net' (i' + 1) ∧ ∃ σ, Rep S net net' σ := by
  have hom := mem_of_pos ho
  cases h with
  | skip c1 c2 c3 =>
    refine ⟨⟨I.wf, I.pairs, I.triples, ?_, I.mulLin, I.keeps⟩, ?_⟩
    · intro j hj s hs
      by_cases hji : j < i
      · exact I.quiet j hji s hs
      · have : j = i := by omega
        subst this
        rw [ho] at hs; simp at hs; subst hs; exact c3
    · exact ⟨id, Rep.refl S net⟩
  | act F ca cp =>
    rename_i p
    have FF := F.facts I.wf
    have hap : S.applies (net.cls p) = true := by
      by_contra hc
      exact I.keeps p FF.pm (by simpa using hc) o (by rw [F.hn]; simp) ca
    have hin := inner_of_applies hS hap
    have hio : Inner net o := by unfold Inner; rw [ca]; simp
    refine ⟨⟨F.wf I.wf, F.pairs I.wf hin hio I.pairs, F.triples I.wf hin hio cp I.pairs I.triples,
      F.quiet I.wf cp I.quiet, F.mulLin I.wf cp I.quiet I.mulLin, F.keeps I.wf hap I.keeps⟩, ?_⟩
    refine ⟨_, fused_rep I.wf F (I.pairs p FF.pm o hin F.hn F.hp) fun x v hv => ?_⟩
    refine F.isVal I.wf (fun _ _ => rfl) hap x v hv ?_
    intro xs
    simp [Net.eval, ca, hS.appAct, hap, hS.act, F.lin, hS.linear]
  | bn F cb cp =>
    rename_i p
    have FF := F.facts I.wf
    have hap : S.applies (net.cls p) = true := by rw [cp]; exact hS.appConv
    have hin := inner_of_applies hS hap
    have hio : Inner net o := by unfold Inner; rw [cb]; simp
    have cp' : net.cls p ≠ .activation := by rw [cp]; simp
    refine ⟨⟨F.wf I.wf, F.pairs I.wf hin hio I.pairs, F.triples I.wf hin hio cp' I.pairs I.triples,
      F.quiet I.wf cp' I.quiet, F.mulLin I.wf cp' I.quiet I.mulLin, F.keeps I.wf hap I.keeps⟩, ?_⟩
    refine ⟨_, fused_rep I.wf F (I.pairs p FF.pm o hin F.hn F.hp) fun x v hv => ?_⟩
    refine F.isVal I.wf (fun q hq => Function.update_of_ne hq _ _) hap x v hv ?_
    intro xs
    simp [Net.eval, cb, cp, hS.appBN, hS.appConv, F.lin, hS.linear, hS.convBN]
  | silu F =>
    rename_i q m
    obtain ⟨k, FF⟩ := F.facts I.wf
    have haq : S.applies (net.cls q) = true := by
      by_contra hc
      exact I.keeps q FF.qm (by simpa using hc) o ((FF.nq o).2 (Or.inl rfl)) F.cs
    have hin := inner_of_applies hS haq
    have hsl : isSilu net o := by
      refine ⟨F.cs, F.fs, q, F.hp, F.lin, ?_, m, F.hn, F.cm, ?_, (FF.nq m).2 (Or.inr rfl)⟩
      · rcases F.hq with e | e <;> rw [e] <;> rfl
      · rcases F.hm with e | e <;> rw [e] <;> rfl
    refine ⟨⟨F.wf I.wf, F.pairs I.wf hin I.pairs I.triples, F.triples I.wf hin I.triples,
      F.quiet I.wf I.quiet, F.mulLin I.wf I.mulLin, F.keeps I.wf hS.appAct I.keeps⟩, ?_⟩
    refine ⟨_, silued_rep I.wf F (F.adj3 I.wf hin I.triples) fun x v hv => ?_⟩
    exact F.isVal I.wf x v hv hS.appAct hS.appMul hS.linear hS.act
      (I.mulLin o hom hsl m (by rw [F.hn]; simp)) hS.silu hS.silu'

theorem matchLoop_inv {fold : P → P → P} {S : Sem P T} (hS : SemOK fold S) (fuel : Nat) :
    ∀ (net net' : Net P) (i : Nat), Inv S net i → matchLoop fold fuel net i = .done net' →
      (∃ j, Inv S net' j) ∧ ∃ σ, Rep S net net' σ := by
  induction fuel with
  | zero => intro net net' i _ h; simp [matchLoop] at h
  | succ fuel ih =>
    intro net net' i I h
    rw [matchLoop] at h
    split at h
    · simp at h
      subst h
      exact ⟨⟨i, I⟩, id, Rep.refl S net⟩
    · rename_i o ho
      split at h
      · simp at h
      · rename_i n1 i1 hp
        obtain ⟨I1, σ, hσ⟩ := step_inv hS I ho (step_of_patterns I.wf I.pairs ho hp)
        obtain ⟨I2, τ, hτ⟩ := ih n1 net' (i1 + 1) I1 h
        refine ⟨I2, σ ∘ τ, hσ.trans hτ ?_⟩
        intro h0
        cases step_of_patterns I.wf I.pairs ho hp with
        | skip => rw [h0] at ho; simp at ho
        | act F _ _ => have := F.pos; rw [h0] at this; simp at this
        | bn F _ _ => have := F.pos; rw [h0] at this; simp at this
        | silu F => have := F.pos; rw [h0] at this; simp at this

/-- some layer is left -/
theorem matchLoop_nonempty {fold : P → P → P} {S : Sem P T} (hS : SemOK fold S) (fuel : Nat) :
    ∀ (net net' : Net P) (i : Nat), Inv S net i → net.layers ≠ [] → matchLoop fold fuel net i = .done net' →
      net'.layers ≠ [] := by
  induction fuel with
  | zero => intro net net' i _ _ h; simp [matchLoop] at h
  | succ fuel ih =>
    intro net net' i I hne h
    rw [matchLoop] at h
    split at h
    · simp at h; subst h; exact hne
    · rename_i o ho
      split at h
      · simp at h
      · rename_i n1 i1 hp
        have st := step_of_patterns I.wf I.pairs ho hp
        refine ih n1 net' (i1 + 1) (step_inv hS I ho st).1 ?_ h
        intro h0
        cases st with
        | skip => rw [h0] at ho; simp at ho
        | act F _ _ => have := F.pos; rw [h0] at this; simp at this
        | bn F _ _ => have := F.pos; rw [h0] at this; simp at this
        | silu F => have := F.pos; rw [h0] at this; simp at this

/-- In a well-formed network the layers' values are determined. -/
theorem isVal_unique {S : Sem P T} {net : Net P} (wf : WF net) {x : T} {v w : Nat → T}
    (hv : net.IsVal S x v) (hw : net.IsVal S x w) : ∀ o ∈ net.layers, v o = w o := by
  have key : ∀ (j o : Nat), net.layers[j]? = some o → v o = w o := by
    intro j
    induction j using Nat.strong_induction_on with
    | _ j ih =>
      intro o ho
      rw [hv o (mem_of_pos ho), hw o (mem_of_pos ho)]
      congr 1
      unfold Graph.argsOf
      split
      · rfl
      · apply List.map_congr_left
        intro p hp
        obtain ⟨k, hk, e⟩ := wf.sorted j o ho p hp
        exact ih k hk p e
  intro o ho
  obtain ⟨j, hj⟩ := pos_of_mem ho
  exact key j o hj

/-! ### Termination, of any network -/

theorem updateNext_layers (a p : Nat) (net : Net P) : (updateNext a p net).layers = net.layers := by
  unfold updateNext
  generalize net.next a = L
  induction L generalizing net with
  | nil => rfl
  | cons c L ih => rw [List.foldl_cons, ih]

theorem dropLayer_len {net net' : Net P} {i p i' : Nat} (hi : i < net.layers.length)
    (h : dropLayer i p net = some (net', i')) : net'.layers.length < net.layers.length := by
  obtain ⟨r, _, _, e, _⟩ := dropLayer_eq h
  have := (shift_same (net.num r) 1 (net.layers.eraseIdx i)
    { net with layers := net.layers.eraseIdx i }).layers
  rw [← e] at this
  rw [this]
  show (net.layers.eraseIdx i).length < _
  rw [List.length_eraseIdx_of_lt hi]; omega

theorem removeNext_layers {o x : Nat} {net net' : Net P} (h : removeNext o x net = some net') :
    net'.layers = net.layers := by
  unfold removeNext at h
  split at h
  · simp at h; rw [← h]
  · simp at h

theorem applyFuseAct_len {net net' : Net P} {i i' : Nat} (h : applyFuseAct i net = some (net', i')) :
    net'.layers.length < net.layers.length := by
  unfold applyFuseAct at h
  split at h
  · simp at h
  · rename_i a ha
    have hi : i < net.layers.length := (List.getElem?_eq_some_iff.1 ha).1
    split at h
    · simp at h
    · rename_i p _ _
      simp only [Option.bind_eq_some_iff] at h
      obtain ⟨n1, h1, h2⟩ := h
      have e1 := removeNext_layers h1
      have e2 := updateNext_layers a p n1
      have := dropLayer_len (by rw [e2, e1]; exact hi) h2
      rw [e2, e1] at this
      exact this

theorem applyConvBN_len {fold : P → P → P} {net net' : Net P} {i i' : Nat}
    (h : applyConvBN fold i net = some (net', i')) : net'.layers.length < net.layers.length := by
  unfold applyConvBN at h
  split at h
  · rename_i b p hb _
    have hi : i < net.layers.length := (List.getElem?_eq_some_iff.1 hb).1
    simp only [Option.bind_eq_some_iff] at h
    obtain ⟨n1, h1, h2⟩ := h
    have e1 := removeNext_layers h1
    have e2 : (updateDict b p (updateNext b p n1)).layers = n1.layers := updateNext_layers b p n1
    have := dropLayer_len (by rw [e2, e1]; exact hi) h2
    rw [e2, e1] at this
    exact this
  · simp at h

theorem applySilu_len {net net' : Net P} {i i' : Nat} (h : applySilu i net = some (net', i')) :
    net'.layers.length < net.layers.length := by
  unfold applySilu at h
  split at h
  · simp at h
  · split at h
    · rename_i q _ m _ _ _
      simp only [Option.bind_eq_some_iff] at h
      obtain ⟨n1, h1, n2, h2, h3⟩ := h
      have e1 := removeNext_layers h1
      have e2 := removeNext_layers h2
      split at h3
      · rename_i hm
        rw [Option.bind_eq_some_iff] at h3
        obtain ⟨n3, h4, h5⟩ := h3
        rw [Option.map_eq_some_iff] at h5
        obtain ⟨k, _, hk⟩ := h5
        simp only [Prod.mk.injEq] at hk
        obtain ⟨rfl, _⟩ := hk
        obtain ⟨r, _, _, e⟩ := updateIndices_eq h4
        rw [e, (shift_same _ _ _ _).layers]
        simp only [updateDict, updateNext_layers] at hm ⊢
        rw [e2, e1] at hm ⊢
        have hlen := List.length_erase_of_mem hm
        have hpos : 0 < net.layers.length := List.length_pos_of_mem hm
        omega
      · simp at h3
    · simp at h

theorem tryPattern_len {isP : Net P → Nat → Prop} [∀ n o, Decidable (isP n o)]
    {ap : Nat → Net P → Option (Net P × Nat)}
    (hap : ∀ i n n' i', ap i n = some (n', i') → n'.layers.length < n.layers.length) {o : Nat}
    {st st' : Net P × Nat} (h : tryPattern isP ap o st = some st') :
    st' = st ∨ st'.1.layers.length < st.1.layers.length := by
  unfold tryPattern at h
  split at h
  · right; exact hap _ _ st'.1 st'.2 h
  · simp at h; exact Or.inl h.symm

theorem patterns_len {fold : P → P → P} {o : Nat} {st st' : Net P × Nat}
    (h : patterns fold o st = some st') : st' = st ∨ st'.1.layers.length < st.1.layers.length := by
  unfold patterns at h
  rw [Option.bind_eq_some_iff] at h
  obtain ⟨s1, h1, h⟩ := h
  rw [Option.bind_eq_some_iff] at h
  obtain ⟨s2, h2, h⟩ := h
  rw [Option.bind_eq_some_iff] at h
  obtain ⟨s3, h3, h4⟩ := h
  have a1 := tryPattern_len (fun i n n' i' => applyFuseAct_len) h1
  have a2 := tryPattern_len (fun i n n' i' => applyConvBN_len) h2
  have a3 := tryPattern_len (fun i n n' i' h => by simp at h) h3
  have a4 := tryPattern_len (fun i n n' i' => applySilu_len) h4
  rcases a1 with rfl | a1 <;> rcases a2 with rfl | a2 <;> rcases a3 with rfl | a3 <;>
    rcases a4 with rfl | a4 <;> first | exact Or.inl rfl | (right; omega)

theorem matchLoop_terminates {fold : P → P → P} (N : Nat) (fuel : Nat) :
    ∀ (net : Net P) (i : Nat), net.layers.length ≤ N →
      net.layers.length * (N + 1) + (N - i) < fuel → matchLoop fold fuel net i ≠ .timeout := by
  induction fuel with
  | zero => intro net i _ h; omega
  | succ fuel ih =>
    intro net i hN h
    rw [matchLoop]
    split
    · simp
    · rename_i o ho
      have hi : i < net.layers.length := (List.getElem?_eq_some_iff.1 ho).1
      split
      · simp
      · rename_i n1 i1 hp
        rcases patterns_len hp with e | e
        · simp only [Prod.mk.injEq] at e
          obtain ⟨rfl, rfl⟩ := e
          exact ih n1 (i1 + 1) hN (by omega)
        · simp only at e
          refine ih n1 (i1 + 1) (by omega) ?_
          have : n1.layers.length * (N + 1) + (N + 1) ≤ net.layers.length * (N + 1) := by
            calc n1.layers.length * (N + 1) + (N + 1) = (n1.layers.length + 1) * (N + 1) := by ring
              _ ≤ _ := Nat.mul_le_mul_right _ e
          omega

end Verif.Opt

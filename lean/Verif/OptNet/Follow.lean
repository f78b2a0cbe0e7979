import Verif.Opt.Pass

/-!
# What the pass keeps of each layer that remains

For one input, with the tensors of the layers of the initial network.
-/

namespace Verif.Opt
variable {P T : Type}

/-- `net` comes from `net0` by some iterations of the pass: its layers are layers of `net0`, of the same classes, with the parameters of `net0` except that
batch normalisations have been folded into convolutions; `w` are its tensors, and each layer receives the tensors it receives in `net0`.  `Q f b r` is a
condition on a layer `f` with one producer, the array `b` it reads and the number `r` of the array it writes. -/
structure Follow (fold : P → P → P) (S : Sem P T) (net0 : Net P) (x : T) (v0 : Nat → T) (Q : Nat → Buf → Nat → Prop) (net : Net P) (w : Nat → T) : Prop where
  val : net.IsVal S x w
  sub : ∀ o ∈ net.layers, o ∈ net0.layers
  args : ∀ o ∈ net.layers, Graph.argsOf net.prev x w o = Graph.argsOf net0.prev x v0 o
  len : ∀ o ∈ net.layers, (net.prev o).length = (net0.prev o).length
  cls : net.cls = net0.cls
  par : ∀ o ∈ net.layers, ∃ bs : List P, net.par o = bs.foldl fold (net0.par o) ∧ (bs ≠ [] → net0.cls o = .conv) ∧
    ∀ b ∈ bs, ∃ n ∈ net0.layers, net0.cls n = .batchNorm ∧ b = net0.par n
  own : ∀ f ∈ net.layers, ∀ p, net.prev f = [p] → Q f (net.outS p) (net.path f)
  path : ∀ o ∈ net.layers, ∃ n ∈ net0.layers, net.path o = net0.path n
  fn : ∀ o ∈ net.layers, S.applies (net0.cls o) = false → net.fn o = net0.fn o

variable {fold : P → P → P} {S : Sem P T} {net0 net net' : Net P} {x : T} {v0 w : Nat → T} {Q : Nat → Buf → Nat → Prop}

theorem Follow.fused {par' : Nat → P} {p a i i' : Nat} (wf : WF net) (h : Fused net net' par' p a i i') (F0 : Follow fold S net0 x v0 Q net w)
    (hap : S.applies (net.cls p) = true) (hpar : ∀ o, o ≠ p → par' o = net.par o)
    (heq : ∀ xs, net.eval S a [net.eval S p xs] = S.den (net.fn a) (S.op (net.cls p) (par' p) xs))
    (hp : par' p = net.par p ∨ (net.cls p = .conv ∧ net.cls a = .batchNorm ∧ par' p = fold (net.par p) (net.par a))) :
    Follow fold S net0 x v0 Q net' (Function.update w p (w a)) := by
  have F := h.facts wf
  refine ⟨h.isVal wf hpar hap x w F0.val heq, fun o ho => F0.sub o ((F.mem o).1 ho).1, ?_, ?_, by rw [F.cls, F0.cls], ?_, ?_, ?_, ?_⟩
  · intro o ho
    have ho' := (F.mem o).1 ho
    rw [← F0.args o ho'.1]
    unfold Graph.argsOf
    rw [F.prev o ho'.1]
    by_cases h0 : net.prev o = []
    · simp [h0]
    · simp only [List.map_eq_nil_iff, h0, if_false, List.map_map]
      apply List.map_congr_left
      intro q hq
      by_cases hqa : q = a
      · subst hqa; simp [ren]
      · have hqp : q ≠ p := by
          rintro rfl
          have := wf.back o ho'.1 _ hq
          rw [h.hn] at this; simp at this; exact ho'.2 this
        simp [ren, hqa, hqp]
  · intro o ho
    have ho' := (F.mem o).1 ho
    rw [F.prev o ho'.1, List.length_map, F0.len o ho'.1]
  · intro o ho
    have ho' := (F.mem o).1 ho
    obtain ⟨bs, e, hc, hb⟩ := F0.par o ho'.1
    rw [F.par]
    by_cases hop : o = p
    · subst hop
      rcases hp with hp | ⟨c1, c2, hp⟩
      · exact ⟨bs, by rw [hp, e], hc, hb⟩
      · obtain ⟨bs', e', hc', -⟩ := F0.par a F.am
        have hnil : bs' = [] := by
          by_contra hne
          have := hc' hne
          rw [F0.cls] at c2
          rw [c2] at this; cases this
        subst hnil
        refine ⟨bs ++ [net.par a], by rw [hp, List.foldl_append, ← e]; rfl, fun _ => by rw [← F0.cls]; exact c1, ?_⟩
        intro b hbm
        rcases List.mem_append.1 hbm with h1 | h1
        · exact hb b h1
        · rw [List.mem_singleton] at h1
          exact ⟨a, F0.sub a F.am, by rw [← F0.cls]; exact c2, by rw [h1]; exact e'⟩
    · exact ⟨bs, by rw [hpar o hop, e], hc, hb⟩
  · intro f hf q hq
    have hf' := (F.mem f).1 hf
    rw [F.outS, F.path]
    rcases h.prev_inv wf hf hq with ⟨rfl, h1⟩ | ⟨h1, h2, -⟩
    · rw [Function.update_self]; exact F0.own f hf'.1 a h1
    · rw [Function.update_of_ne h2]; exact F0.own f hf'.1 q h1
  · intro o ho
    rw [F.path]; exact F0.path o ((F.mem o).1 ho).1
  · intro o ho hno
    have hop : o ≠ p := by
      rintro rfl
      rw [← F0.cls, hap] at hno; cases hno
    rw [F.fn, Function.update_of_ne hop]
    exact F0.fn o ((F.mem o).1 ho).1 hno

theorem Follow.silued {q s m i i' : Nat} (wf : WF net) (h : Silued net net' q s m i i') (F0 : Follow fold S net0 x v0 Q net w) (hS : SemOK fold S)
    (hfm : net.fn m = .linear) (hQ : ∀ f b r, net0.cls f = .activation → Q f b r) :
    Follow fold S net0 x v0 Q net' (Function.update w s (w m)) := by
  obtain ⟨k, F⟩ := h.facts wf
  refine ⟨h.isVal wf x w F0.val hS.appAct hS.appMul hS.linear hS.act hfm hS.silu hS.silu', fun o ho => F0.sub o ((F.mem o).1 ho).1, ?_, ?_,
    by rw [F.cls, F0.cls], ?_, ?_, ?_, ?_⟩
  · intro o ho
    have ho' := (F.mem o).1 ho
    rw [← F0.args o ho'.1]
    unfold Graph.argsOf
    rw [F.prev o ho'.1]
    by_cases h0 : net.prev o = []
    · simp [h0]
    · simp only [List.map_eq_nil_iff, h0, if_false, List.map_map]
      apply List.map_congr_left
      intro y hy
      by_cases hym : y = m
      · subst hym; simp [ren]
      · have hys : y ≠ s := by
          rintro rfl
          have := wf.back o ho'.1 _ hy
          rw [h.hn] at this; simp at this; exact ho'.2 this
        simp [ren, hym, hys]
  · intro o ho
    have ho' := (F.mem o).1 ho
    rw [F.prev o ho'.1, List.length_map, F0.len o ho'.1]
  · intro o ho
    rw [F.par]; exact F0.par o ((F.mem o).1 ho).1
  · intro f hf p hp
    have hf' := (F.mem f).1 hf
    by_cases hfs : f = s
    · subst hfs; exact hQ _ _ _ (by rw [← F0.cls]; exact h.cs)
    · rw [F.outS, F.path, Function.update_of_ne hfs]
      rcases h.prev_inv wf hf hp with ⟨rfl, h1⟩ | ⟨h1, h2, -⟩
      · rw [Function.update_self]; exact F0.own f hf'.1 m h1
      · rw [Function.update_of_ne h2]; exact F0.own f hf'.1 p h1
  · intro o ho
    have ho' := (F.mem o).1 ho
    rw [F.path]
    by_cases hos : o = s
    · subst hos; rw [Function.update_self]; exact F0.path m F.mm
    · rw [Function.update_of_ne hos]; exact F0.path o ho'.1
  · intro o ho hno
    have hos : o ≠ s := by
      rintro rfl
      rw [← F0.cls, h.cs, hS.appAct] at hno; cases hno
    rw [F.fn, Function.update_of_ne hos]
    exact F0.fn o ((F.mem o).1 ho).1 hno

theorem Follow.step (hS : SemOK fold S) (hQ : ∀ f b r, net0.cls f = .activation → Q f b r) {i i' o : Nat} (I : Inv S net i) (ho : net.layers[i]? = some o)
    (h : Step fold net i o net' i') (F0 : Follow fold S net0 x v0 Q net w) : ∃ w', Follow fold S net0 x v0 Q net' w' := by
  have hom := mem_of_pos ho
  cases h with
  | skip => exact ⟨w, F0⟩
  | act F ca cp =>
    rename_i p
    have FF := F.facts I.wf
    have hap : S.applies (net.cls p) = true := by
      by_contra hc
      exact I.keeps p FF.pm (by simpa using hc) o (by rw [F.hn]; simp) ca
    exact ⟨_, F0.fused I.wf F hap (fun _ _ => rfl) (by intro xs; simp [Net.eval, ca, hS.appAct, hap, hS.act, F.lin, hS.linear]) (Or.inl rfl)⟩
  | bn F cb cp =>
    rename_i p
    have hap : S.applies (net.cls p) = true := by rw [cp]; exact hS.appConv
    refine ⟨_, F0.fused I.wf F hap (fun q hq => Function.update_of_ne hq _ _) ?_ (Or.inr ⟨cp, cb, by rw [Function.update_self]⟩)⟩
    intro xs
    simp [Net.eval, cb, cp, hS.appBN, hS.appConv, F.lin, hS.linear, hS.convBN]
  | silu F =>
    rename_i q m
    obtain ⟨k, FF⟩ := F.facts I.wf
    have hsl : isSilu net o := by
      refine ⟨F.cs, F.fs, q, F.hp, F.lin, ?_, m, F.hn, F.cm, ?_, (FF.nq m).2 (Or.inr rfl)⟩
      · rcases F.hq with e | e <;> rw [e] <;> rfl
      · rcases F.hm with e | e <;> rw [e] <;> rfl
    exact ⟨_, F0.silued I.wf F hS (I.mulLin o hom hsl m (by rw [F.hn]; simp)) hQ⟩

theorem matchLoop_follow (hS : SemOK fold S) (hQ : ∀ f b r, net0.cls f = .activation → Q f b r) (fuel : Nat) :
    ∀ (net net' : Net P) (w : Nat → T) (i : Nat), Inv S net i → Follow fold S net0 x v0 Q net w → matchLoop fold fuel net i = .done net' →
      ∃ w', Follow fold S net0 x v0 Q net' w' := by
  induction fuel with
  | zero => intro net net' w i _ _ h; simp [matchLoop] at h
  | succ fuel ih =>
    intro net net' w i I F0 h
    rw [matchLoop] at h
    split at h
    · simp at h; subst h; exact ⟨w, F0⟩
    · rename_i o ho
      split at h
      · simp at h
      · rename_i n1 i1 hp
        have st := step_of_patterns I.wf I.pairs ho hp
        obtain ⟨w1, F1⟩ := F0.step hS hQ I ho st
        exact ih n1 net' w1 (i1 + 1) (step_inv hS I ho st).1 F1 h

end Verif.Opt

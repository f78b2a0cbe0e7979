import Verif.Opt.Model
import Mathlib.Tactic.Common
import Mathlib.Data.List.Basic
import Mathlib.Data.List.Nodup

/-! # What the rewriting functions do (helper lemmas) -/

namespace Verif.Opt
variable {P : Type}

/-- all fields but `num` and `dict` agree -/
structure SameButNum (a b : Net P) : Prop where
  layers : a.layers = b.layers
  cls : a.cls = b.cls
  fn : a.fn = b.fn
  par : a.par = b.par
  path : a.path = b.path
  outS : a.outS = b.outS
  prev : a.prev = b.prev
  next : a.next = b.next

theorem shiftOne_same (ref sh : Nat) (s : Net P) (o : Nat) : SameButNum (shiftOne ref sh s o) s := by
  unfold shiftOne; split <;> constructor <;> rfl

theorem SameButNum.trans {a b c : Net P} (h1 : SameButNum a b) (h2 : SameButNum b c) : SameButNum a c :=
  ⟨h1.1.trans h2.1, h1.2.trans h2.2, h1.3.trans h2.3, h1.4.trans h2.4, h1.5.trans h2.5,
   h1.6.trans h2.6, h1.7.trans h2.7, h1.8.trans h2.8⟩

theorem shift_same (ref sh : Nat) (L : List Nat) (s : Net P) :
    SameButNum (L.foldl (shiftOne ref sh) s) s := by
  induction L generalizing s with
  | nil => constructor <;> rfl
  | cons o L ih => exact (ih _).trans (shiftOne_same _ _ _ _)

theorem shiftOne_num (ref sh : Nat) (s : Net P) (o q : Nat) :
    (shiftOne ref sh s o).num q = if q = o ∧ s.num o > ref then s.num o - sh else s.num q := by
  unfold shiftOne
  split
  · by_cases hq : q = o
    · subst hq; simp [*]
    · simp [hq]
  · simp [*]

theorem shift_num (ref sh : Nat) (L : List Nat) (hL : L.Nodup) (s : Net P) (q : Nat) :
    (L.foldl (shiftOne ref sh) s).num q =
      if q ∈ L ∧ s.num q > ref then s.num q - sh else s.num q := by
  induction L generalizing s with
  | nil => simp
  | cons o L ih =>
    rw [List.nodup_cons] at hL
    rw [List.foldl_cons, ih hL.2, shiftOne_num]
    by_cases hq : q = o
    · subst hq; simp [hL.1]
    · simp [hq]

/-- Renumbering keeps each layer attached to its saved copy when the numbers increase along the list,
the number after `ref` is free and the dictionary only has keys of layers of the list. -/
theorem shift_dict (ref : Nat) (s : Net P) (L : List Nat)
    (hinc : L.Pairwise (fun a b => s.num a < s.num b))
    (hgap : ∀ o ∈ L, s.num o > ref → s.num o > ref + 1)
    (hkeys : ∀ k, (s.dict k).isSome → ∃ o ∈ L, s.num o = k) :
    (∀ o ∈ L, (L.foldl (shiftOne ref 1) s).dict ((L.foldl (shiftOne ref 1) s).num o) = s.dict (s.num o)) ∧
    (∀ k, ((L.foldl (shiftOne ref 1) s).dict k).isSome →
      ∃ o ∈ L, (L.foldl (shiftOne ref 1) s).num o = k) := by
  have hnd : L.Nodup := hinc.imp (fun h => by intro he; subst he; omega)
  have key : ∀ L2 L1, L = L1 ++ L2 → ∀ t : Net P,
      (∀ o, t.num o = if o ∈ L1 ∧ s.num o > ref then s.num o - 1 else s.num o) →
      (∀ o ∈ L, t.dict (t.num o) = s.dict (s.num o)) →
      (∀ k, (t.dict k).isSome → ∃ o ∈ L, t.num o = k) →
      (∀ o ∈ L, (L2.foldl (shiftOne ref 1) t).dict ((L2.foldl (shiftOne ref 1) t).num o)
        = s.dict (s.num o)) ∧
      (∀ k, ((L2.foldl (shiftOne ref 1) t).dict k).isSome →
        ∃ o ∈ L, (L2.foldl (shiftOne ref 1) t).num o = k) := by
    intro L2
    induction L2 with
    | nil => intro L1 _ t _ h2 h3; exact ⟨h2, h3⟩
    | cons o L2 ih =>
      intro L1 he t h1 h2 h3
      rw [List.foldl_cons]
      have hoL : o ∈ L := by rw [he]; simp
      have hnd' := hnd
      rw [he, List.nodup_append] at hnd'
      obtain ⟨_, hnd2, hdisj⟩ := hnd'
      have ho1 : o ∉ L1 := fun h => hdisj o h o (by simp) rfl
      have hinc' := hinc
      rw [he, List.pairwise_append] at hinc'
      obtain ⟨_, hinc2, hinc12⟩ := hinc'
      rw [List.pairwise_cons] at hinc2
      have hto : t.num o = s.num o := by rw [h1]; simp [ho1]
      have hnum : ∀ q, (shiftOne ref 1 t o).num q =
          if q ∈ L1 ++ [o] ∧ s.num q > ref then s.num q - 1 else s.num q := by
        intro q
        rw [shiftOne_num, hto]
        by_cases hq : q = o
        · subst hq
          by_cases hg : s.num q > ref
          · simp [hg]
          · simp [hg, h1]
        · simp [hq, h1]
      refine ih (L1 ++ [o]) (by simp [he]) _ hnum ?_ ?_
      · by_cases hg : s.num o > ref
        · have hfree : ∀ q ∈ L, q ≠ o → (shiftOne ref 1 t o).num q ≠ s.num o - 1 ∧
              (shiftOne ref 1 t o).num q ≠ s.num o ∧ (shiftOne ref 1 t o).num q = t.num q := by
            intro q hq hqo
            have h' := hgap o hoL hg
            rw [hnum q, h1 q]
            rw [he] at hq
            rcases List.mem_append.1 hq with hq1 | hq2
            · have := hinc12 q hq1 o (by simp)
              have hgq := hgap q (by rw [he]; simp [hq1])
              simp only [List.mem_append, hq1, List.mem_singleton, hqo, or_false, true_and]
              refine ⟨?_, ?_, trivial⟩ <;> split <;> omega
            · have hq2' : q ∈ L2 := by simpa [hqo] using hq2
              have := hinc2.1 q hq2'
              have hq1 : q ∉ L1 := fun h => hdisj q h q (by simp [hq2']) rfl
              simp [hq1, hqo]; omega
          have hdict : ∀ k, (shiftOne ref 1 t o).dict k =
              if k = s.num o - 1 then s.dict (s.num o) else if k = s.num o then none else t.dict k := by
            intro k
            unfold shiftOne
            rw [hto]
            have e := h2 o hoL
            rw [hto] at e
            simp only [hg, if_true]
            have hno : s.num o - 1 ≠ s.num o := by omega
            cases hd : t.dict (s.num o) with
            | none =>
              rw [← e, hd]
              by_cases hk : k = s.num o - 1
              · subst hk
                simp only [if_true]
                by_contra hc
                obtain ⟨q, hq, hqe⟩ := h3 (s.num o - 1) (by
                  cases hx : t.dict (s.num o - 1) with
                  | none => exact absurd hx hc
                  | some _ => rfl)
                by_cases hqo : q = o
                · subst hqo; rw [hto] at hqe; omega
                · obtain ⟨a, b, c⟩ := hfree q hq hqo
                  rw [c] at a; exact a hqe
              · by_cases hk2 : k = s.num o
                · subst hk2; simp [hk, hd]
                · simp [hk, hk2]
            | some v =>
              rw [← e, hd]
              by_cases hk : k = s.num o - 1
              · subst hk; simp
              · by_cases hk2 : k = s.num o
                · subst hk2; simp [hk]
                · simp [hk, hk2]
          intro q hq
          by_cases hqo : q = o
          · subst hqo
            rw [hnum q, hdict]; simp [hg]
          · obtain ⟨a, b, c⟩ := hfree q hq hqo
            rw [hdict, if_neg a, if_neg b, c, h2 q hq]
        · have : shiftOne ref 1 t o = t := by unfold shiftOne; rw [hto, if_neg hg]
          rw [this]; exact h2
      · by_cases hg : s.num o > ref
        · intro k hk
          -- keys
          have h' := hgap o hoL hg
          by_cases hk1 : k = s.num o - 1
          · exact ⟨o, hoL, by rw [hnum o]; simp [hg, hk1]⟩
          · have : (t.dict k).isSome ∧ k ≠ s.num o := by
              unfold shiftOne at hk
              rw [hto] at hk
              simp only [hg, if_true] at hk
              cases hd : t.dict (s.num o) with
              | none =>
                rw [hd] at hk
                refine ⟨hk, ?_⟩
                rintro rfl
                exact absurd hk (by simp [hd])
              | some v =>
                rw [hd] at hk
                by_cases hk2 : k = s.num o
                · subst hk2; simp [hk1] at hk
                · simp [hk1, hk2] at hk; exact ⟨hk, hk2⟩
            obtain ⟨q, hq, hqe⟩ := h3 k this.1
            by_cases hqo : q = o
            · subst hqo; rw [hto] at hqe; exact absurd hqe.symm this.2
            · refine ⟨q, hq, ?_⟩
              rw [← hqe, shiftOne_num]; simp [hqo]
        · have : shiftOne ref 1 t o = t := by unfold shiftOne; rw [hto, if_neg hg]
          rw [this]; exact h3
  exact key L [] rfl s (by simp) (by simp) hkeys

/-! ### Links -/

theorem updateNext_eq (removed repl : Nat) (hne : repl ≠ removed) (net : Net P)
    (hnd : (net.next removed).Nodup) (hdisj : ∀ c ∈ net.next removed, c ∉ net.next repl) :
    updateNext removed repl net = { net with
      next := Function.update net.next repl (net.next repl ++ net.next removed)
      prev := fun c => if c ∈ net.next removed then
        (net.prev c).map (fun q => if q = removed then repl else q) else net.prev c } := by
  unfold updateNext
  generalize hL : net.next removed = L at *
  clear hL
  induction L generalizing net with
  | nil => simp
  | cons c L ih =>
    rw [List.nodup_cons] at hnd
    rw [List.foldl_cons, ih]
    · have hc := hdisj c (by simp)
      simp only [hc, if_false]
      congr 1
      · funext x
        by_cases hx : x = c
        · subst hx; simp [hnd.1]
        · simp [hx]
      · funext x
        by_cases hx : x = repl
        · subst hx; simp
        · simp [hx]
    · exact hnd.2
    · intro x hx
      have hc := hdisj c (by simp)
      simp only [hc, if_false, Function.update_self, List.mem_append, List.mem_singleton, not_or]
      refine ⟨hdisj x (by simp [hx]), ?_⟩
      rintro rfl; exact hnd.1 hx

/-- Well-formed networks: the list has no duplicates, producers precede their consumers, links are
mutual, no layer lists a consumer twice. -/
structure WF (net : Net P) : Prop where
  nodup : net.layers.Nodup
  sorted : ∀ (j o : Nat), net.layers[j]? = some o → ∀ p ∈ net.prev o, ∃ k < j, net.layers[k]? = some p
  back : ∀ o ∈ net.layers, ∀ p ∈ net.prev o, o ∈ net.next p
  fwd : ∀ o ∈ net.layers, ∀ c ∈ net.next o, c ∈ net.layers ∧ o ∈ net.prev c
  nextNodup : ∀ o ∈ net.layers, (net.next o).Nodup
  matMul : ∀ o ∈ net.layers, net.cls o = .matMul → (net.prev o).length ≠ 1

theorem WF.pos_inj {net : Net P} (h : WF net) {i j o : Nat} (hi : net.layers[i]? = some o)
    (hj : net.layers[j]? = some o) : i = j := by
  obtain ⟨hi', ei⟩ := List.getElem?_eq_some_iff.1 hi
  obtain ⟨hj', ej⟩ := List.getElem?_eq_some_iff.1 hj
  exact (List.Nodup.getElem_inj_iff h.nodup).1 (ei.trans ej.symm)

theorem mem_of_pos {net : Net P} {i o : Nat} (hi : net.layers[i]? = some o) : o ∈ net.layers :=
  List.mem_of_getElem? hi

theorem pos_of_mem {net : Net P} {o : Nat} (h : o ∈ net.layers) : ∃ i : Nat, net.layers[i]? = some o :=
  List.mem_iff_getElem?.1 h

theorem WF.before {net : Net P} (h : WF net) {i j o p : Nat} (hi : net.layers[i]? = some o)
    (hj : net.layers[j]? = some p) (hp : p ∈ net.prev o) : j < i := by
  obtain ⟨k, hk, e⟩ := h.sorted i o hi p hp
  rwa [h.pos_inj hj e]

theorem WF.prev_mem {net : Net P} (h : WF net) {o p : Nat} (ho : o ∈ net.layers) (hp : p ∈ net.prev o) :
    p ∈ net.layers := by
  obtain ⟨i, hi⟩ := pos_of_mem ho
  obtain ⟨k, _, e⟩ := h.sorted i o hi p hp
  exact mem_of_pos e

theorem WF.irrefl {net : Net P} (h : WF net) {o : Nat} (ho : o ∈ net.layers) : o ∉ net.prev o := by
  intro hp
  obtain ⟨i, hi⟩ := pos_of_mem ho
  have := h.before hi hi hp
  omega

/-- the network just before renumbering, after layer `a` (at position `i`) has been merged into its
producer `p` -/
def fuse (net : Net P) (par' : Nat → P) (p a i : Nat) : Net P :=
  { net with
    layers := net.layers.eraseIdx i
    fn := Function.update net.fn p (net.fn a)
    par := par'
    outS := Function.update net.outS p (net.outS a)
    next := Function.update net.next p (net.next a)
    prev := fun c => if c ∈ net.next a then (net.prev c).map (fun q => if q = a then p else q)
      else net.prev c
    dict := match net.dict (net.num a) with
      | none => net.dict
      | some k => Function.update (Function.update net.dict (net.num p) (some k)) (net.num a) none }

theorem single_of_length {A : Type} {l : List A} {x : A} (h : l.length = 1) (hx : x ∈ l) : l = [x] := by
  match l, h with
  | [y], _ => simp at hx; rw [hx]

theorem updateIndices_eq {net net' : Net P} {i : Nat} (h : updateIndices i 1 net = some net') :
    ∃ r, net.layers[i]? = some r ∧ 1 ≤ i ∧ net' = net.layers.foldl (shiftOne (net.num r) 1) net := by
  unfold updateIndices at h
  split at h
  · simp at h
  · rename_i r hr
    split at h
    · simp at h
    · simp at h; exact ⟨r, hr, by omega, h.symm⟩

theorem indexOf?_eq {net : Net P} {o i : Nat} (h : indexOf? net o = some i) :
    net.layers[i]? = some o := by
  unfold indexOf? at h
  split at h
  · rename_i ho
    simp at h; subst h
    rw [List.getElem?_eq_some_iff]
    exact ⟨List.idxOf_lt_length_of_mem ho, List.getElem_idxOf _⟩
  · simp at h

theorem dropLayer_eq {net net' : Net P} {i p i' : Nat} (h : dropLayer i p net = some (net', i')) :
    ∃ r, (net.layers.eraseIdx i)[i - 1]? = some r ∧ 2 ≤ i ∧
      net' = (net.layers.eraseIdx i).foldl (shiftOne (net.num r) 1)
        { net with layers := net.layers.eraseIdx i } ∧
      net'.layers[i']? = some p := by
  unfold dropLayer at h
  rw [Option.bind_eq_some_iff] at h
  obtain ⟨n1, h1, h2⟩ := h
  rw [Option.map_eq_some_iff] at h2
  obtain ⟨k, hk, hk2⟩ := h2
  simp only [Prod.mk.injEq] at hk2
  obtain ⟨rfl, rfl⟩ := hk2
  obtain ⟨r, hr, hi, he⟩ := updateIndices_eq h1
  exact ⟨r, hr, by omega, he, indexOf?_eq hk⟩

/-- What a fusion did: the result is the fused network, renumbered. -/
structure Fused (net net' : Net P) (par' : Nat → P) (p a i i' : Nat) : Prop where
  ha : net.layers[i]? = some a
  hp : net.prev a = [p]
  hn : net.next p = [a]
  lin : net.fn p = .linear
  eq : ∃ r, net.layers[i - 1]? = some r ∧
    net' = (net.layers.eraseIdx i).foldl (shiftOne (net.num r) 1) (fuse net par' p a i)
  hi : 2 ≤ i
  pos : net'.layers[i']? = some p

theorem eraseIdx_pred {net : Net P} {i r : Nat} (hi : 2 ≤ i)
    (h : (net.layers.eraseIdx i)[i - 1]? = some r) : net.layers[i - 1]? = some r := by
  rwa [List.getElem?_eraseIdx, if_pos (by omega)] at h

theorem applyFuseAct_eq {net net' : Net P} (wf : WF net) {a i i' : Nat} (ha : net.layers[i]? = some a)
    (hpat : isFuseAct net a) (h : applyFuseAct i net = some (net', i')) :
    ∃ p, Fused net net' net.par p a i i' ∧ net.cls a = .activation ∧ net.cls p ≠ .activation := by
  obtain ⟨hcls, p, hp, hcp, hlin, hlen⟩ := hpat
  have ham := mem_of_pos ha
  have hap : p ∈ net.prev a := by rw [hp]; simp
  have hn : net.next p = [a] := single_of_length hlen (wf.back a ham p hap)
  have hpa : p ≠ a := by rintro rfl; exact wf.irrefl ham hap
  refine ⟨p, ?_, hcls, hcp⟩
  unfold applyFuseAct at h
  simp only [ha, hp] at h
  unfold removeNext at h
  simp only [updateDict, hn, List.mem_singleton, if_true, Option.bind_some] at h
  rw [updateNext_eq _ _ hpa _ (by simpa [Function.update_of_ne hpa.symm] using wf.nextNodup a ham)
    (by simp)] at h
  simp only [Function.update_of_ne hpa.symm, List.erase_cons_head, Function.update_self, List.nil_append,
    Function.update_idem] at h
  obtain ⟨r, hr, hi, he, hpos⟩ := dropLayer_eq h
  exact ⟨ha, hp, hn, hlin, ⟨r, eraseIdx_pred hi hr, he⟩, hi, hpos⟩

theorem applyConvBN_eq {fold : P → P → P} {net net' : Net P} (wf : WF net) {b i i' : Nat}
    (hb : net.layers[i]? = some b) (hpat : isConvBN net b) (hadj : ∀ p ∈ net.prev b, net.layers[i - 1]? = some p)
    (h : applyConvBN fold i net = some (net', i')) :
    ∃ p, Fused net net' (Function.update net.par p (fold (net.par p) (net.par b))) p b i i' ∧
      net.cls b = .batchNorm ∧ net.cls p = .conv := by
  obtain ⟨hcls, p, hp, hcp, hlen, hlin⟩ := hpat
  have hbm := mem_of_pos hb
  have hbp : p ∈ net.prev b := by rw [hp]; simp
  have hn : net.next p = [b] := single_of_length hlen (wf.back b hbm p hbp)
  have hpb : p ≠ b := by rintro rfl; exact wf.irrefl hbm hbp
  refine ⟨p, ?_, hcls, hcp⟩
  unfold applyConvBN at h
  simp only [hb, hadj p hbp] at h
  unfold removeNext at h
  simp only [hn, List.mem_singleton, if_true, Option.bind_some] at h
  rw [updateNext_eq _ _ hpb _ (by simpa [Function.update_of_ne hpb.symm] using wf.nextNodup b hbm)
    (by simp)] at h
  simp only [Function.update_of_ne hpb.symm, List.erase_cons_head, Function.update_self, List.nil_append,
    Function.update_idem, updateDict] at h
  obtain ⟨r, hr, hi, he, hpos⟩ := dropLayer_eq h
  exact ⟨hb, hp, hn, hlin, ⟨r, eraseIdx_pred hi hr, he⟩, hi, hpos⟩

/-- the network just before renumbering, after `Sigmoid` `s` and `Multiply` `m` have become a `Silu`
layer (still called `s`) -/
def toSilu (net : Net P) (q s m : Nat) : Net P :=
  { net with
    layers := net.layers.erase m
    fn := Function.update net.fn s .silu
    path := Function.update net.path s (net.path m)
    outS := Function.update net.outS s (net.outS m)
    next := Function.update (Function.update net.next q [s]) s (net.next m)
    prev := fun c => if c ∈ net.next m then (net.prev c).map (fun x => if x = m then s else x)
      else net.prev c
    dict := match net.dict (net.num m) with
      | none => net.dict
      | some k => Function.update (Function.update net.dict (net.num s) (some k)) (net.num m) none }

structure Silued (net net' : Net P) (q s m i i' : Nat) : Prop where
  hs : net.layers[i]? = some s
  cs : net.cls s = .activation
  fs : net.fn s = .sigmoid
  cm : net.cls m = .multiply
  lin : net.fn q = .linear
  hp : net.prev s = [q]
  hn : net.next s = [m]
  hm : net.prev m = [q, s] ∨ net.prev m = [s, q]
  hq : net.next q = [s, m] ∨ net.next q = [m, s]
  eq : ∃ r, (net.layers.erase m)[i]? = some r ∧
    net' = (net.layers.erase m).foldl (shiftOne (net.num r) 1) (toSilu net q s m)
  hi : 1 ≤ i
  pos : net'.layers[i']? = some q

theorem pair_of_length {A : Type} {l : List A} {x y : A} (hxy : x ≠ y) (h : l.length = 2) (hx : x ∈ l)
    (hy : y ∈ l) : l = [x, y] ∨ l = [y, x] := by
  match l, h with
  | [a, b], _ =>
    simp at hx hy
    rcases hx with rfl | rfl <;> rcases hy with rfl | rfl <;> simp_all

theorem updateNext_present (removed repl : Nat) (net : Net P)
    (hdisj : ∀ c ∈ net.next removed, c ∈ net.next repl) (hne : repl ≠ removed) :
    updateNext removed repl net = { net with
      prev := fun c => if c ∈ net.next removed then
        (net.prev c).map (fun q => if q = removed then repl else q) else net.prev c } := by
  unfold updateNext
  generalize net.next removed = L at *
  induction L generalizing net with
  | nil => simp
  | cons c L ih =>
    rw [List.foldl_cons]
    simp only [hdisj c (by simp), if_true]
    rw [ih]
    · congr 1
      funext x
      by_cases hx : x = c
      · subst hx
        by_cases hxL : x ∈ L
        · simp only [hxL, if_true, Function.update_self, List.mem_cons, true_or, List.map_map]
          apply List.map_congr_left
          intro q _
          by_cases hq : q = removed <;> simp [hq, hne]
        · simp [hxL]
      · simp [hx]
    · intro x hx; exact hdisj x (by simp [hx])

theorem applySilu_eq {net net' : Net P} (wf : WF net) {s i i' : Nat} (hs : net.layers[i]? = some s)
    (hpat : isSilu net s) (h : applySilu i net = some (net', i')) :
    ∃ q m, Silued net net' q s m i i' := by
  obtain ⟨hcls, hfn, q, hp, hlin, hlq, m, hnm, hcm, hlm, hmq⟩ := hpat
  have hsm := mem_of_pos hs
  have hqs : q ∈ net.prev s := by rw [hp]; simp
  have hqL := wf.prev_mem hsm hqs
  have hsq := wf.back s hsm q hqs
  obtain ⟨hmL, hsm'⟩ := wf.fwd s hsm m (by rw [hnm]; simp)
  have hqm := (wf.fwd q hqL m hmq).2
  have n1 : q ≠ s := by rintro rfl; exact wf.irrefl hsm hqs
  have n2 : s ≠ m := by rintro rfl; exact wf.irrefl hsm hsm'
  have n3 : q ≠ m := by rintro rfl; exact wf.irrefl hqL hqm
  have hprevm := pair_of_length n1 hlm hqm hsm'
  have hnextq := pair_of_length n2 hlq hsq hmq
  refine ⟨q, m, ?_⟩
  unfold applySilu at h
  simp only [hs, hp, hnm] at h
  have e1 : removeNext q m net = some { net with next := Function.update net.next q [s] } := by
    unfold removeNext
    rw [if_pos hmq]
    rcases hnextq with e | e <;> simp [e, n2]
  rw [e1] at h
  simp only [Option.bind_some] at h
  have e2 : removeNext q s { net with next := Function.update net.next q [s] } =
      some { net with next := Function.update net.next q [] } := by
    unfold removeNext
    simp
  rw [e2] at h
  simp only [Option.bind_some, Function.update_self, List.nil_append, Function.update_idem,
    Function.update_of_ne n3.symm] at h
  rw [updateNext_present] at h
  · simp only [Function.update_of_ne n2.symm, updateDict, Function.update_of_ne n3.symm, hmL, if_true,
      Function.update_idem] at h
    rw [Option.bind_eq_some_iff] at h
    obtain ⟨t, h1, h2⟩ := h
    rw [Option.map_eq_some_iff] at h2
    obtain ⟨k, hk, hk2⟩ := h2
    simp only [Prod.mk.injEq] at hk2
    obtain ⟨rfl, rfl⟩ := hk2
    obtain ⟨r, hr, hi, he⟩ := updateIndices_eq h1
    refine ⟨hs, hcls, hfn, hcm, hlin, hp, hnm, hprevm, hnextq, ⟨r, hr, ?_⟩, hi, indexOf?_eq hk⟩
    rw [he]
    congr 1
    unfold toSilu
    congr 1
    funext c
    by_cases hc : c ∈ net.next m
    · have hcs : c ≠ s := by
        rintro rfl
        have h1 := (wf.fwd m hmL c hc).2
        rw [hp] at h1
        simp at h1; exact n3 h1.symm
      simp [hc, hcs]
    · by_cases hcs : c = s
      · subst hcs; simp [hc, hp]
      · simp [hc, hcs]
  · simp [Function.update_of_ne n2.symm, Function.update_of_ne n3.symm]
  · exact n2

end Verif.Opt

import Verif.CMem.Spec
import Verif.Graph.Exec
import Verif.Graph.Spec
import Verif.Graph.Live
import Verif.Graph.CstAlloc
import Mathlib.Tactic.Tauto

/-!
# The generated inference function refines the reference interpreter
-/

namespace Verif.Graph
open Prog

variable {prevOf nextOf : Nat → List Nat}

/-- inputs of a layer under a valuation of the layers -/
def argsOf {T : Type} (prevOf : Nat → List Nat) (x : T) (v : Nat → T) (n : Nat) : List T :=
  if prevOf n = [] then [x] else (prevOf n).map v

/-- order is duplicate free and producers come first -/
def Sorted (prevOf : Nat → List Nat) (order : List Nat) : Prop :=
  ∀ pre n post, order = pre ++ n :: post → n ∉ pre ∧ ∀ p ∈ prevOf n, p ∈ pre

theorem Sorted.nodup {order : List Nat} (h : Sorted prevOf order) : order.Nodup := by
  induction order using List.reverseRecOn with
  | nil => simp
  | append_singleton l a ih =>
    rw [List.nodup_append]
    refine ⟨ih ?_, by simp, ?_⟩
    · intro pre n post he
      exact h pre n (post ++ [a]) (by simp [he])
    · intro x hx y hy hxy
      simp at hy; subst hy; subst hxy
      exact (h l x [] rfl).1 hx

theorem publish_eq {T : Type} (n : Nat) (y : T) (ss : List Nat) (li : Inputs T)
    (h : ∀ s ∈ ss, (li s).isSome) :
    publish n y ss li = some (fun i => if i ∈ ss then
      (li i).map (fun d j => if j = n then some y else d j) else li i) := by
  induction ss generalizing li with
  | nil => simp [publish]
  | cons s ss ih =>
    obtain ⟨d, hd⟩ := Option.isSome_iff_exists.1 (h s (by simp))
    rw [publish, hd]
    simp only
    rw [ih]
    · congr 1
      funext i
      by_cases h1 : i ∈ ss <;> by_cases h2 : i = s
      · subst h2
        simp [h1, hd]
        funext j; by_cases hj : j = n <;> simp [hj]
      · simp [h1, h2]
      · subst h2; simp [h1, hd]
      · simp [h1, h2]
    · intro s' hs'
      by_cases h2 : s' = s
      · simp [h2]
      · simp [h2]; exact h s' (by simp [hs'])

/-- what `layer_inputs` contains after the layers of `done` -/
def liAt {T : Type} (nextOf : Nat → List Nat) (order : List Nat) (x : T) (v : Nat → T)
    (done : List Nat) : Inputs T := fun i =>
  if i ∈ order ∧ i ∉ done then
    some (fun j => if j ∈ done ∧ i ∈ nextOf j then some (v j) else if j = i then some x else none)
  else none

theorem mapM_some {A B : Type} (f : A → Option B) (g : A → B) (l : List A)
    (h : ∀ a ∈ l, f a = some (g a)) : l.mapM f = some (l.map g) := by
  induction l with
  | nil => rfl
  | cons a l ih =>
    rw [List.mapM_cons, h a (by simp), ih (fun b hb => h b (by simp [hb]))]
    rfl

theorem interp_steps {T : Type} {fwd : Nat → List T → T} {order : List Nat} {x : T}
    (hs : Sorted prevOf order) (hc : ∀ a b, a ∈ prevOf b ↔ b ∈ nextOf a)
    (hcl : ∀ n ∈ order, ∀ s ∈ nextOf n, s ∈ order)
    {v : Nat → T} (hv : ∀ n ∈ order, v n = fwd n (argsOf prevOf x v n)) :
    ∀ pre post, order = pre ++ post →
      pre.foldlM (interpStep prevOf nextOf fwd) (Inputs.init order x, none)
        = some (liAt nextOf order x v pre, pre.getLast?.map v) := by
  intro pre
  induction pre using List.reverseRecOn with
  | nil =>
    intro post _
    simp only [List.foldlM_nil, Option.pure_def, List.getLast?_nil, Option.map_none]
    congr 2
    funext i
    simp [Inputs.init, liAt]
  | append_singleton pre n ih =>
    intro post he
    rw [List.foldlM_append, ih (n :: post) (by simp [he])]
    obtain ⟨hn, hp⟩ := hs pre n post (by simp [he])
    have hno : n ∈ order := by simp [he]
    have hnself : n ∉ nextOf n := fun hh => hn (hp n ((hc n n).2 hh))
    have hg : gather (prevOf n) n (liAt nextOf order x v pre) = some (argsOf prevOf x v n) := by
      simp only [gather, liAt, hno, hn, not_false_eq_true, and_self, if_true, argsOf]
      by_cases h0 : prevOf n = []
      · simp [h0]
      · simp only [h0, if_false]
        apply mapM_some
        intro p hpm
        simp [hp p hpm, (hc p n).1 hpm]
    have hnextnew : ∀ s ∈ nextOf n, s ∈ order ∧ s ∉ pre ∧ s ≠ n := by
      intro s hsn
      have h1 := hcl n hno s hsn
      refine ⟨h1, ?_, ?_⟩
      · intro hsp
        obtain ⟨a, b, hab⟩ := List.append_of_mem hsp
        have := (hs a s (b ++ n :: post) (by simp [he, hab])).2 n ((hc n s).2 hsn)
        exact hn (by rw [hab]; simp [this])
      · rintro rfl; exact hnself hsn
    have hpub := publish_eq n (v n) (nextOf n) (liAt nextOf order x v pre) (by
      intro s hsn
      obtain ⟨h1, h2, _⟩ := hnextnew s hsn
      simp [liAt, h1, h2])
    simp only [List.foldlM_cons, List.foldlM_nil, Option.bind_eq_bind, Option.bind_some,
      interpStep, hg, ← hv n hno, hpub, Option.pure_def]
    congr 1
    refine Prod.ext ?_ (by simp)
    funext i
    simp only [liAt]
    by_cases hin : i = n
    · simp [hin]
    · by_cases hio : i ∈ order ∧ i ∉ pre
      · by_cases hinext : i ∈ nextOf n
        · simp [hin, hio, hinext]
          funext j
          by_cases hj : j = n
          · simp [hj, hinext]
          · simp [hj]
        · simp [hin, hio, hinext]
          funext j
          by_cases hj : j = n
          · subst hj; simp [hinext, hn]
          · simp [hj]
      · by_cases hinext : i ∈ nextOf n
        · exact absurd ⟨(hnextnew i hinext).1, (hnextnew i hinext).2.1⟩ hio
        · simp [hin, hinext, hio]

/-- A valuation satisfying the equations of the network exists for a sorted list of layers. -/
theorem exists_valuation {T : Type} [Inhabited T] {fwd : Nat → List T → T} {order : List Nat} {x : T}
    (hs : Sorted prevOf order) :
    ∃ v : Nat → T, ∀ n ∈ order, v n = fwd n (argsOf prevOf x v n) := by
  suffices H : ∀ pre post, order = pre ++ post →
      ∃ v : Nat → T, ∀ n ∈ pre, v n = fwd n (argsOf prevOf x v n) from H order [] (by simp)
  intro pre
  induction pre using List.reverseRecOn with
  | nil => intro _ _; exact ⟨fun _ => default, by simp⟩
  | append_singleton pre n ih =>
    intro post he
    obtain ⟨v, hv⟩ := ih (n :: post) (by simp [he])
    obtain ⟨hn, hp⟩ := hs pre n post (by simp [he])
    refine ⟨fun i => if i = n then fwd n (argsOf prevOf x v n) else v i, ?_⟩
    have hargs : ∀ i, (∀ p ∈ prevOf i, p ∈ pre) →
        argsOf prevOf x (fun i => if i = n then fwd n (argsOf prevOf x v n) else v i) i
          = argsOf prevOf x v i := by
      intro i hi
      unfold argsOf
      split
      · rfl
      · apply List.map_congr_left
        intro p hpm
        have : p ≠ n := fun h => hn (h ▸ hi p hpm)
        simp [this]
    intro i hi
    by_cases hin : i = n
    · subst hin; rw [hargs i hp]; simp
    · have hipre : i ∈ pre := by simpa [hin] using hi
      obtain ⟨a, b, hab⟩ := List.append_of_mem hipre
      have hpi := (hs a i (b ++ n :: post) (by simp [he, hab])).2
      rw [hargs i (fun p hpm => by rw [hab]; simp [hpi p hpm])]
      simp only [hin, if_false]
      exact hv i hipre

/-- The arrays the generated code only reads: the input and the parameters. -/
def ReadOnly : Buf → Prop
  | .input => True
  | .par _ _ => True
  | _ => False

/-- Behaviour expected of the code of one layer when the program starts in memory `m0`: from any memory with the
arrays, the input and the parameters of `m0`, in which the tensors of its producers are available where the code
looks for them (the network input for a layer without producer), it computes the layer's reference function into the
layer's buffer. -/
def LayerCodeOK {α : Type} (prevOf : Nat → List Nat) (plan : Plan) (fwd : Nat → List (List α) → List α)
    (code : Nat → List Buf → Buf → Prog α Unit) (m0 : Mem α) (size : Nat → Nat) (x : List α)
    (n : Nat) : Prop :=
  ∀ (m : Mem α) (v : Nat → List α), m.size = m0.size → (∀ b, ReadOnly b → m.val b = m0.val b) →
    (∀ p ∈ prevOf n, Holds m (outStr plan p) (v p) ∧ (v p).length = size p) →
    Computes (code n ((prevOf n).map (outStr plan)) (.out (plan.path n))) m (.out (plan.path n))
      (fwd n (argsOf prevOf x v n))

/-- Running the layers in order computes any valuation that the code of each layer computes. -/
theorem run_refines_val {α : Type} {plan : Plan}
    {code : Nat → List Buf → Buf → Prog α Unit} {m0 : Mem α} {size : Nat → Nat}
    (hs : Sorted prevOf plan.order) (hc : ∀ a b, a ∈ prevOf b ↔ b ∈ nextOf a)
    (hpath : ∀ pre post, plan.order = pre ++ post → ∀ p q, p ≠ q → Held nextOf pre p →
      Held nextOf pre q → plan.path p ≠ plan.path q)
    (hcst : ∀ pre post, plan.order = pre ++ post → ∀ p q, p ≠ q → CHeld nextOf pre p →
      CHeld nextOf pre q → plan.cst p ≠ plan.cst q)
    (hkey : ∀ n, (plan.cst n).isSome → (nextOf n).length > 1)
    {v : Nat → List α}
    (hok : ∀ n ∈ plan.order, ∀ m : Mem α, m.size = m0.size → (∀ b, ReadOnly b → m.val b = m0.val b) →
      (∀ p ∈ prevOf n, Holds m (outStr plan p) (v p) ∧ (v p).length = size p) →
      Computes (code n ((prevOf n).map (outStr plan)) (.out (plan.path n))) m (.out (plan.path n)) (v n))
    (hsz : ∀ n ∈ plan.order, (v n).length = size n)
    (hcs : ∀ n ∈ plan.order, ∀ k, plan.cst n = some k → size n ≤ m0.size (.cst k)) :
    ∀ post pre, plan.order = pre ++ post → ∀ m : Mem α, m.size = m0.size →
      (∀ b, ReadOnly b → m.val b = m0.val b) →
      (∀ p ∈ pre, (∃ s ∈ nextOf p, s ∉ pre) → Holds m (outStr plan p) (v p)) →
      (∀ n, pre.getLast? = some n → Holds m (.out (plan.path n)) (v n)) →
      ∃ m', runLayers plan prevOf size code post m = some ((), m') ∧ m'.size = m0.size ∧
        (∀ b, ReadOnly b → m'.val b = m0.val b) ∧
        ∀ n, plan.order.getLast? = some n → Holds m' (.out (plan.path n)) (v n) := by
  intro post
  induction post with
  | nil =>
    intro pre he m hm hx _ hlast
    exact ⟨m, rfl, hm, hx, by rw [he]; simpa using hlast⟩
  | cons n post ih =>
    intro pre he m hm hx hneed hlast
    obtain ⟨hn, hp⟩ := hs pre n post he
    have hno : n ∈ plan.order := by simp [he]
    have hnself : n ∉ nextOf n := fun hh => hn (hp n ((hc n n).2 hh))
    have hnextnew : ∀ s ∈ nextOf n, s ∉ pre ++ [n] := by
      intro s hsn hsp
      have hsp : s ∈ pre := by
        rcases List.mem_append.1 hsp with h | h
        · exact h
        · simp at h; subst h; exact absurd hsn hnself
      obtain ⟨a, b, hab⟩ := List.append_of_mem hsp
      have := (hs a s (b ++ n :: post) (by simp [he, hab])).2 n ((hc n s).2 hsn)
      exact hn (by rw [hab]; simp [this])
    obtain ⟨m1, e1, h1, c1⟩ := hok n hno m hm hx (fun p hpm =>
      ⟨hneed p (hp p hpm) ⟨n, (hc p n).1 hpm, hn⟩, hsz p (by rw [he]; simp [hp p hpm])⟩)
    have hm1 : m1.size = m0.size := by rw [c1.1, hm]
    -- the saved copy
    obtain ⟨m2, e2, h2, c2⟩ : ∃ m2, cstCopy plan size n m1 = some ((), m2) ∧
        (∀ k, plan.cst n = some k → Holds m2 (.cst k) (v n)) ∧
        OnlyChanges ((plan.cst n).toList.map Buf.cst) m1 m2 := by
      unfold cstCopy
      cases hk : plan.cst n with
      | none => exact ⟨m1, rfl, by simp, OnlyChanges.refl _ _⟩
      | some k =>
        obtain ⟨m2, e2, h2, c2⟩ := copy_holds (fun _ a => a) h1
          (dst := .cst k) (by rw [hm1, hsz n hno]; exact hcs n hno k hk)
        refine ⟨m2, by rw [← hsz n hno]; exact e2, ?_, by simpa using c2⟩
        intro k' hk'
        simp at hk'; subst hk'
        have : (v n).mapIdx (fun _ a => a) = v n := by
          apply List.ext_getElem <;> simp
        rw [this] at h2; exact h2
    have hm2 : m2.size = m0.size := by rw [c2.1, hm1]
    have keep2 : ∀ b t, Holds m1 b t → (∀ k, plan.cst n = some k → b ≠ .cst k) → Holds m2 b t := by
      intro b t hb hne
      refine hb.congr c2.1 (c2.2 b ?_)
      intro hh
      simp only [List.mem_map, Option.mem_toList] at hh
      obtain ⟨k, hk, rfl⟩ := hh
      exact hne k hk rfl
    have keep1 : ∀ b t, Holds m b t → b ≠ .out (plan.path n) → b ≠ .temp → Holds m1 b t := by
      intro b t hb h1 h2
      exact hb.congr c1.1 (c1.2 b (by simp [h1, h2]))
    obtain ⟨m', e', h'⟩ := ih (pre ++ [n]) (by simp [he]) m2 hm2
      (by
        intro b hb
        rw [c2.2 b (by
          intro hh; simp only [List.mem_map, Option.mem_toList] at hh
          obtain ⟨k, _, rfl⟩ := hh; exact hb), c1.2 b (by
          intro hh; simp at hh
          rcases hh with rfl | rfl <;> exact hb), hx b hb])
      (by
        intro p hpm hpneed
        by_cases hpn : p = n
        · subst hpn
          unfold outStr
          cases hk : plan.cst p with
          | none => exact keep2 _ _ h1 (by simp)
          | some k => exact h2 k hk
        · have hpp : p ∈ pre := by simpa [hpn] using hpm
          obtain ⟨s, hs1, hs2⟩ := hpneed
          have hold := hneed p hpp ⟨s, hs1, fun hh => hs2 (by simp [hh])⟩
          have hheldn : Held nextOf (pre ++ [n]) n := by
            refine ⟨by simp, ?_⟩
            cases hnx : nextOf n with
            | nil => left; rfl
            | cons a t => right; exact ⟨a, by simp, hnextnew a (by simp [hnx])⟩
          have hpne : plan.path p ≠ plan.path n :=
            hpath (pre ++ [n]) post (by simp [he]) p n hpn ⟨hpm, Or.inr ⟨s, hs1, hs2⟩⟩ hheldn
          unfold outStr at hold ⊢
          cases hk : plan.cst p with
          | none =>
            rw [hk] at hold
            exact keep2 _ _ (keep1 _ _ hold (by simpa using hpne) (by simp)) (by simp)
          | some k =>
            rw [hk] at hold
            refine keep2 _ _ (keep1 _ _ hold (by simp) (by simp)) ?_
            intro k' hk' hkk
            simp only [Buf.cst.injEq] at hkk
            subst hkk
            have hln : (nextOf n).length > 1 := hkey n (by simp [hk'])
            have hlp : (nextOf p).length > 1 := hkey p (by simp [hk])
            obtain ⟨a, ha⟩ : ∃ a, a ∈ nextOf n := by
              cases hnx : nextOf n with
              | nil => simp [hnx] at hln
              | cons a t => exact ⟨a, by simp⟩
            exact hcst (pre ++ [n]) post (by simp [he]) p n hpn ⟨hpm, hlp, s, hs1, hs2⟩
              ⟨by simp, hln, a, ha, hnextnew a ha⟩ (by rw [hk, hk']))
      (by
        intro n' hn'
        simp at hn'; subst hn'
        exact keep2 _ _ h1 (by simp))
    exact ⟨m', by rw [runLayers, andThen_run e1, andThen_run e2]; exact e', h'⟩

theorem run_refines {α : Type} {plan : Plan} {fwd : Nat → List (List α) → List α}
    {code : Nat → List Buf → Buf → Prog α Unit} {m0 : Mem α} {size : Nat → Nat} {x : List α}
    (hs : Sorted prevOf plan.order) (hc : ∀ a b, a ∈ prevOf b ↔ b ∈ nextOf a)
    (hpath : ∀ pre post, plan.order = pre ++ post → ∀ p q, p ≠ q → Held nextOf pre p →
      Held nextOf pre q → plan.path p ≠ plan.path q)
    (hcst : ∀ pre post, plan.order = pre ++ post → ∀ p q, p ≠ q → CHeld nextOf pre p →
      CHeld nextOf pre q → plan.cst p ≠ plan.cst q)
    (hkey : ∀ n, (plan.cst n).isSome → (nextOf n).length > 1)
    (hok : ∀ n ∈ plan.order, LayerCodeOK prevOf plan fwd code m0 size x n)
    {v : Nat → List α} (hv : ∀ n ∈ plan.order, v n = fwd n (argsOf prevOf x v n))
    (hsz : ∀ n ∈ plan.order, (v n).length = size n)
    (hcs : ∀ n ∈ plan.order, ∀ k, plan.cst n = some k → size n ≤ m0.size (.cst k)) :
    ∀ post pre, plan.order = pre ++ post → ∀ m : Mem α, m.size = m0.size →
      (∀ b, ReadOnly b → m.val b = m0.val b) →
      (∀ p ∈ pre, (∃ s ∈ nextOf p, s ∉ pre) → Holds m (outStr plan p) (v p)) →
      (∀ n, pre.getLast? = some n → Holds m (.out (plan.path n)) (v n)) →
      ∃ m', runLayers plan prevOf size code post m = some ((), m') ∧ m'.size = m0.size ∧
        (∀ b, ReadOnly b → m'.val b = m0.val b) ∧
        ∀ n, plan.order.getLast? = some n → Holds m' (.out (plan.path n)) (v n) :=
  run_refines_val hs hc hpath hcst hkey (fun n hn m hm hr hp => by rw [hv n hn]; exact hok n hn m v hm hr hp) hsz hcs

end Verif.Graph

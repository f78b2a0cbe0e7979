/-
C37 (choice of an implementation per layer) and C38 (registry of implementations).
-/
import Verif.Gen.Registry

namespace Verif.Gen

/-! ### Dictionaries -/

/-- The keys of a dictionary are distinct. -/
def PyDict.Keys {κ υ : Type} (d : PyDict κ υ) : Prop := (d.map Prod.fst).Nodup

variable {κ υ : Type} [DecidableEq κ]

theorem PyDict.get?_eq_some (d : PyDict κ υ) (hd : d.Keys) (k : κ) (v : υ) :
    d.get? k = some v ↔ (k, v) ∈ d := by
  unfold PyDict.get? PyDict.Keys at *
  induction d with
  | nil => simp
  | cons e d ih =>
    obtain ⟨a, b⟩ := e
    simp only [List.map_cons, List.nodup_cons] at hd
    rw [List.lookup_cons]
    by_cases h : k = a
    · subst h
      simp only [beq_self_eq_true, List.mem_cons, Prod.mk.injEq, true_and]
      constructor
      · intro h; left; simpa using h.symm
      · rintro (rfl | h)
        · rfl
        · exact absurd (List.mem_map_of_mem (f := Prod.fst) h) hd.1
    · have : (k == a) = false := by simpa using h
      simp only [this, ih hd.2, List.mem_cons, Prod.mk.injEq, h, false_and, false_or]

theorem PyDict.get?_eq_none (d : PyDict κ υ) (k : κ) :
    d.get? k = none ↔ k ∉ d.map Prod.fst := by
  unfold PyDict.get?
  induction d with
  | nil => simp
  | cons e d ih =>
    obtain ⟨a, b⟩ := e
    rw [List.lookup_cons]
    by_cases h : k = a
    · subst h; simp
    · have : (k == a) = false := by simpa using h
      simp only [this, ih, List.map_cons, List.mem_cons, h, false_or]

theorem PyDict.get?_perm (d d' : PyDict κ υ) (hd : d.Keys) (h : d.Perm d') (k : κ) :
    d'.get? k = d.get? k := by
  have hd' : d'.Keys := ((h.map Prod.fst).nodup_iff).mp hd
  rcases hk : d.get? k with _ | v
  · rw [PyDict.get?_eq_none] at hk ⊢
    exact fun h' => hk ((h.map Prod.fst).mem_iff.mpr h')
  · rw [PyDict.get?_eq_some _ hd] at hk
    rw [PyDict.get?_eq_some _ hd']
    exact h.mem_iff.mp hk

theorem PyDict.set_keys (d : PyDict κ υ) (hd : d.Keys) (k : κ) (v : υ) :
    (d.set k v).Keys := by
  unfold PyDict.set PyDict.Keys at *
  split
  · have : (d.map fun e => if e.1 = k then (k, v) else e).map Prod.fst = d.map Prod.fst := by
      rw [List.map_map]
      apply List.map_congr_left
      intro e _
      simp only [Function.comp]
      split <;> simp_all
    rw [this]; exact hd
  · rename_i h
    rw [List.map_append]
    simp only [List.any_eq_true, beq_iff_eq, not_exists, not_and] at h
    simp only [List.map_cons, List.map_nil]
    rw [List.nodup_append]
    refine ⟨hd, by simp, ?_⟩
    intro a ha b hb
    simp only [List.mem_singleton] at hb
    subst hb
    obtain ⟨e, he, rfl⟩ := List.mem_map.mp ha
    exact h e he

theorem PyDict.get?_set (d : PyDict κ υ) (k : κ) (v : υ) (k' : κ) :
    (d.set k v).get? k' = if k' = k then some v else d.get? k' := by
  unfold PyDict.set PyDict.get?
  split
  · rename_i h
    induction d with
    | nil => simp at h
    | cons e d ih =>
      obtain ⟨a, b⟩ := e
      by_cases ha : a = k
      · subst ha
        simp only [List.map_cons, if_true, List.lookup_cons]
        by_cases hk : k' = a
        · subst hk; simp
        · have h' : (k' == a) = false := by simpa using hk
          simp only [h', hk, if_false]
          by_cases hm : d.any (fun e => e.1 == a)
          · simpa [hk] using ih hm
          · congr 1
            conv_rhs => rw [← List.map_id d]
            apply List.map_congr_left
            intro e he
            simp only [List.any_eq_true, beq_iff_eq, not_exists, not_and] at hm
            simp [hm e he]
      · have hm : d.any (fun e => e.1 == k) := by simpa [ha] using h
        simp only [List.map_cons, ha, if_false, List.lookup_cons]
        by_cases hk : k' = a
        · subst hk; simp [ha]
        · have h' : (k' == a) = false := by simpa using hk
          simp only [h']
          exact ih hm
  · rename_i h
    induction d with
    | nil =>
      simp only [List.nil_append, List.lookup_cons, List.lookup_nil]
      by_cases hk : k' = k
      · simp [hk]
      · have h' : (k' == k) = false := by simpa using hk
        simp [h', hk]
    | cons e d ih =>
      obtain ⟨a, b⟩ := e
      simp only [List.any_cons, Bool.or_eq_true, beq_iff_eq, not_or] at h
      simp only [List.cons_append, List.lookup_cons]
      by_cases hk : k' = a
      · subst hk; simp [h.1]
      · have h' : (k' == a) = false := by simpa using hk
        simp only [h']
        exact ih h.2

/-! ### C38 -/

variable {V : Type}

theorem register_ok (f f' : Factory V) (n : VariantName) (v : V)
    (h : f.register n v = .ok f') :
    f.impls.get? n = none ∧ (f.impls.set n v).Perm f'.impls := by
  unfold Factory.register at h
  split at h
  · simp at h
  · rename_i hn
    simp only [Except.ok.injEq] at h
    subst h
    exact ⟨by simpa using hn, (List.perm_insertionSort _ _).symm⟩

theorem register_keys (f f' : Factory V) (n : VariantName) (v : V)
    (hf : f.impls.Keys) (h : f.register n v = .ok f') : f'.impls.Keys := by
  have hp := (register_ok f f' n v h).2
  exact ((hp.map Prod.fst).nodup_iff).mp (PyDict.set_keys _ hf n v)

/-- Registering a name is refused exactly when a variant is already registered
under it. -/
theorem C38_refused_iff (f : Factory V) (n : VariantName) (v : V) :
    f.register n v = .error .keyError ↔ ∃ w, f.call n = .ok w := by
  unfold Factory.register Factory.call
  rcases h : f.impls.get? n with _ | w <;> simp

/-- After an accepted registration the new name gives the registered variant and
every other name gives what it gave before. -/
theorem C38_accepted (f f' : Factory V) (n : VariantName) (v : V)
    (hf : f.impls.Keys) (h : f.register n v = .ok f') :
    f'.call n = .ok v ∧ ∀ n', n' ≠ n → f'.call n' = f.call n' := by
  have hp := (register_ok f f' n v h).2
  have key : ∀ n', f'.impls.get? n' = if n' = n then some v else f.impls.get? n' := by
    intro n'
    rw [PyDict.get?_perm _ _ (PyDict.set_keys _ hf n v) hp, PyDict.get?_set]
  constructor
  · simp [Factory.call, key]
  · intro n' hn'; simp [Factory.call, key, hn']

theorem registerAll_spec (hist : List (VariantName × V)) (f : Factory V)
    (hf : f.impls.Keys) :
    (f.registerAll hist).impls.Keys ∧
    ∀ n, (f.registerAll hist).impls.get? n =
      (f.impls.get? n).or ((hist.find? fun e => e.1 == n).map Prod.snd) := by
  induction hist generalizing f with
  | nil => simp [Factory.registerAll, hf]
  | cons e hist ih =>
    obtain ⟨n₀, v⟩ := e
    unfold Factory.registerAll
    rcases h : f.register n₀ v with err | f'
    · dsimp only
      refine ⟨(ih f hf).1, fun n => ?_⟩
      rw [(ih f hf).2]
      by_cases hn : n₀ = n
      · subst hn
        have hsome : (f.impls.get? n₀).isSome := by
          unfold Factory.register at h
          split at h
          · assumption
          · simp at h
        obtain ⟨w, hw⟩ := Option.isSome_iff_exists.mp hsome
        simp [hw]
      · simp [hn]
    · dsimp only
      have hk := register_keys f f' n₀ v hf h
      refine ⟨(ih f' hk).1, fun n => ?_⟩
      rw [(ih f' hk).2]
      have hp := register_ok f f' n₀ v h
      rw [PyDict.get?_perm _ _ (PyDict.set_keys _ hf n₀ v) hp.2, PyDict.get?_set]
      by_cases hn : n₀ = n
      · subst hn; simp [hp.1]
      · have : ¬ n = n₀ := fun h => hn h.symm
        simp [hn, this]

/-- C38.  For every sequence of registrations issued to a new factory (refused
ones included), asking for a name returns the variant of the **first**
registration under that name, and `KeyError` if there was none. -/
theorem C38_lookup (name : String) (hist : List (VariantName × V)) (n : VariantName) :
    ((Factory.new name).registerAll hist).call n =
      match hist.find? (fun e => e.1 == n) with
      | some (_, v) => .ok v
      | none => .error .keyError := by
  have h := (registerAll_spec hist (Factory.new name)
    (by simp [Factory.new, PyDict.Keys])).2 n
  unfold Factory.call
  rw [h]
  simp only [Factory.new, PyDict.get?, List.lookup_nil, Option.none_or]
  cases hist.find? (fun e => e.1 == n) <;> rfl

theorem registerAll_sorted (hist : List (VariantName × V)) (f : Factory V)
    (hf : f.impls.Pairwise fun a b => sortKey a.1 ≤ sortKey b.1) :
    (f.registerAll hist).impls.Pairwise fun a b => sortKey a.1 ≤ sortKey b.1 := by
  induction hist generalizing f with
  | nil => exact hf
  | cons e hist ih =>
    obtain ⟨n₀, v⟩ := e
    unfold Factory.registerAll
    rcases h : f.register n₀ v with err | f'
    · exact ih f hf
    · refine ih f' ?_
      unfold Factory.register at h
      split at h
      · simp at h
      · simp only [Except.ok.injEq] at h
        subst h
        dsimp only
        have : Std.Total (fun a b : VariantName × V => sortKey a.1 ≤ sortKey b.1) :=
          ⟨fun a b => le_total _ _⟩
        have : IsTrans (VariantName × V) (fun a b => sortKey a.1 ≤ sortKey b.1) :=
          ⟨fun a b c => le_trans⟩
        exact List.pairwise_insertionSort _ _

/-- C38.  `list_implementations` gives, in strictly increasing order, exactly the
non-`None` names that were registered. -/
theorem C38_list (name : String) (hist : List (VariantName × V)) :
    let l := ((Factory.new name).registerAll hist).listImplementations
    l.Pairwise (· < ·) ∧ ∀ s, s ∈ l ↔ some s ∈ hist.map Prod.fst := by
  have hs := registerAll_spec hist (Factory.new name) (by simp [Factory.new, PyDict.Keys])
  have ho := registerAll_sorted hist (Factory.new name) (by simp [Factory.new])
  obtain ⟨hk, hg⟩ := hs
  generalize (Factory.new name).registerAll hist = g at *
  intro l
  have hmem : ∀ n, n ∈ g.impls.map Prod.fst ↔ n ∈ hist.map Prod.fst := by
    intro n
    have h1 := PyDict.get?_eq_none g.impls n
    rw [hg n] at h1
    simp only [Factory.new, PyDict.get?, List.lookup_nil, Option.none_or,
      Option.map_eq_none_iff, List.find?_eq_none, beq_iff_eq] at h1
    constructor
    · intro h
      by_contra hc
      exact (h1.mp fun e he hen => hc (hen ▸ List.mem_map_of_mem he)) h
    · intro h
      by_contra hc
      obtain ⟨e, he, hen⟩ := List.mem_map.mp h
      exact h1.mpr hc e he hen
  constructor
  · have hne : g.impls.Pairwise fun a b => a.1 ≠ b.1 := List.pairwise_map.mp hk
    have := hne.and ho
    refine List.Pairwise.filterMap (R := fun a b => a.1 ≠ b.1 ∧ sortKey a.1 ≤ sortKey b.1)
      (fun e : VariantName × V => e.1) ?_ this
    intro a a' h b hb b' hb'
    rw [hb, hb'] at h
    simp only [ne_eq, Option.some.injEq, sortKey] at h
    exact lt_of_le_of_ne h.2 h.1
  · intro s
    rw [← hmem]
    simp [l, Factory.listImplementations, List.mem_filterMap, List.mem_map]

/-- C38 for the table of layer types: a type that is already known cannot be
redefined, and an accepted one changes no other type. -/
theorem C38_factories (implemented : PyDict String (Factory V)) (n : String)
    (f : Factory V) :
    (registerFactory implemented n f = .error .keyError ↔
      ∃ g, implemented.get? n = some g) ∧
    ∀ implemented', registerFactory implemented n f = .ok implemented' →
      ∀ n', implemented'.get? n' = if n' = n then some f else implemented.get? n' := by
  constructor
  · unfold registerFactory
    rcases h : implemented.get? n with _ | w <;> simp
  · intro d' h n'
    unfold registerFactory at h
    split at h
    · simp at h
    · simp only [Except.ok.injEq] at h
      subst h
      exact PyDict.get?_set _ _ _ _

/-- Non-vacuity: a history with a refused duplicate and a `None` entry. -/
example :
    let f := (Factory.new "Conv2D").registerAll
      [(none, 1), (some "b", 2), (some "6loops", 3), (some "b", 4)]
    f.call (some "b") = .ok 2 ∧ f.call none = .ok 1 ∧ f.call (some "zz") = .error .keyError ∧
      f.listImplementations = ["6loops", "b"] := by
  decide +kernel

/-! ### C37 -/

/-- The implementation the documentation promises for a layer: the one requested
for its index, else the one requested for its type, else the default
(`6loops` for `Conv2D`, `None` otherwise). -/
def documentedChoice (versions : Option (PyDict VKey VariantName)) (l : Named) :
    VariantName :=
  match versions.bind (fun vs => vs.get? (.idx l.idx)) with
  | some v => v
  | none =>
    match versions.bind (fun vs => vs.get? (.name l.name)) with
    | some v => v
    | none => if l.name = "Conv2D" then some "6loops" else none

theorem default_lookup (s : String) :
    (defaultImplementations.get? s).getD none =
      if s = "Conv2D" then some "6loops" else none := by
  unfold defaultImplementations PyDict.get?
  rw [List.lookup_cons]
  by_cases h : s = "Conv2D"
  · simp [h]
  · have : (s == "Conv2D") = false := by simpa using h
    simp [this, h]

theorem selectStep_get (versions : Option (PyDict VKey VariantName))
    (sel : PyDict Nat VariantName) (l : Named) (i : Nat) :
    (selectStep versions sel l).get? i =
      if i = l.idx then some (documentedChoice versions l) else sel.get? i := by
  unfold selectStep documentedChoice
  dsimp only
  rw [default_lookup]
  rcases versions with _ | vs
  · dsimp only [Option.bind_none]
    rw [PyDict.get?_set]
  · dsimp only [Option.bind_some]
    rcases vs.get? (.idx l.idx) with _ | v
    · dsimp only
      rcases vs.get? (.name l.name) with _ | v
      · dsimp only; rw [PyDict.get?_set]
      · dsimp only
        rw [PyDict.get?_set, PyDict.get?_set]
        split <;> simp_all
    · dsimp only
      rw [PyDict.get?_set, PyDict.get?_set]
      split <;> simp_all

theorem selectStep_keys (versions : Option (PyDict VKey VariantName))
    (sel : PyDict Nat VariantName) (l : Named) (h : sel.Keys) :
    (selectStep versions sel l).Keys := by
  unfold selectStep
  dsimp only
  have h' := PyDict.set_keys sel h l.idx ((defaultImplementations.get? l.name).getD none)
  rcases versions with _ | vs
  · exact h'
  · dsimp only
    rcases vs.get? (.idx l.idx) with _ | v
    · dsimp only
      rcases vs.get? (.name l.name) with _ | v
      · exact h'
      · exact PyDict.set_keys _ h' _ _
    · exact PyDict.set_keys _ h' _ _

theorem select_keys (versions : Option (PyDict VKey VariantName)) (layers : List Named) :
    (selectLayersImplementation layers versions).Keys := by
  unfold selectLayersImplementation
  have : ∀ (sel : PyDict Nat VariantName), sel.Keys →
      (layers.foldl (selectStep versions) sel).Keys := by
    induction layers with
    | nil => exact fun _ h => h
    | cons l ls ih => exact fun sel h => ih _ (selectStep_keys versions sel l h)
  exact this [] (by simp [PyDict.Keys])

theorem select_get (versions : Option (PyDict VKey VariantName)) (layers : List Named)
    (sel : PyDict Nat VariantName) (i : Nat) :
    (layers.foldl (selectStep versions) sel).get? i =
      match layers.reverse.find? (fun l => l.idx == i) with
      | some l => some (documentedChoice versions l)
      | none => sel.get? i := by
  induction layers generalizing sel with
  | nil => simp
  | cons l ls ih =>
    rw [List.foldl_cons, ih, List.reverse_cons, List.find?_append]
    rcases h : ls.reverse.find? (fun l => l.idx == i) with _ | l'
    · rw [h]
      dsimp only
      rw [selectStep_get]
      by_cases hi : l.idx = i
      · subst hi; simp
      · have : ¬ i = l.idx := fun h => hi h.symm
        simp [hi, this]
    · rw [h]; simp

/-- C37.  With distinct layer indices, whatever the user requests, the dictionary
of selected implementations holds for each layer exactly the documented choice —
which depends on that layer's own index and type only. -/
theorem C37_selection (layers : List Named) (hidx : (layers.map Named.idx).Nodup)
    (versions : Option (PyDict VKey VariantName)) (l : Named) (hl : l ∈ layers) :
    (selectLayersImplementation layers versions).get? l.idx =
      some (documentedChoice versions l) := by
  unfold selectLayersImplementation
  rw [select_get]
  rcases h : layers.reverse.find? (fun l' => l'.idx == l.idx) with _ | l'
  · rw [List.find?_eq_none] at h
    exact absurd (h l (List.mem_reverse.mpr hl)) (by simp)
  · have h1 := List.find?_some h
    have h2 := List.mem_reverse.mp (List.mem_of_find?_eq_some h)
    have : l' = l := List.inj_on_of_nodup_map hidx h2 hl (by simpa using h1)
    rw [h, this]

/-- The layer object the user gets for an old layer and a version: built by the
variant registered under that version for the layer's type, with the path, links,
output array and activation of the old layer. -/
def Rebuilt {B : Type} (implemented : PyDict String (Factory (Variant B)))
    (old new : LObj B) (v : VariantName) : Prop :=
  ∃ fac build, implemented.get? old.name = some fac ∧ fac.call v = .ok build ∧
    new = { build old v with
      path := old.path, nextLayer := old.nextLayer, previousLayer := old.previousLayer,
      outputStr := old.outputStr, activation := old.activation }

theorem reversion_ok {B : Type} (implemented : PyDict String (Factory (Variant B)))
    (old new : LObj B) (v : VariantName) :
    reversion implemented old v = .ok new ↔ Rebuilt implemented old new v := by
  unfold reversion Rebuilt
  rcases h : implemented.get? old.name with _ | fac
  · simp
  · dsimp only
    rcases h2 : fac.call v with e | build
    · simp [h2]
    · simp [h2, eq_comm]

theorem versioningKey_spec {B : Type} (implemented : PyDict String (Factory (Variant B)))
    (idx : Nat) (v : VariantName) (ls ls' : List (LObj B))
    (h : versioningKey implemented idx v ls = .ok ls') :
    List.Forall₂ (fun o n => if o.idx = idx then Rebuilt implemented o n v else n = o) ls ls' := by
  induction ls generalizing ls' with
  | nil =>
    simp only [versioningKey, Except.ok.injEq] at h
    subst h; exact List.Forall₂.nil
  | cons l ls ih =>
    simp only [versioningKey, bind, Except.bind] at h
    by_cases hi : l.idx = idx
    · rw [if_pos hi] at h
      rcases hl' : reversion implemented l v with e | l'
      · rw [hl'] at h; cases h
      · rcases hr : versioningKey implemented idx v ls with e | rest'
        · rw [hl', hr] at h; cases h
        · rw [hl', hr] at h
          simp only [pure, Except.pure, Except.ok.injEq] at h
          subst h
          refine List.Forall₂.cons ?_ (ih rest' hr)
          rw [if_pos hi]
          exact (reversion_ok implemented l l' v).mp hl'
    · rw [if_neg hi] at h
      rcases hr : versioningKey implemented idx v ls with e | rest'
      · rw [hr] at h; cases h
      · rw [hr] at h
        simp only [pure, Except.pure, Except.ok.injEq] at h
        subst h
        refine List.Forall₂.cons ?_ (ih rest' hr)
        rw [if_neg hi]

/-- The variants keep the index of the layer they rebuild, as every variant of the
package does (`idx=old_layer.idx` in each `*_implementation` function, e.g.
`Conv2D6loops.py` 71-95). -/
def KeepsIdentity {B : Type} (implemented : PyDict String (Factory (Variant B))) : Prop :=
  ∀ s fac v build, implemented.get? s = some fac → fac.call v = .ok build →
    ∀ old : LObj B, (build old v).idx = old.idx

theorem versioning_spec {B : Type} (implemented : PyDict String (Factory (Variant B)))
    (hkeep : KeepsIdentity implemented) (sel : PyDict Nat VariantName) (hsel : sel.Keys)
    (ls ls' : List (LObj B)) (h : versioning implemented ls sel = .ok ls') :
    List.Forall₂ (fun o n => match sel.get? o.idx with
      | some v => Rebuilt implemented o n v
      | none => n = o) ls ls' := by
  induction sel generalizing ls with
  | nil =>
    simp only [versioning, Except.ok.injEq] at h
    subst h
    simp [PyDict.get?]
  | cons e sel ih =>
    obtain ⟨idx, v⟩ := e
    have hk : idx ∉ sel.map Prod.fst ∧ PyDict.Keys sel := by
      simpa [PyDict.Keys] using hsel
    simp only [versioning, bind, Except.bind] at h
    split at h
    · cases h
    · rename_i ls1 h1
      have f1 := versioningKey_spec implemented idx v ls ls1 h1
      have f2 := ih hk.2 ls1 h
      clear h h1 ih
      induction f1 generalizing ls' with
      | nil => cases f2; exact List.Forall₂.nil
      | cons hd tl ih =>
        cases f2 with
        | cons hd2 tl2 =>
          refine List.Forall₂.cons ?_ (ih _ tl2)
          rename_i o n1 _ _ n2 _
          simp only [PyDict.get?, List.lookup_cons]
          by_cases hi : o.idx = idx
          · have hb : (o.idx == idx) = true := by simpa using hi
            rw [if_pos hi] at hd
            simp only [hb]
            have hn : n1.idx = idx := by
              obtain ⟨fac, build, a, b, c⟩ := hd
              rw [c]; exact (hkeep _ fac v build a b o).trans hi
            have hnone : PyDict.get? sel n1.idx = none := by
              rw [PyDict.get?_eq_none, hn]; exact hk.1
            rw [hnone] at hd2
            dsimp only at hd2
            rw [hd2]; exact hd
          · have hb : (o.idx == idx) = false := by simpa using hi
            rw [if_neg hi] at hd
            subst hd
            simp only [hb]
            exact hd2

/-- C37, whole pipeline.  If the layers have distinct indices and versioning
succeeds, every layer is replaced by the object built by the variant registered
for its type under the documented choice for that layer, with its path, links,
output array and activation kept. -/
theorem C37_versioning {B : Type} (implemented : PyDict String (Factory (Variant B)))
    (hkeep : KeepsIdentity implemented) (ls ls' : List (LObj B))
    (hidx : (ls.map LObj.idx).Nodup) (versions : Option (PyDict VKey VariantName))
    (h : versioning implemented ls
      (selectLayersImplementation (ls.map fun l => ⟨l.idx, l.name⟩) versions) = .ok ls') :
    List.Forall₂ (fun o n =>
      Rebuilt implemented o n (documentedChoice versions ⟨o.idx, o.name⟩)) ls ls' := by
  have hs := versioning_spec implemented hkeep _ (select_keys versions _) ls ls' h
  have hsel : ∀ o ∈ ls, (selectLayersImplementation
      (ls.map fun l => (⟨l.idx, l.name⟩ : Named)) versions).get? o.idx =
      some (documentedChoice versions ⟨o.idx, o.name⟩) := by
    intro o ho
    have := C37_selection (ls.map fun l => (⟨l.idx, l.name⟩ : Named))
      (by rw [List.map_map]; exact hidx) versions ⟨o.idx, o.name⟩
      (List.mem_map.mpr ⟨o, ho, rfl⟩)
    exact this
  generalize selectLayersImplementation
      (ls.map fun l => (⟨l.idx, l.name⟩ : Named)) versions = sel at *
  clear h hidx
  induction hs with
  | nil => exact List.Forall₂.nil
  | cons hd tl ih =>
    refine List.Forall₂.cons ?_ (ih fun o ho => hsel o (List.mem_cons_of_mem _ ho))
    rename_i a b _ _
    rw [hsel a (List.mem_cons_self ..)] at hd
    exact hd

/-- C37, failure side: with a known variant for every layer versioning succeeds. -/
theorem C37_versioning_total {B : Type} (implemented : PyDict String (Factory (Variant B)))
    (hkeep : KeepsIdentity implemented)
    (hname : ∀ s fac v build, implemented.get? s = some fac → fac.call v = .ok build →
      ∀ old : LObj B, (build old v).name = old.name)
    (ls : List (LObj B)) (sel : PyDict Nat VariantName)
    (hknown : ∀ l ∈ ls, ∀ v, (l.idx, v) ∈ sel →
      ∃ fac build, implemented.get? l.name = some fac ∧ fac.call v = .ok build) :
    ∃ ls', versioning implemented ls sel = .ok ls' := by
  induction sel generalizing ls with
  | nil => exact ⟨ls, rfl⟩
  | cons e sel ih =>
    obtain ⟨idx, v⟩ := e
    have key : ∀ ms : List (LObj B), (∀ l ∈ ms, ∀ v', (l.idx, v') ∈ (idx, v) :: sel →
        ∃ fac build, implemented.get? l.name = some fac ∧ fac.call v' = .ok build) →
        ∃ ms', versioningKey implemented idx v ms = .ok ms' := by
      intro ms hms
      induction ms with
      | nil => exact ⟨[], rfl⟩
      | cons m ms ihm =>
        obtain ⟨ms', hms'⟩ := ihm (fun l hl => hms l (List.mem_cons_of_mem _ hl))
        simp only [versioningKey, bind, Except.bind]
        by_cases hi : m.idx = idx
        · obtain ⟨fac, build, a, b⟩ := hms m (List.mem_cons_self ..) v (by rw [hi]; simp)
          have hr := (reversion_ok implemented m _ v).mpr ⟨fac, build, a, b, rfl⟩
          rw [if_pos hi, hr]
          simp [hms', pure, Except.pure]
        · rw [if_neg hi]
          simp [hms', pure, Except.pure]
    obtain ⟨ls1, h1⟩ := key ls hknown
    have f1 := versioningKey_spec implemented idx v ls ls1 h1
    have hid : List.Forall₂ (fun o n : LObj B => n.idx = o.idx ∧ n.name = o.name) ls ls1 := by
      refine f1.imp ?_
      intro o n hon
      split at hon
      · obtain ⟨fac, build, a, b, c⟩ := hon
        rw [c]
        exact ⟨hkeep _ fac v build a b o, hname _ fac v build a b o⟩
      · rw [hon]; exact ⟨rfl, rfl⟩
    have hk1 : ∀ l ∈ ls1, ∀ v', (l.idx, v') ∈ sel →
        ∃ fac build, implemented.get? l.name = some fac ∧ fac.call v' = .ok build := by
      intro l hl v' hv'
      obtain ⟨i, hi, rfl⟩ := List.mem_iff_getElem.mp hl
      have hlen := hid.length_eq
      have h3 := List.Forall₂.get hid (by omega : i < ls.length) hi
      simp only [List.get_eq_getElem] at h3
      rw [h3.2]
      refine hknown _ (List.getElem_mem (by omega)) v' ?_
      rw [← h3.1]
      exact List.mem_cons_of_mem _ hv'
    obtain ⟨ls', h'⟩ := ih ls1 hk1
    exact ⟨ls', by simp only [versioning, bind, Except.bind, h1, h']⟩

/-- The registry filled by the package knows, for every layer type, the default
choice of `select_layers_implementation`. -/
theorem C37_default_known (s : String) (hs : s ∈ builtin.map Prod.fst) :
    ∃ fac w, builtinRegistry.get? s = some fac ∧
      fac.call (documentedChoice none ⟨0, s⟩) = .ok w := by
  have key : ∀ s ∈ builtin.map Prod.fst, (builtinRegistry.get? s).any (fun fac =>
      (fac.impls.get? (documentedChoice none ⟨0, s⟩)).isSome) = true := by decide +kernel
  have h := key s hs
  rcases hf : builtinRegistry.get? s with _ | fac
  · rw [hf] at h; simp at h
  · rw [hf] at h
    simp only [Option.any_some] at h
    obtain ⟨w, hw⟩ := Option.isSome_iff_exists.mp h
    exact ⟨fac, w, rfl, by simp [Factory.call, hw]⟩

/-- The names the documentation gives (`README.md` 102, `cli/generate.py` 113): the nine convolution
algorithms, and `default` for the other types. -/
def documentedNames : List (String × String) :=
  [("Conv2D", "6loops"), ("Conv2D", "std_gemm_nn"), ("Conv2D", "std_gemm_nt"), ("Conv2D", "std_gemm_tn"),
   ("Conv2D", "std_gemm_tt"), ("Conv2D", "indirect_gemm_nn"), ("Conv2D", "indirect_gemm_nt"),
   ("Conv2D", "indirect_gemm_tn"), ("Conv2D", "indirect_gemm_tt"), ("Conv2D", "direct_block"),
   ("AveragePooling2D", "channels_last"), ("MaxPooling2D", "channels_last")] ++
  (builtin.filter (fun e => e.1 ≠ "Conv2D")).map fun e => (e.1, "default")

/-- Every documented name is accepted for its layer type. -/
theorem C37_documented_known (s v : String) (h : (s, v) ∈ documentedNames) :
    ∃ fac w, builtinRegistry.get? s = some fac ∧ fac.call (some v) = .ok w := by
  have key : ∀ p ∈ documentedNames, (builtinRegistry.get? p.1).any (fun fac =>
      (fac.impls.get? (some p.2)).isSome) = true := by decide +kernel
  have h := key _ h
  rcases hf : builtinRegistry.get? s with _ | fac
  · rw [hf] at h; simp at h
  · rw [hf] at h
    simp only [Option.any_some] at h
    obtain ⟨w, hw⟩ := Option.isSome_iff_exists.mp h
    exact ⟨fac, w, rfl, by simp [Factory.call, hw]⟩

/-- C37 needs distinct indices: with two layers of the same index (see C36) the
request for the type of the last one decides for both. -/
theorem C37_fails_duplicate :
    ∃ (layers : List Named) (versions : Option (PyDict VKey VariantName)),
      ∃ l ∈ layers, (selectLayersImplementation layers versions).get? l.idx ≠
        some (documentedChoice versions l) :=
  ⟨[⟨2, "Conv2D"⟩, ⟨2, "Dense"⟩], some [(.name "Dense", some "default")],
    ⟨2, "Conv2D"⟩, by simp, by decide +kernel⟩

/-- Non-vacuity: index beats type beats default. -/
example :
    let layers : List Named := [⟨0, "Input_layer"⟩, ⟨1, "Conv2D"⟩, ⟨2, "Conv2D"⟩, ⟨3, "Conv2D"⟩]
    let sel := selectLayersImplementation layers
      (some [(.idx 1, some "direct_block"), (.name "Conv2D", some "std_gemm_nn")])
    (sel.get? 0, sel.get? 1, sel.get? 2, (selectLayersImplementation layers none).get? 3) =
      (some none, some (some "direct_block"), some (some "std_gemm_nn"),
        some (some "6loops")) := by
  decide +kernel

/-- Non-vacuity of the pipeline theorems: a registry with one variant that records
the version it was built for, two convolutions and one request by index. -/
example :
    let conv : Factory (Variant VariantName) :=
      (Factory.new "Conv2D").registerAll
        [(some "6loops", fun o v => ⟨o.idx, o.name, 0, [], [], "", "", v⟩),
         (some "direct_block", fun o v => ⟨o.idx, o.name, 0, [], [], "", "", v⟩)]
    let impl : PyDict String (Factory (Variant VariantName)) := [("Conv2D", conv)]
    let ls : List (LObj VariantName) :=
      [⟨1, "Conv2D", 7, [2], [0], "output_7", "relu", none⟩,
       ⟨2, "Conv2D", 8, [], [1], "output_8", "linear", none⟩]
    (ls.map LObj.idx).Nodup ∧
    (versioning impl ls (selectLayersImplementation
        (ls.map fun l => ⟨l.idx, l.name⟩) (some [(.idx 2, some "direct_block")]))).toOption =
      some [⟨1, "Conv2D", 7, [2], [0], "output_7", "relu", some "6loops"⟩,
          ⟨2, "Conv2D", 8, [], [1], "output_8", "linear", some "direct_block"⟩] := by
  decide +kernel

end Verif.Gen

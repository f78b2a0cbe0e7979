/-
C48: the debug helpers.
-/
import Verif.Gen.Debug
import Verif.CMem.Loops
import Mathlib.Data.List.Perm.Basic
import Mathlib.Tactic.Linarith
import Mathlib.Tactic.Ring

namespace Verif.Gen

/-! ### Specification -/

/-- A recorded output: its value, the name and the index of its layer. -/
structure Rec (V : Type) where
  out : V
  name : List Char
  idx : Nat

/-- The two parallel lists in which records are handed over. -/
def recLists {V : Type} (rs : List (Rec V)) : List V × List (List Char) :=
  (rs.map (·.out), rs.map fun r => targetText r.name r.idx)

/-- `r` is the last record of its layer in `rs`. -/
def LastOf {V : Type} (rs : List (Rec V)) (r : Rec V) : Prop :=
  ∃ pre post, rs = pre ++ r :: post ∧ ∀ q ∈ post, q.idx ≠ r.idx

/-- in strictly increasing order of layer index -/
def ByIndex {V : Type} (rs : List (Rec V)) : Prop := rs.Pairwise fun a b => a.idx < b.idx

/-! ### Texts -/

theorem splitSp_ne (s : List Char) : splitSp s ≠ [] := by
  cases s with
  | nil => simp [splitSp]
  | cons c cs => unfold splitSp; split <;> simp; split <;> simp

theorem splitSp_single (s : List Char) (h : ' ' ∉ s) : splitSp s = [s] := by
  induction s with
  | nil => rfl
  | cons c cs ih =>
    simp only [List.mem_cons, not_or] at h
    rw [splitSp, ih h.2]
    dsimp only
    rw [if_neg (fun e => h.1 e.symm)]

theorem splitSp_append (a r : List Char) : splitSp (a ++ ' ' :: r) = splitSp a ++ splitSp r := by
  induction a with
  | nil =>
    rw [List.nil_append]
    conv_lhs => rw [splitSp]
    rcases h : splitSp r with _ | ⟨t, ts⟩
    · exact absurd h (splitSp_ne r)
    · simp [splitSp]
  | cons c cs ih =>
    rw [List.cons_append]
    conv_lhs => rw [splitSp]
    conv_rhs => rw [splitSp]
    rw [ih]
    rcases h : splitSp cs with _ | ⟨t, ts⟩
    · exact absurd h (splitSp_ne cs)
    · by_cases hc : c = ' ' <;> simp [hc]

theorem splitSp_cons (a r : List Char) (h : ' ' ∉ a) : splitSp (a ++ ' ' :: r) = a :: splitSp r := by
  rw [splitSp_append, splitSp_single a h]; rfl

theorem toDigits_isDigit (n : Nat) : ∀ c ∈ Nat.toDigits 10 n, c.isDigit = true :=
  fun _ h => Nat.isDigit_of_mem_toDigits (by norm_num) (by norm_num) h

theorem pyNat_toDigits (n : Nat) : pyNat (Nat.toDigits 10 n) = some n := by
  unfold pyNat
  rw [if_pos ⟨Nat.toDigits_ne_nil, List.all_eq_true.2 (toDigits_isDigit n)⟩,
    Nat.ofDigitChars_ten_toDigits]

theorem toDigits_no_space (n : Nat) : ' ' ∉ Nat.toDigits 10 n := by
  intro h
  have := toDigits_isDigit n _ h
  simp [Char.isDigit] at this

theorem targetText_key (name : List Char) (n : Nat) :
    pyNat ((splitSp (targetText name n)).getLastD []) = some n := by
  unfold targetText
  rw [splitSp_append, splitSp_single _ (toDigits_no_space n), List.getLastD_concat, pyNat_toDigits]

theorem toDigits_last (n : Nat) : (Nat.toDigits 10 n).getLast? = some (Nat.digitChar (n % 10)) := by
  by_cases h : n < 10
  · rw [Nat.toDigits_of_lt_base h, Nat.mod_eq_of_lt h]; rfl
  · rw [Nat.toDigits_of_base_le (by norm_num) (not_lt.1 h)]; simp

theorem targetText_last (name : List Char) (n : Nat) :
    (targetText name n).getLast?.bind (fun c => pyNat [c]) = some (n % 10) := by
  have h : (targetText name n).getLast? = some (Nat.digitChar (n % 10)) := by
    unfold targetText
    rw [List.getLast?_append, List.getLast?_cons, toDigits_last]; simp
  rw [h]
  have hlt : n % 10 < 10 := Nat.mod_lt _ (by norm_num)
  generalize n % 10 = d at hlt
  have : ∀ d < 10, pyNat [Nat.digitChar d] = some d := by decide
  exact this d hlt

/-! ### The dictionary -/

section
variable {K V : Type} [DecidableEq K]

theorem dictSet_keys_mem (k : K) (v : V) (d : List (K × V)) (x : K) :
    x ∈ (dictSet k v d).map Prod.fst ↔ x = k ∨ x ∈ d.map Prod.fst := by
  induction d with
  | nil => simp [dictSet]
  | cons e d ih =>
    obtain ⟨k', v'⟩ := e
    unfold dictSet
    by_cases h : k' = k
    · rw [if_pos h]; subst h; simp
    · rw [if_neg h]
      simp only [List.map_cons, List.mem_cons, ih]; tauto

theorem dictSet_nodup (k : K) (v : V) (d : List (K × V)) (h : (d.map Prod.fst).Nodup) :
    ((dictSet k v d).map Prod.fst).Nodup := by
  induction d with
  | nil => simp [dictSet]
  | cons e d ih =>
    obtain ⟨k', v'⟩ := e
    rw [List.map_cons, List.nodup_cons] at h
    unfold dictSet
    by_cases hk : k' = k
    · rw [if_pos hk, List.map_cons, List.nodup_cons]; exact h
    · rw [if_neg hk, List.map_cons, List.nodup_cons]
      refine ⟨?_, ih h.2⟩
      rw [dictSet_keys_mem]
      rintro (e | e)
      · exact hk e
      · exact h.1 e

theorem mem_dictSet (k : K) (v : V) (d : List (K × V)) (h : (d.map Prod.fst).Nodup) (x : K) (y : V) :
    (x, y) ∈ dictSet k v d ↔ (x = k ∧ y = v) ∨ (x ≠ k ∧ (x, y) ∈ d) := by
  induction d with
  | nil => simp [dictSet]
  | cons e d ih =>
    obtain ⟨k', v'⟩ := e
    rw [List.map_cons, List.nodup_cons] at h
    unfold dictSet
    have hkd : (k', y) ∉ d := fun hm => h.1 (List.mem_map.2 ⟨_, hm, rfl⟩)
    by_cases hk : k' = k
    · rw [if_pos hk]; subst hk
      simp only [List.mem_cons, Prod.mk.injEq]
      by_cases hx : x = k'
      · subst hx; simp [hkd]
      · simp [hx]
    · rw [if_neg hk]
      simp only [List.mem_cons, Prod.mk.injEq, ih h.2]
      by_cases hx : x = k
      · subst hx
        have : ¬ x = k' := fun e => hk e.symm
        simp [this]
      · simp [hx]

end

/-! ### C48: `reorder_outputs` -/

theorem reorderDict_spec {V : Type} (rs : List (Rec V)) (d : List (Nat × V × List Char))
    (hd : (d.map Prod.fst).Nodup) :
    ∃ d', reorderDict (recLists rs).1 (recLists rs).2 d = some d' ∧ (d'.map Prod.fst).Nodup ∧
      ∀ k e, (k, e) ∈ d' ↔ (∃ r, LastOf rs r ∧ k = r.idx ∧ e = (r.out, targetText r.name r.idx)) ∨
        ((∀ r ∈ rs, r.idx ≠ k) ∧ (k, e) ∈ d) := by
  induction rs generalizing d with
  | nil =>
    refine ⟨d, rfl, hd, fun k e => ?_⟩
    simp [LastOf]
  | cons r rs ih =>
    obtain ⟨d', h1, h2, h3⟩ := ih (dictSet r.idx (r.out, targetText r.name r.idx) d)
      (dictSet_nodup _ _ _ hd)
    refine ⟨d', ?_, h2, fun k e => ?_⟩
    · show reorderDict (r.out :: (recLists rs).1) (targetText r.name r.idx :: (recLists rs).2) d = _
      rw [reorderDict, targetText_key]; exact h1
    · rw [h3, mem_dictSet _ _ _ hd]
      constructor
      · rintro (⟨q, ⟨pre, post, e1, e2⟩, e3, e4⟩ | ⟨h, ⟨e1, e2⟩ | ⟨e1, e2⟩⟩)
        · exact Or.inl ⟨q, ⟨r :: pre, post, by rw [e1]; rfl, e2⟩, e3, e4⟩
        · exact Or.inl ⟨r, ⟨[], rs, rfl, fun q hq => e1 ▸ h q hq⟩, e1, e2⟩
        · refine Or.inr ⟨fun q hq => ?_, e2⟩
          rcases List.mem_cons.1 hq with rfl | hq
          · exact fun e => e1 e.symm
          · exact h q hq
      · rintro (⟨q, ⟨pre, post, e1, e2⟩, e3, e4⟩ | ⟨h, e2⟩)
        · cases pre with
          | nil =>
            simp only [List.nil_append, List.cons.injEq] at e1
            obtain ⟨rfl, rfl⟩ := e1
            exact Or.inr ⟨fun q hq => e3 ▸ e2 q hq, Or.inl ⟨e3, e4⟩⟩
          | cons p pre =>
            simp only [List.cons_append, List.cons.injEq] at e1
            exact Or.inl ⟨q, ⟨pre, post, e1.2, e2⟩, e3, e4⟩
        · exact Or.inr ⟨fun q hq => h q (List.mem_cons_of_mem _ hq),
            Or.inr ⟨fun e => h r List.mem_cons_self e.symm, e2⟩⟩

theorem LastOf.mem {V : Type} {rs : List (Rec V)} {r : Rec V} (h : LastOf rs r) : r ∈ rs := by
  obtain ⟨pre, post, rfl, -⟩ := h; simp

theorem LastOf.unique {V : Type} {rs : List (Rec V)} {r q : Rec V} (h : LastOf rs r)
    (h' : LastOf rs q) (e : r.idx = q.idx) : r = q := by
  obtain ⟨pre, post, e1, e2⟩ := h
  obtain ⟨pre', post', e3, e4⟩ := h'
  rw [e1] at e3
  rcases List.append_eq_append_iff.1 e3 with ⟨a, ha, hb⟩ | ⟨a, ha, hb⟩
  · cases a with
    | nil => simp only [List.nil_append, List.cons.injEq] at hb; exact hb.1
    | cons c a =>
      simp only [List.cons_append, List.cons.injEq] at hb
      exact absurd e.symm (e2 q (by rw [hb.2]; simp))
  · cases a with
    | nil => simp only [List.nil_append, List.cons.injEq] at hb; exact hb.1.symm
    | cons c a =>
      simp only [List.cons_append, List.cons.injEq] at hb
      exact absurd e (e4 r (by rw [hb.2]; simp))

/-- C48, what `reorder_outputs` returns for any records: the last record of every layer, in increasing
order of layer index. -/
theorem C48_reorder_any {V : Type} (rs : List (Rec V)) :
    ∃ qs, reorderOutputs (recLists rs).1 (recLists rs).2 = some (recLists qs) ∧ ByIndex qs ∧
      ∀ r, r ∈ qs ↔ LastOf rs r := by
  obtain ⟨d, h1, h2, h3⟩ := reorderDict_spec rs [] (by simp)
  have h3' : ∀ k e, (k, e) ∈ d ↔
      ∃ r, LastOf rs r ∧ k = r.idx ∧ e = (r.out, targetText r.name r.idx) := by
    intro k e; rw [h3]; simp
  set s := d.insertionSort (fun a b => a.1 ≤ b.1) with hs
  have hperm : s.Perm d := List.perm_insertionSort _ _
  have hsn : (s.map Prod.fst).Nodup := (hperm.map _).nodup_iff.2 h2
  have hsort : s.Pairwise fun a b => a.1 ≤ b.1 :=
    List.pairwise_insertionSort (fun a b : Nat × V × List Char => a.1 ≤ b.1) d
  -- every entry of the sorted dictionary comes from a record
  have hex : ∀ s' : List (Nat × V × List Char), (∀ x ∈ s', x ∈ d) → ∃ qs : List (Rec V),
      s' = qs.map (fun r => (r.idx, r.out, targetText r.name r.idx)) ∧ ∀ r ∈ qs, LastOf rs r := by
    intro s'
    induction s' with
    | nil => intro _; exact ⟨[], rfl, by simp⟩
    | cons x s' ih =>
      intro h
      obtain ⟨qs, e1, e2⟩ := ih fun y hy => h y (List.mem_cons_of_mem _ hy)
      obtain ⟨k, e⟩ := x
      obtain ⟨r, hr, e3, e4⟩ := (h3' k e).1 (h _ List.mem_cons_self)
      refine ⟨r :: qs, by rw [e1, e3, e4]; rfl, fun q hq => ?_⟩
      rcases List.mem_cons.1 hq with rfl | hq
      · exact hr
      · exact e2 q hq
  obtain ⟨qs, e1, e2⟩ := hex s fun x hx => hperm.mem_iff.1 hx
  refine ⟨qs, ?_, ?_, fun r => ⟨e2 r, fun hr => ?_⟩⟩
  · unfold reorderOutputs
    rw [h1, Option.map_some]
    simp only [← hs, e1, recLists, List.map_map]
    rfl
  · have hlt : s.Pairwise fun a b => a.1 < b.1 := by
      have hne : s.Pairwise fun a b => a.1 ≠ b.1 := List.pairwise_map.1 hsn
      exact (hsort.and hne).imp fun h => lt_of_le_of_ne h.1 h.2
    rw [e1, List.pairwise_map] at hlt
    exact hlt
  · have : (r.idx, r.out, targetText r.name r.idx) ∈ s :=
      hperm.mem_iff.2 ((h3' _ _).2 ⟨r, hr, rfl, rfl⟩)
    rw [e1, List.mem_map] at this
    obtain ⟨q, hq, e⟩ := this
    rw [← LastOf.unique (e2 q hq) hr (by simpa using congrArg Prod.fst e)]; exact hq

/-- A list in strict index order is determined by its members. -/
theorem ByIndex.nodup {V : Type} {rs : List (Rec V)} (h : ByIndex rs) : rs.Nodup :=
  h.imp fun hab e => by subst e; exact lt_irrefl _ hab

/-- C48, `reorder_outputs` on records of different layers: the same records, in increasing order of layer
index — nothing lost, nothing duplicated. -/
theorem C48_reorder {V : Type} (rs : List (Rec V)) (hn : (rs.map (·.idx)).Nodup) :
    ∃ qs, reorderOutputs (recLists rs).1 (recLists rs).2 = some (recLists qs) ∧ ByIndex qs ∧
      qs.Perm rs := by
  obtain ⟨qs, h1, h2, h3⟩ := C48_reorder_any rs
  refine ⟨qs, h1, h2, ?_⟩
  rw [List.perm_ext_iff_of_nodup h2.nodup (List.Nodup.of_map _ hn)]
  intro r
  rw [h3]
  refine ⟨LastOf.mem, fun hr => ?_⟩
  obtain ⟨pre, post, rfl⟩ := List.append_of_mem hr
  refine ⟨pre, post, rfl, fun q hq e => ?_⟩
  rw [List.map_append, List.map_cons, List.nodup_append] at hn
  exact (List.nodup_cons.1 hn.2.1).1 (List.mem_map.2 ⟨q, hq, e⟩)

/-! ### C48: `extract_outputs_python` -/

theorem pickPython_spec {V : Type} (req : Nat) (rs : List (Rec V)) :
    pickPython req (recLists rs).1 (recLists rs).2
      = some (recLists (rs.filter fun r => r.idx % 10 = req)) := by
  induction rs with
  | nil => rfl
  | cons r rs ih =>
    show pickPython req (r.out :: (recLists rs).1) (targetText r.name r.idx :: (recLists rs).2) = _
    rw [pickPython, targetText_last]
    dsimp only [List.tail_cons]
    rw [ih]
    dsimp only
    by_cases h : r.idx % 10 = req
    · rw [if_pos h.symm, List.filter_cons_of_pos (by simpa using h)]; rfl
    · rw [if_neg (fun e => h e.symm), List.filter_cons_of_neg (by simpa using h)]

theorem pickAll_spec {V : Type} (reqs : List Nat) (rs : List (Rec V)) :
    pickAll (recLists rs).1 (recLists rs).2 reqs
      = some (recLists (reqs.flatMap fun q => rs.filter fun r => r.idx % 10 = q)) := by
  induction reqs with
  | nil => rfl
  | cons q reqs ih =>
    rw [pickAll, pickPython_spec, ih]
    simp [recLists]

/-- C48, what `extract_outputs_python` really selects: the records whose index *modulo 10* was
requested. -/
theorem C48_python_any {V : Type} (rs : List (Rec V)) (reqs : List Nat)
    (hn : (rs.map (·.idx)).Nodup) :
    ∃ qs, extractPython (recLists rs).1 (recLists rs).2 reqs = some (recLists qs) ∧ ByIndex qs ∧
      ∀ r, r ∈ qs ↔ r ∈ rs ∧ r.idx % 10 ∈ reqs := by
  obtain ⟨qs, h1, h2, h3⟩ := C48_reorder_any
    (reqs.flatMap fun q => rs.filter fun r => r.idx % 10 = q)
  refine ⟨qs, ?_, h2, fun r => ?_⟩
  · unfold extractPython; rw [pickAll_spec]; exact h1
  have hmem : ∀ r, r ∈ (reqs.flatMap fun q => rs.filter fun r => r.idx % 10 = q) ↔
      r ∈ rs ∧ r.idx % 10 ∈ reqs := by
    intro r; simp only [List.mem_flatMap, List.mem_filter, decide_eq_true_eq]
    constructor
    · rintro ⟨q, hq, hr, rfl⟩; exact ⟨hr, hq⟩
    · rintro ⟨hr, hq⟩; exact ⟨_, hq, hr, rfl⟩
  rw [h3, ← hmem]
  refine ⟨LastOf.mem, fun hr => ?_⟩
  -- a last occurrence exists, and it is `r` because indices determine records
  have hlast : ∀ l : List (Rec V), (∀ a ∈ l, ∀ b ∈ l, a.idx = b.idx → a = b) → ∀ r ∈ l,
      LastOf l r := by
    intro l
    induction l with
    | nil => intro _ r hr; simp at hr
    | cons a l ih =>
      intro hu r hr
      by_cases hin : ∃ b ∈ l, b.idx = r.idx
      · obtain ⟨b, hb, e⟩ := hin
        have : b = r := hu b (List.mem_cons_of_mem _ hb) r hr e
        subst this
        obtain ⟨pre, post, e1, e2⟩ := ih (fun a ha b hb => hu a (List.mem_cons_of_mem _ ha) b
          (List.mem_cons_of_mem _ hb)) b hb
        exact ⟨a :: pre, post, by rw [e1]; rfl, e2⟩
      · have : r = a := by
          rcases List.mem_cons.1 hr with h | h
          · exact h
          · exact absurd ⟨r, h, rfl⟩ hin
        subst this
        exact ⟨[], l, rfl, fun q hq e => hin ⟨q, hq, e⟩⟩
  refine hlast _ (fun a ha b hb e => ?_) r hr
  exact List.inj_on_of_nodup_map hn ((hmem a).1 ha).1 ((hmem b).1 hb).1 e

/-- C48 for `extract_outputs_python`, when every recorded layer has a one-digit index: the requested
records, in increasing order of layer index. -/
theorem C48_python_partial {V : Type} (rs : List (Rec V)) (reqs : List Nat)
    (hn : (rs.map (·.idx)).Nodup) (hsmall : ∀ r ∈ rs, r.idx < 10) :
    ∃ qs, extractPython (recLists rs).1 (recLists rs).2 reqs = some (recLists qs) ∧ ByIndex qs ∧
      qs.Perm (rs.filter fun r => r.idx ∈ reqs) := by
  obtain ⟨qs, h1, h2, h3⟩ := C48_python_any rs reqs hn
  refine ⟨qs, h1, h2, ?_⟩
  rw [List.perm_ext_iff_of_nodup h2.nodup ((List.Nodup.of_map _ hn).filter _)]
  intro r
  rw [h3, List.mem_filter, decide_eq_true_eq]
  refine and_congr_right fun hr => ?_
  rw [Nat.mod_eq_of_lt (hsmall r hr)]

/-- The full claim for `extract_outputs_python`. -/
def C48_python_statement : Prop := ∀ (V : Type) (rs : List (Rec V)) (reqs : List Nat),
  (rs.map (·.idx)).Nodup →
  ∃ qs, extractPython (recLists rs).1 (recLists rs).2 reqs = some (recLists qs) ∧ ByIndex qs ∧
      qs.Perm (rs.filter fun r => r.idx ∈ reqs)

/-- The claim fails for two-digit indices: layer 12 is requested and recorded, and nothing is
returned. -/
theorem C48_fails_two_digits : ¬ C48_python_statement := by
  intro h
  obtain ⟨qs, h1, -, h3⟩ := h Nat [⟨0, ['D'], 12⟩] [12] (by simp)
  have e : extractPython (recLists [(⟨0, ['D'], 12⟩ : Rec Nat)]).1
      (recLists [(⟨0, ['D'], 12⟩ : Rec Nat)]).2 [12] = some ([], []) := by decide +kernel
  rw [e] at h1
  have h2 := h3.length_eq
  simp only [recLists, Option.some.injEq, Prod.mk.injEq, List.nil_eq, List.map_eq_nil_iff] at h1
  rw [h1.1] at h2
  simp at h2

/-- And it returns layers nobody asked for: layer 12 when layer 2 is requested. -/
theorem C48_fails_wrong_layer :
    extractPython (recLists [(⟨7, ['D'], 12⟩ : Rec Nat)]).1 (recLists [(⟨7, ['D'], 12⟩ : Rec Nat)]).2
      [2] = some ([7], [targetText ['D'] 12]) := by decide +kernel

/-- Records of layers with the same index are lost (see C36 for networks that have them). -/
theorem C48_fails_duplicate :
    reorderOutputs (recLists [(⟨7, ['D'], 3⟩ : Rec Nat), ⟨8, ['E'], 3⟩]).1
      (recLists [(⟨7, ['D'], 3⟩ : Rec Nat), ⟨8, ['E'], 3⟩]).2 = some ([8], [targetText ['E'] 3]) := by
  decide +kernel

/-! ### C48: `extract_outputs_c` -/

/-- What is to be returned for a printed layer: the values as read, channels last if flagged. -/
def readBlock {V : Type} (read : V → V) (b : Block V) (out : List V) : Prop :=
  match b.shape with
  | none => out = b.vals.map read
  | some (C, H, W) => ∃ v : Nat → Nat → Nat → V, b.vals = tensor3 C H W v ∧
      out = tensor3 H W C fun h w c => read (v c h w)

theorem chwToHwc_tensor {V : Type} (C H W : Nat) (v : Nat → Nat → Nat → V) :
    chwToHwc (C, H, W) (tensor3 C H W v) = some (tensor3 H W C fun h w c => v c h w) := by
  unfold chwToHwc
  dsimp only
  rw [if_pos (tensor3_length ..)]
  have hmap : (List.range (H * W * C)).map
      (fun a => (tensor3 C H W v)[(a / C / W * W + a / C % W) + H * W * (a % C)]?)
      = (tensor3 H W C fun h w c => v c h w).map some := by
    apply List.ext_getElem
    · simp [tensor3_length]
    · intro a h1 h2
      simp only [List.length_map, List.length_range] at h1
      obtain ⟨i, j, c, hi, hj, hc, rfl⟩ := at3_surj h1
      rw [List.getElem_map, List.getElem_range, List.getElem_map, tensor3_get _ _ _ _ hi hj hc]
      have e1 : at3 W C i j c % C = c := by
        unfold at3; rw [Nat.add_mul_mod_self_left, Nat.mod_eq_of_lt hc]
      have e2 : at3 W C i j c / C = j + W * i := by
        unfold at3
        rw [Nat.add_mul_div_left _ _ (by omega), Nat.div_eq_of_lt hc, Nat.zero_add]
      have e3 : (j + W * i) / W = i := by
        rw [Nat.add_mul_div_left _ _ (by omega), Nat.div_eq_of_lt hj, Nat.zero_add]
      have e4 : (j + W * i) % W = j := by rw [Nat.add_mul_mod_self_left, Nat.mod_eq_of_lt hj]
      rw [e1, e2, e3, e4]
      have e5 : i * W + j + H * W * c = at3 H W c i j := by unfold at3; ring
      have hlt : at3 H W c i j < (tensor3 C H W v).length := by
        rw [tensor3_length]; exact at3_lt hc hi hj
      rw [e5, List.getElem?_eq_getElem hlt, tensor3_get _ _ _ _ hc hi hj]
  rw [hmap]
  generalize (tensor3 H W C fun h w c => v c h w) = l
  induction l with
  | nil => rfl
  | cons x l ih => simp [List.mapM_cons, ih]

/-- The values of a layer, printed with a blank after each, read back without the last blank. -/
theorem valuesLine {V : Type} (print : V → List Char) (parse : List Char → Option V) (read : V → V)
    (hp : ∀ v, ' ' ∉ print v) (hr : ∀ v, parse (print v) = some (read v)) (vs : List V)
    (hne : vs ≠ []) :
    (splitSp (vs.flatMap (fun v => print v ++ [' ']) ++ ['\n']).dropLast.dropLast).mapM parse
      = some (vs.map read) := by
  rw [List.dropLast_concat]
  induction vs with
  | nil => exact absurd rfl hne
  | cons v vs ih =>
    rw [List.flatMap_cons]
    by_cases h : vs = []
    · subst h
      rw [List.flatMap_nil, List.append_nil, List.dropLast_concat, splitSp_single _ (hp v)]
      simp [hr]
    · have hne' : vs.flatMap (fun v => print v ++ [' ']) ≠ [] := by
        cases vs with
        | nil => exact absurd rfl h
        | cons w ws => simp
      rw [List.dropLast_append_of_ne_nil hne', List.append_assoc, List.singleton_append,
        splitSp_cons _ _ (hp v), List.mapM_cons, hr, ih h]
      rfl

/-- Reading the two lines of a layer. -/
theorem blockStep {V : Type} (print : V → List Char) (parse : List Char → Option V) (read : V → V)
    (hp : ∀ v, ' ' ∉ print v) (hr : ∀ v, parse (print v) = some (read v)) (b : Block V)
    (hname : ' ' ∉ b.name) (hne : b.vals ≠ []) (out : List V) (hout : readBlock read b out)
    (i : Nat) (hi : i % 2 = 0) (rs : List (List V)) (ts : List (List Char))
    (sh : Option (Nat × Nat × Nat)) :
    ∃ l1 l2 s1, blockLines print b = [l1, l2] ∧ extractStep parse i l1 (rs, ts, sh) = some s1 ∧
      extractStep parse (i + 1) l2 s1
        = some (rs ++ [out], ts ++ [targetText b.name b.idx], b.shape) := by
  have hvals := valuesLine print parse read hp hr b.vals hne
  have hi' : (i + 1) % 2 ≠ 0 := by omega
  obtain ⟨name, idx, shape, vals⟩ := b
  cases shape with
  | none =>
    refine ⟨_, _, (rs, ts ++ [targetText name idx], none), rfl, ?_, ?_⟩
    · unfold extractStep
      rw [if_pos hi]
      have e : splitSp (targetText name idx ++ ' ' :: ['0', ' ', ' ', ' '] ++ ['\n']).dropLast
          = [name, Nat.toDigits 10 idx, ['0'], [], [], []] := by
        rw [List.dropLast_concat]
        unfold targetText
        rw [List.append_assoc, List.cons_append, splitSp_cons _ _ hname,
          splitSp_cons _ _ (toDigits_no_space idx)]
        rfl
      have hz : pyNat ['0'] = some 0 := by decide
      simp only [e, List.getElem?_cons_zero, List.getElem?_cons_succ, Option.bind_eq_bind,
        Option.bind_some, hz]
      rfl
    · unfold extractStep
      rw [if_neg hi', hvals]
      simp only [Option.bind_eq_bind, Option.bind_some]
      rw [show out = vals.map read from hout]
  | some s =>
    obtain ⟨C, H, W⟩ := s
    refine ⟨_, _, (rs, ts ++ [targetText name idx], some (C, H, W)), rfl, ?_, ?_⟩
    · unfold extractStep
      rw [if_pos hi]
      have e : splitSp (targetText name idx ++ ' ' :: ('1' :: ' ' :: (Nat.toDigits 10 C ++ ' ' ::
          (Nat.toDigits 10 H ++ ' ' :: Nat.toDigits 10 W))) ++ ['\n']).dropLast
          = [name, Nat.toDigits 10 idx, ['1'], Nat.toDigits 10 C, Nat.toDigits 10 H,
              Nat.toDigits 10 W] := by
        rw [List.dropLast_concat]
        unfold targetText
        rw [List.append_assoc, List.cons_append, splitSp_cons _ _ hname,
          splitSp_cons _ _ (toDigits_no_space idx),
          show '1' :: ' ' :: (Nat.toDigits 10 C ++ ' ' :: (Nat.toDigits 10 H ++ ' ' ::
            Nat.toDigits 10 W)) = ['1'] ++ ' ' :: (Nat.toDigits 10 C ++ ' ' ::
            (Nat.toDigits 10 H ++ ' ' :: Nat.toDigits 10 W)) from rfl,
          splitSp_cons _ _ (by decide), splitSp_cons _ _ (toDigits_no_space C),
          splitSp_cons _ _ (toDigits_no_space H), splitSp_single _ (toDigits_no_space W)]
      have hz : pyNat ['1'] = some 1 := by decide
      simp only [e, List.getElem?_cons_zero, List.getElem?_cons_succ, Option.bind_eq_bind,
        Option.bind_some, hz, pyNat_toDigits]
      rfl
    · obtain ⟨v, e1, e2⟩ := hout
      dsimp only at e1
      unfold extractStep
      rw [if_neg hi', hvals]
      simp only [Option.bind_eq_bind, Option.bind_some]
      rw [e1, tensor3_map, chwToHwc_tensor, e2]
      rfl

/-- Reading all the layers. -/
theorem extractLoop_blocks {V : Type} (print : V → List Char) (parse : List Char → Option V)
    (read : V → V) (hp : ∀ v, ' ' ∉ print v) (hr : ∀ v, parse (print v) = some (read v))
    (nb : Nat) (rest : List (List Char)) (bs : List (Block V × List V))
    (hb : ∀ b ∈ bs, ' ' ∉ b.1.name ∧ b.1.vals ≠ [] ∧ readBlock read b.1 b.2) (k : Nat)
    (hstop : bs ≠ [] ∧ k + bs.length = nb ∨ k + bs.length ≤ nb ∧ rest = []) (rs : List (List V))
    (ts : List (List Char)) (sh : Option (Nat × Nat × Nat)) :
    ∃ sh', extractLoop parse nb (2 * k) (bs.flatMap (fun b => blockLines print b.1) ++ rest)
        (rs, ts, sh) = some (rs ++ bs.map (·.2), ts ++ bs.map (fun b => targetText b.1.name b.1.idx),
          sh') := by
  induction bs generalizing k rs ts sh with
  | nil =>
    obtain ⟨h, -⟩ | ⟨-, h⟩ := hstop
    · exact absurd rfl h
    · subst h; exact ⟨sh, by simp [extractLoop]⟩
  | cons b bs ih =>
    obtain ⟨g1, g2, g3⟩ := hb b List.mem_cons_self
    obtain ⟨l1, l2, s1, e0, e1, e2⟩ := blockStep print parse read hp hr b.1 g1 g2 b.2 g3 (2 * k)
      (by omega) rs ts sh
    rw [List.flatMap_cons, e0]
    simp only [List.cons_append, List.nil_append]
    rw [extractLoop, e1]
    dsimp only
    rw [if_neg (by omega), extractLoop, e2]
    dsimp only
    simp only [List.length_cons] at hstop
    by_cases hend : 2 * k + 1 + 1 = 2 * nb
    · rw [if_pos hend]
      have : bs = [] := by
        rcases hstop with ⟨-, h⟩ | ⟨h, -⟩ <;>
        · apply List.eq_nil_of_length_eq_zero; omega
      subst this
      exact ⟨b.1.shape, by simp⟩
    · rw [if_neg hend]
      obtain ⟨sh', e⟩ := ih (fun c hc => hb c (List.mem_cons_of_mem _ hc)) (k + 1) (by
        rcases hstop with ⟨-, h⟩ | ⟨h, h'⟩
        · refine Or.inl ⟨?_, by omega⟩
          rintro rfl; simp at h; omega
        · exact Or.inr ⟨by omega, h'⟩) (rs ++ [b.2]) (ts ++ [targetText b.1.name b.1.idx]) b.1.shape
      refine ⟨sh', ?_⟩
      rw [show 2 * k + 1 + 1 = 2 * (k + 1) by ring, e]
      simp

/-- C48 for the debug file: from a file with the lines of any layers (and whatever follows them, if the
number of targets is right), `extract_outputs_c` returns the outputs of exactly these layers, channels last
where flagged, in increasing order of layer index. -/
theorem C48_c {V : Type} (print : V → List Char) (parse : List Char → Option V) (read : V → V)
    (hp : ∀ v, ' ' ∉ print v) (hr : ∀ v, parse (print v) = some (read v))
    (bs : List (Block V × List V)) (hn : (bs.map (·.1.idx)).Nodup)
    (hb : ∀ b ∈ bs, ' ' ∉ b.1.name ∧ b.1.vals ≠ [] ∧ readBlock read b.1 b.2)
    (nb : Nat) (rest : List (List Char))
    (hstop : bs ≠ [] ∧ bs.length = nb ∨ bs.length ≤ nb ∧ rest = []) :
    ∃ qs, extractC parse (bs.flatMap (fun b => blockLines print b.1) ++ rest) nb
        = some (recLists qs) ∧ ByIndex qs ∧
      qs.Perm (bs.map fun b => ⟨b.2, b.1.name, b.1.idx⟩) := by
  obtain ⟨sh', e⟩ := extractLoop_blocks print parse read hp hr nb rest bs hb 0
    (by simpa using hstop) [] [] none
  obtain ⟨qs, h1, h2, h3⟩ := C48_reorder (bs.map fun b => (⟨b.2, b.1.name, b.1.idx⟩ : Rec (List V)))
    (by simpa [List.map_map, Function.comp_def] using hn)
  refine ⟨qs, ?_, h2, h3⟩
  unfold extractC
  rw [Nat.mul_zero] at e
  rw [e]
  dsimp only
  simp only [recLists, List.map_map, Function.comp_def] at h1
  simpa [recLists] using h1

/-- The number of targets 0 does not mean "none": the whole file is read. -/
theorem C48_fails_no_target : extractC (V := Nat) pyNat
    (blockLines (Nat.toDigits 10) ⟨['D'], 1, none, [5, 6]⟩) 0
      = some ([[5, 6]], [targetText ['D'] 1]) := by decide +kernel

/-! ### C48: which layers are recorded, and the comparison -/

/-- With debug mode "onnx" every layer but the first is recorded, constants excepted. -/
theorem C48_targets (l : DebugLayer) (layers : List DebugLayer)
    (hn : ((l :: layers).map (·.idx)).Nodup) :
    ∃ ts, loadDebugTarget false layers [] = some ts ∧
      recorded ts (l :: layers) = layers.filter fun q => !q.isConst := by
  have h : ∀ ls acc, loadDebugTarget false ls acc = some (acc ++ ls.map (·.idx)) := by
    intro ls
    induction ls with
    | nil => intro acc; simp [loadDebugTarget]
    | cons q ls ih =>
      intro acc
      rw [loadDebugTarget, if_neg (by simp), ih]; simp
  refine ⟨_, h layers [], ?_⟩
  rw [List.map_cons, List.nodup_cons] at hn
  unfold recorded
  rw [List.filter_cons_of_neg (by simp [hn.1]), List.nil_append]
  apply List.filter_congr
  intro q hq
  simp [List.mem_map_of_mem (f := (·.idx)) hq]

/-- Two recorded values agree: both NaN, the same infinity, or two numbers whose distance is at most `atol`
plus `rtol` times the size of the *second* one. -/
def Near (atol rtol : ℚ) : PyFloat → PyFloat → Prop
  | .nan, .nan => True
  | .inf s, .inf t => s = t
  | .fin a, .fin d => |a - d| ≤ atol + rtol * |d|
  | _, _ => False

theorem allclose1_iff (atol rtol : ℚ) (x y : PyFloat) : allclose1 atol rtol x y = true ↔ Near atol rtol x y := by
  cases x <;> cases y <;> simp [allclose1, Near]

/-- With debug mode "keras" a softmax layer replaces the target before it: Keras has it inside the previous
layer, so the output of that layer is recorded after the softmax. -/
theorem C48_targets_keras (layers : List DebugLayer) (l s : DebugLayer) (rest : List DebugLayer)
    (hl : l.name ≠ "Softmax".toList) (hs : s.name = "Softmax".toList) (acc : List Nat) :
    loadDebugTarget true (l :: s :: rest) acc = loadDebugTarget true rest (acc ++ [s.idx]) ∧
    loadDebugTarget true (l :: rest) acc = loadDebugTarget true rest (acc ++ [l.idx]) ∧
    (acc ≠ [] → loadDebugTarget true (s :: layers) acc = loadDebugTarget true layers (acc.dropLast ++ [s.idx])) ∧
    loadDebugTarget true (s :: layers) [] = none := by
  refine ⟨?_, ?_, ?_, ?_⟩
  · rw [loadDebugTarget, if_neg (fun h => hl h.2), loadDebugTarget, if_pos ⟨rfl, hs⟩, if_neg (by simp)]
    simp
  · rw [loadDebugTarget, if_neg (fun h => hl h.2)]
  · intro h
    rw [loadDebugTarget, if_pos ⟨rfl, hs⟩, if_neg h]
  · rw [loadDebugTarget, if_pos ⟨rfl, hs⟩, if_pos rfl]

/-- `compare_result` answers yes exactly when both results have the same number of layers, and layer by
layer the same number of values, each within the tolerance. -/
theorem C48_compare (atol rtol : ℚ) (a r : List (List PyFloat)) (targets : List (List Char))
    (ht : a.length ≤ targets.length) :
    compareResult atol rtol a r targets = some true ↔
      List.Forall₂ (List.Forall₂ (Near atol rtol)) a r := by
  have hnear : (fun x y => allclose1 atol rtol x y = true) = Near atol rtol := by
    funext x y; exact propext (allclose1_iff atol rtol x y)
  rw [← hnear]
  have hz : ∀ {A : Type} (p : A → A → Bool) (x y : List A),
      (x.length = y.length ∧ (List.zipWith p x y).all id = true) ↔
        List.Forall₂ (fun u v => p u v = true) x y := by
    intro A p x
    induction x with
    | nil => intro y; cases y <;> simp
    | cons u x ih =>
      intro y
      cases y with
      | nil => simp
      | cons v y =>
        simp only [List.length_cons, List.zipWith_cons_cons, List.all_cons, id, Bool.and_eq_true,
          List.forall₂_cons, ← ih, Nat.add_right_cancel_iff]
        tauto
  have hf : ∀ l : List Bool, ∀ b, l.foldl (· && ·) b = (b && l.all id) := by
    intro l
    induction l with
    | nil => intro b; simp
    | cons c l ih => intro b; rw [List.foldl_cons, ih]; simp [Bool.and_assoc]
  have harr : (fun u v => allcloseArr atol rtol u v = true)
      = List.Forall₂ fun x y => allclose1 atol rtol x y = true := by
    funext u v
    rw [← hz]
    simp [allcloseArr]
  rw [← harr, ← hz]
  unfold compareResult
  by_cases h : a.length = r.length
  · rw [if_neg (by simpa using h), if_neg (by omega), hf]
    simp [h]
  · rw [if_pos h]; simp [h]

/-! ### Concrete cases -/

example : reorderOutputs (recLists [(⟨7, ['D'], 13⟩ : Rec Nat), ⟨8, ['E', ' ', 'x'], 4⟩]).1
    (recLists [(⟨7, ['D'], 13⟩ : Rec Nat), ⟨8, ['E', ' ', 'x'], 4⟩]).2
      = some ([8, 7], [targetText ['E', ' ', 'x'] 4, targetText ['D'] 13]) := by decide +kernel

example : extractC (V := Nat) pyNat
    (blockLines (Nat.toDigits 10) ⟨['D'], 12, some (2, 1, 2), [5, 6, 70, 80]⟩ ++
      blockLines (Nat.toDigits 10) ⟨['E'], 3, none, [1, 2]⟩) 2
      = some ([[1, 2], [5, 70, 6, 80]], [targetText ['E'] 3, targetText ['D'] 12]) := by
  decide +kernel

example : readBlock id (⟨['D'], 12, some (2, 1, 2), [5, 6, 70, 80]⟩ : Block Nat) [5, 70, 6, 80] :=
  ⟨fun c _ w => if c = 0 then 5 + w else 70 + 10 * w, by decide, by decide⟩

end Verif.Gen

import Verif.CText.PoolForms
import Verif.CText.ConvForms
import Verif.Layers.Indirect

/-!
# C76: the text of a convolution by `indirect_gemm_nn`

The text is read up to its tokens only: the dereference `*(..)` is not in the grammar of `Verif/CText/Syntax.lean`.
-/

namespace Verif.CText
open Prog Layers Net
set_option linter.unusedVariables false
set_option linter.unusedSectionVars false
variable {K : Type} [Field K] [LinearOrder K] [FloorRing K]

/-- the name of the table: `f"ppatches_{self.name}_{self.idx:02d}"` (`Conv2DIndirectGemm.py` 113) -/
def ppId (idx : Nat) : Ident := (.other (chars! "ppatches_Conv2D"), some ⟨decide (idx < 10), idx⟩)

/-- `write_gemm_nn` (`Conv2DGemm.py` 44-80) called with `weights_..`, `ppatches_..`, `output_{path}`, `True` (`Conv2DIndirectGemm.py` 108-115) -/
def indirectNNHash (m n k idx : Nat) (act : CAct K) (road : Nat) : Hash K :=
  [(chars! "direct", .bool true), (chars! "name", .word (chars! "Conv2D")), (chars! "idx", .num2 idx),
   (chars! "m", .num m), (chars! "n", .num n), (chars! "k", .num k),
   (chars! "A", .toks [.id (.other (chars! "weights_Conv2D"), some ⟨decide (idx < 10), idx⟩)]), (chars! "ldA", .num k),
   (chars! "B", .toks [.id (ppId idx)]), (chars! "ldB", .num n),
   (chars! "C", .toks [.id (.output, some ⟨false, road⟩)]), (chars! "ldC", .num n),
   (chars! "activation_function", act.text [.id (.output, none)])]

/-- what `Conv2DIndirectGemm.py` 97-121 passes to the template; the keys that the template does not use are left out -/
def indirectHash (c : ConvP) (size idx : Nat) (act : CAct K) (road : Nat) : Hash K :=
  [(chars! "name", .word (chars! "Conv2D")), (chars! "idx", .num2 idx), (chars! "size", .num size), (chars! "road", .num road),
   (chars! "gemm_code", .toks (rendered Tpl.conv_gemm_nn (indirectNNHash c.filters (c.outH * c.outW) (c.inC * c.kh * c.kw) idx act road)))]

/-- the fields of the context that a text names: the identifiers after `ctx->` -/
def ctxNames : List (CTok K) → List Ident
  | [] => []
  | .id x :: r =>
    match x, r with
    | (.ctx, none), .punct .arrow :: .id y :: _ => y :: ctxNames r
    | _, _ => ctxNames r
  | _ :: r => ctxNames r

theorem of_ctxNames {y : Ident} {ts : List (CTok K)} (h : y ∈ ctxNames ts) : ∃ pre post, ts = pre ++ .id (.ctx, none) :: .punct .arrow :: .id y :: post := by
  induction ts with
  | nil => simp [ctxNames] at h
  | cons t ts ih =>
    unfold ctxNames at h
    split at h
    · simp_all
    · rename_i x r e
      injection e with e1 e2
      subst e1 e2
      split at h
      · rcases List.mem_cons.1 h with rfl | h
        · exact ⟨[], _, rfl⟩
        · obtain ⟨pre, post, e⟩ := ih h
          exact ⟨_ :: pre, post, by rw [e]; rfl⟩
      · obtain ⟨pre, post, e⟩ := ih h
        exact ⟨_ :: pre, post, by rw [e]; rfl⟩
    · rename_i e
      injection e with e1 e2
      subst e2
      obtain ⟨pre, post, e⟩ := ih h
      exact ⟨_ :: pre, post, by rw [e]; rfl⟩

theorem indirect_names (c : ConvP) (size idx : Nat) (act : CAct K) (road : Nat) :
    ((tokens Tpl.conv_indirect_gemm).bind fun tt => inst tt (indirectHash c size idx act road)).map ctxNames =
      some [tempId, tempId, ppId idx, tempId, tempId, outId road, tempId] := by
  rcases act with _ | _ | _ | ⟨_ | _, _⟩ | _ | _ | _ | _ | ⟨⟨_ | _, _⟩, ⟨_ | _, _⟩⟩ <;> kernel_rfl

/-- the context of a network has no field for a table of patches -/
theorem pp_not_bound (net : Network K) (plan : Graph.Plan) {th : List (CTok K)} (hth : headerText net plan = some th) {fields externs : List Field'}
    (hh : IsHeader th fields externs) (idx : Nat) : ¬ Bound fields externs (localDcls net plan) (true, ppId idx) := by
  unfold headerText at hth
  obtain ⟨csts, hw, hth⟩ := Option.bind_eq_some_iff.mp hth
  obtain ⟨ts, h1, h2⟩ := header_inst (plan.order.map fun n => (net.op n).info n) plan.maxPath csts net.op plan.order
  rw [hth, Option.some.injEq] at h1
  subst h1
  obtain ⟨rfl, rfl⟩ := C62_header_unique hh h2
  intro hb
  generalize hx : (true, ppId idx) = x at hb
  cases hb with
  | field f hf =>
    simp only [Prod.mk.injEq] at hx
    obtain ⟨-, hx⟩ := hx
    unfold ctxFields at hf
    simp only [List.mem_append, List.mem_map, List.mem_cons, List.not_mem_nil, or_false] at hf
    rcases hf with ⟨p, _, rfl⟩ | ⟨p, _, rfl⟩ | rfl <;> simp [outId, tempId, cstId, ppId] at hx
  | extern f hf => simp at hx
  | input => simp at hx
  | pred => simp at hx
  | ints x l hd => simp at hx

/-- **C76, the form `nn`.**  The text of a convolution generated as `indirect_gemm_nn`, whatever its parameters, its activation function and its path, reads
the table as `ctx->ppatches_Conv2D_<idx>`; the context declared in the header of any network has no such field. -/
theorem C76_nn_undeclared (c : ConvP) (size idx : Nat) (act : CAct K) (road : Nat) :
    ∃ ts, ((tokens Tpl.conv_indirect_gemm).bind fun tt => inst tt (indirectHash c size idx act road)) = some ts ∧
      (∃ pre post, ts = pre ++ .id (.ctx, none) :: .punct .arrow :: .id (ppId idx) :: post) ∧
      ∀ (net : Network K) (plan : Graph.Plan) (th : List (CTok K)) (fields externs : List Field'), headerText net plan = some th →
        IsHeader th fields externs → ¬ Bound fields externs (localDcls net plan) (true, ppId idx) := by
  obtain ⟨ts, hs, ha⟩ := Option.map_eq_some_iff.mp (indirect_names c size idx act road)
  exact ⟨ts, hs, of_ctxNames (by rw [ha]; simp), fun net plan th fields externs hth hh => pp_not_bound net plan hth hh idx⟩

/-! ## the text of the table -/

/-- the tokens of one entry: `&zero` or `&output_<n>[t]` (`Conv2DIndirectGemm.py` 83-86); `src` is `previous_layer[0].output_str` (79) -/
def entryToks (src : Ref) : Option Nat → List (CTok K)
  | none => [.punct .amp, .id (.other (chars! "zero"), none)]
  | some t => [.punct .amp, .id src.ident, .punct .lbrk, .num t, .punct .rbrk]

/-- the tokens of the string that `create_ppatches` returns (81-95), the initialiser of the table in the parameters file -/
def tableToks (src : Ref) (l : List (Option Nat)) : List (CTok K) :=
  .punct .lbrc :: ((l.map (entryToks src)).intersperse [.punct .comma]).flatten ++ [.punct .rbrc]

/-- the files of a network declare neither an array `output_<n>` nor an array `cst_<n>`, except as a field of the context -/
theorem ref_not_bound (net : Network K) (plan : Graph.Plan) {th : List (CTok K)} (hth : headerText net plan = some th) {fields externs : List Field'}
    (hh : IsHeader th fields externs) (src : Ref) : ∀ f ∈ externs, f.id ≠ src.ident := by
  unfold headerText at hth
  obtain ⟨csts, hw, hth⟩ := Option.bind_eq_some_iff.mp hth
  obtain ⟨ts, h1, h2⟩ := header_inst (plan.order.map fun n => (net.op n).info n) plan.maxPath csts net.op plan.order
  rw [hth, Option.some.injEq] at h1
  subst h1
  obtain ⟨rfl, rfl⟩ := C62_header_unique hh h2
  have hpar : ∀ (n : Nat) (op : Op K), ∀ p ∈ parArrays n op, ∃ cs s, p.1 = (.other cs, s) := by
    intro n op p hp
    unfold parArrays at hp
    split at hp <;> simp only [List.mem_cons, List.not_mem_nil, or_false] at hp
    all_goals (try (rcases hp with rfl | rfl | rfl | rfl)) <;> (try (rcases hp with rfl | rfl)) <;> (try subst hp) <;> (try exact ⟨_, _, rfl⟩)
    all_goals contradiction
  intro f hf he
  obtain ⟨p, hp, rfl⟩ := List.mem_map.1 hf
  obtain ⟨n, _, hp⟩ := List.mem_flatMap.1 (List.mem_filter.1 hp).1
  obtain ⟨cs, s, e⟩ := hpar _ _ p hp
  cases src <;> simp [arrDecl, e, Ref.ident] at he

/-- **C76, the text of the table.**  In every form, the initialiser of the table names `output_<n>` (or `cst_<n>`) without `ctx->`, at every entry that is not
the zero; the header of no network declares such an array. -/
theorem C76_table_undeclared (c : ConvP) (trans : Bool) (src : Ref) (t : Nat) (ht : some t ∈ ppatchesForm c trans) :
    (∃ pre post, tableToks (K := K) src (ppatchesForm c trans) = pre ++ .punct .amp :: .id src.ident :: .punct .lbrk :: .num t :: .punct .rbrk :: post) ∧
      ∀ (net : Network K) (plan : Graph.Plan) (th : List (CTok K)) (fields externs : List Field'), headerText net plan = some th →
        IsHeader th fields externs → ∀ f ∈ externs, f.id ≠ src.ident := by
  refine ⟨?_, fun net plan th fields externs hth hh => ref_not_bound net plan hth hh src⟩
  have key : ∀ l : List (Option Nat), some t ∈ l → ∃ pre post : List (CTok K),
      ((l.map (entryToks src)).intersperse [.punct .comma]).flatten = pre ++ .punct .amp :: .id src.ident :: .punct .lbrk :: .num t :: .punct .rbrk :: post := by
    intro l
    induction l with
    | nil => simp
    | cons a l ih =>
      intro h
      cases l with
      | nil =>
        simp only [List.mem_singleton] at h
        subst h
        exact ⟨[], [], by simp [entryToks]⟩
      | cons b l =>
        have e : (((a :: b :: l).map (entryToks (K := K) src)).intersperse [.punct .comma]).flatten =
            entryToks src a ++ (.punct .comma :: (((b :: l).map (entryToks src)).intersperse [.punct .comma]).flatten) := by
          simp
        rcases List.mem_cons.1 h with rfl | h
        · exact ⟨[], _, by rw [e]; rfl⟩
        · obtain ⟨pre, post, e'⟩ := ih h
          exact ⟨entryToks src a ++ .punct .comma :: pre, post, by rw [e, e']; simp⟩
  obtain ⟨pre, post, e⟩ := key _ ht
  exact ⟨.punct .lbrc :: pre, post ++ [.punct .rbrc], by unfold tableToks; rw [e]; simp⟩

/-- without padding, every layer with an output and taps has such an entry -/
theorem table_names_image (c : ConvP) (trans : Bool) (hpad : c.padTop = 0 ∧ c.padBottom = 0 ∧ c.padLeft = 0 ∧ c.padRight = 0)
    (hpos : 0 < c.inC ∧ 0 < c.kh ∧ 0 < c.kw ∧ 0 < c.outH ∧ 0 < c.outW) : ∃ t, some t ∈ ppatchesForm c trans := by
  obtain ⟨h1, h2, h3, h4⟩ := hpad
  obtain ⟨p1, p2, p3, p4, p5⟩ := hpos
  have hm : (0, 0, 0, 0, 0) ∈ patchPositions c := by
    simp only [patchPositions, List.mem_flatMap, List.mem_map, List.mem_range]
    exact ⟨0, p1, 0, p2, 0, p3, 0, p4, 0, p5, rfl⟩
  have hlen : 0 < (ppatches c).length := by
    unfold ppatches
    rw [if_neg (by omega), List.length_map]
    exact List.length_pos_of_mem hm
  have hsome : ∀ o ∈ ppatches c, ∃ t, o = some t := by
    intro o ho
    unfold ppatches at ho
    rw [if_neg (by omega)] at ho
    obtain ⟨p, _, rfl⟩ := List.mem_map.1 ho
    exact ⟨_, rfl⟩
  obtain ⟨t, ht⟩ := hsome _ (List.getElem_mem hlen)
  refine ⟨t, ?_⟩
  unfold ppatchesForm
  cases trans
  · rw [if_neg (by simp), ← ht]; exact List.getElem_mem hlen
  · rw [if_pos rfl]
    unfold transposeFlat
    refine List.mem_flatMap.2 ⟨0, List.mem_range.2 (Nat.mul_pos p4 p5), List.mem_filterMap.2 ⟨0, List.mem_range.2 (Nat.mul_pos (Nat.mul_pos p1 p2) p3), ?_⟩⟩
    rw [Nat.zero_mul, List.getElem?_eq_getElem hlen, ht]

end Verif.CText

import Verif.CText.MoreTemplates
import Verif.CText.Unique
import Verif.CText.Conv
import Verif.CText.Tac

/-!
# C75: the text of a pooling layer in the version `channels_last`, with a non-linear activation

The text is read up to its tokens only: its declarations `float* out_ptr` (without `restrict`) and its cast are not in the grammar of
`Verif/CText/Syntax.lean`.
-/

namespace Verif.CText
open Prog Layers Net
set_option linter.unusedVariables false
set_option linter.unusedSectionVars false
variable {K : Type} [Field K] [LinearOrder K] [FloorRing K]

/-- the pointer that the activation is written on: `write_activation_str("o_ptr[c]")` -/
def optrElt : List (CTok K) := [.id (.o_ptr, none), .punct .lbrk, .id (.c, none), .punct .rbrk]

/-- what `MaxPooling2DDefault.py` 54-96 (`avg = false`) and `AveragePooling2DDefault.py` 56-98 (`avg = true`) pass to the template for the version
`channels_last`; `activation_function` is absent when the function is linear.  The keys that the template does not use are left out. -/
def hwcHash (avg : Bool) (c : PoolP) (size idx : Nat) (act : CAct K) (src : Ref) (road : Nat) : Hash K :=
  (match act with
    | .linear => []
    | a => [(chars! "activation_function", a.text optrElt)]) ++
  [(chars! "name", .word (if avg then chars! "AveragePooling2D" else chars! "MaxPooling2D")), (chars! "idx", .num2 idx),
   (if avg then chars! "is_avgpool" else chars! "is_maxpool", .bool true), (chars! "channels_last", .bool true),
   (chars! "output_str", src.text), (chars! "road", .num road), (chars! "size", .num size), (chars! "input_channels", .num c.C),
   (chars! "output_height", .num c.Ho), (chars! "output_width", .num c.Wo), (chars! "pool_size", .num c.pool), (chars! "strides", .num c.stride),
   (chars! "pad_left", .num c.padLeft), (chars! "pad_top", .num c.padTop), (chars! "input_height", .num c.H), (chars! "input_width", .num c.W)]

/-- the identifier `x` is one of the tokens -/
def names (x : Ident) : List (CTok K) → Bool
  | [] => false
  | .id y :: r => decide (y = x) || names x r
  | _ :: r => names x r

/-- a keyword, possibly with a star after it, precedes the identifier `x` somewhere: every declaration of `x` in C does this -/
def introduces (x : Ident) : List (CTok K) → Bool
  | [] => false
  | .kw _ :: r =>
    (match r with
      | .id y :: _ => decide (y = x)
      | .punct .star :: .id y :: _ => decide (y = x)
      | _ => false) || introduces x r
  | _ :: r => introduces x r

theorem names_iff (x : Ident) (ts : List (CTok K)) : names x ts = true ↔ CTok.id x ∈ ts := by
  induction ts with
  | nil => simp [names]
  | cons t ts ih =>
    cases t <;> simp only [names, ih, List.mem_cons, Bool.or_eq_true, decide_eq_true_eq, CTok.id.injEq, reduceCtorEq, false_or]
    exact or_congr eq_comm Iff.rfl

theorem introduces_of (x : Ident) (k : Kw) (pre post : List (CTok K)) :
    introduces x (pre ++ .kw k :: .id x :: post) = true ∧ introduces x (pre ++ .kw k :: .punct .star :: .id x :: post) = true := by
  induction pre with
  | nil => simp [introduces]
  | cons t ts ih => cases t <;> simp [introduces, ih.1, ih.2]

theorem hwc_linear (avg : Bool) (c : PoolP) (size idx : Nat) (src : Ref) (road : Nat) :
    ((tokens Tpl.pooling2D_HWC).bind fun tt => inst tt (hwcHash (K := K) avg c size idx .linear src road)).map
      (fun ts => names (.o_ptr, none) ts) = some false := by
  rcases src with n | n <;> cases avg <;> kernel_rfl

theorem hwc_act (avg : Bool) (c : PoolP) (size idx : Nat) (act : CAct K) (src : Ref) (road : Nat) (h : act ≠ .linear) :
    ((tokens Tpl.pooling2D_HWC).bind fun tt => inst tt (hwcHash avg c size idx act src road)).map
      (fun ts => (names (.o_ptr, none) ts, introduces (.o_ptr, none) ts)) = some (true, false) := by
  rcases src with n | n <;> cases avg <;>
    rcases act with _ | _ | _ | ⟨_ | _, _⟩ | _ | _ | _ | _ | ⟨⟨_ | _, _⟩, ⟨_ | _, _⟩⟩ <;>
    first | exact absurd rfl h | kernel_rfl

/-- no file of a network declares `o_ptr` outside of the blocks of the layers -/
theorem optr_not_bound (net : Network K) (plan : Graph.Plan) {th : List (CTok K)} (hth : headerText net plan = some th) {fields externs : List Field'}
    (hh : IsHeader th fields externs) :
    (∀ c, ¬ Bound fields externs (localDcls net plan) (c, (.o_ptr, none))) ∧ ((.o_ptr, none) : Ident) ∉ (localDcls net plan).map Dcl.name := by
  unfold headerText at hth
  obtain ⟨csts, hw, hth⟩ := Option.bind_eq_some_iff.mp hth
  obtain ⟨ts, h1, h2⟩ := header_inst (plan.order.map fun n => (net.op n).info n) plan.maxPath csts net.op plan.order
  rw [hth, Option.some.injEq] at h1
  subst h1
  obtain ⟨rfl, rfl⟩ := C62_header_unique hh h2
  have hpar : ∀ (n : Nat) (op : Op K), ∀ p ∈ parArrays n op, ∃ cs s, p.1 = (.other cs, s) := by
    intro n op p hp
    unfold parArrays at hp
    split at hp <;> simp only [List.mem_cons, List.not_mem_nil, or_false] at hp
    all_goals (try (rcases hp with rfl | rfl | rfl | rfl)) <;> (try (rcases hp with rfl | rfl)) <;> (try subst hp) <;> (try exact ⟨_, _, rfl⟩)
    all_goals contradiction
  have hname : ∀ d ∈ localDcls net plan, d.name ≠ (.o_ptr, none) := by
    have ite : ∀ (b : Bool) (l : List Dcl), (∀ d ∈ l, d.name ≠ (.o_ptr, none)) → ∀ d ∈ (if b then l else []), d.name ≠ (.o_ptr, none) := by
      intro b l h; cases b <;> simpa using h
    unfold localDcls flagDcls
    refine List.forall_mem_append.2 ⟨?_, ?_⟩
    · simp [Dcl.name, nm]
    iterate 9
      refine List.forall_mem_append.2 ⟨ite _ _ ?_, ?_⟩
      · simp [Dcl.name, nm]
    refine List.forall_mem_append.2 ⟨ite _ _ ?_, ite _ _ ?_⟩
    · refine List.forall_mem_cons.2 ⟨by simp [Dcl.name, nm], fun d hd => ?_⟩
      obtain ⟨x, _, rfl⟩ := List.mem_map.1 hd
      simp [Dcl.name, indices]
    · simp [Dcl.name, nm]
  refine ⟨fun c hb => ?_, fun hm => ?_⟩
  · generalize hx : (c, ((.o_ptr, none) : Ident)) = x at hb
    cases hb with
    | field f hf =>
      simp only [Prod.mk.injEq] at hx
      obtain ⟨rfl, hx⟩ := hx
      unfold ctxFields at hf
      simp only [List.mem_append, List.mem_map, List.mem_cons, List.not_mem_nil, or_false] at hf
      rcases hf with ⟨p, _, rfl⟩ | ⟨p, _, rfl⟩ | rfl <;> simp [outId, tempId, cstId] at hx
    | extern f hf =>
      obtain ⟨p, hp, rfl⟩ := List.mem_map.1 hf
      obtain ⟨n, _, hp⟩ := List.mem_flatMap.1 (List.mem_filter.1 hp).1
      obtain ⟨cs, s, e⟩ := hpar _ _ p hp
      simp only [arrDecl, e, Prod.mk.injEq] at hx
      simp at hx
    | input => simp at hx
    | pred => simp at hx
    | ints x l hd =>
      simp only [Prod.mk.injEq] at hx
      exact hname _ hd hx.2.symm
  · obtain ⟨d, hd, e⟩ := List.mem_map.1 hm
    exact hname d hd e

/-- **C75, activation.**  A max or average pooling layer generated in the version `channels_last` with a non-linear activation function, whatever
its parameters, its producer and its path: the tokens of its text contain the name `o_ptr`; nowhere in them does a keyword (and a star) precede
this name, as in a declaration; and the files of any network declare no such name outside of the layers.  With a linear activation the name
does not occur. -/
theorem C75_activation_undeclared (avg : Bool) (c : PoolP) (size idx : Nat) (act : CAct K) (src : Ref) (road : Nat) (h : act ≠ .linear) :
    (∃ ts, ((tokens Tpl.pooling2D_HWC).bind fun tt => inst tt (hwcHash avg c size idx act src road)) = some ts ∧
      CTok.id (.o_ptr, none) ∈ ts ∧
      (∀ pre k post, ts ≠ pre ++ .kw k :: .id (.o_ptr, none) :: post ∧ ts ≠ pre ++ .kw k :: .punct .star :: .id (.o_ptr, none) :: post) ∧
      ∀ (net : Network K) (plan : Graph.Plan) (th : List (CTok K)) (fields externs : List Field'), headerText net plan = some th →
        IsHeader th fields externs → (∀ b, ¬ Bound fields externs (localDcls net plan) (b, (.o_ptr, none))) ∧
          ((.o_ptr, none) : Ident) ∉ (localDcls net plan).map Dcl.name) ∧
    ∃ ts, ((tokens Tpl.pooling2D_HWC).bind fun tt => inst tt (hwcHash (K := K) avg c size idx .linear src road)) = some ts ∧
      CTok.id (.o_ptr, none) ∉ ts := by
  constructor
  · obtain ⟨ts, hs, ha⟩ := Option.map_eq_some_iff.mp (hwc_act avg c size idx act src road h)
    simp only [Prod.mk.injEq] at ha
    refine ⟨ts, hs, (names_iff _ _).1 ha.1, fun pre k post => ⟨?_, ?_⟩, fun net plan th fields externs hth hh => optr_not_bound net plan hth hh⟩
    · rintro rfl
      rw [(introduces_of _ k pre post).1] at ha
      exact absurd ha.2 (by simp)
    · rintro rfl
      rw [(introduces_of _ k pre post).2] at ha
      exact absurd ha.2 (by simp)
  · obtain ⟨ts, hs, ha⟩ := Option.map_eq_some_iff.mp (hwc_linear avg c size idx src road (K := K))
    refine ⟨ts, hs, fun hm => ?_⟩
    rw [(names_iff _ _).2 hm] at ha
    exact absurd ha (by simp)

end Verif.CText

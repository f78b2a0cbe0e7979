import Verif.Torch.Examples

/-!
# C68: programs that the importer rejects or renders otherwise
-/

namespace Verif.Torch
open Net Layers Graph Gen
open Onnx (prod npAxis nat?)
open scoped Classical

variable (p : Program) (st : State)

/-! ## Calls that are not read as they are written -/

/-- **C68** `leaky_relu` is imported as `relu`, whatever its slope. -/
theorem C68_leaky_relu (name s : String) (d : List Nat) (rest : List Arg) :
    p.callStep st name d "leaky_relu.default" (.node s :: rest) = p.callStep st name d "relu.default" [.node s] := by
  have h1 : branch "leaky_relu.default" = .relu := by decide
  have h2 : branch "relu.default" = .relu := by decide
  simp only [Program.callStep, h1, h2]
  rfl

/-- **C68** Keyword arguments are not read: `add(a, b, alpha=k)` is imported as `a + b`, for every `k`. -/
theorem C68_alpha_ignored (name : String) (d : List Nat) (t : String) (args : List Arg) (kw : List (String × Arg)) :
    p.step st ⟨name, d, .call t args kw⟩ = p.step st ⟨name, d, .call t args []⟩ := rfl

/-- **C68** Only the first of the two strides and of the two dilations of a convolution is read. -/
theorem C68_second_stride_ignored (name : String) (d : List Nat) (s w b : Arg) (i j j' : Int) (pad : Arg) (e f f' : Int) :
    p.callStep st name d "conv2d.default" [s, w, b, .ints [i, j], pad, .ints [e, f]] =
      p.callStep st name d "conv2d.default" [s, w, b, .ints [i, j'], pad, .ints [e, f']] := by
  have h1 : branch "conv2d.default" = .conv2d := by decide
  simp only [Program.callStep, h1]
  rfl

/-- **C68** The dilation of a pooling window is not read. -/
theorem C68_pool_dilation_ignored (name : String) (d : List Nat) (s k stride pad : Arg) (rest : List Arg) :
    p.callStep st name d "max_pool2d.default" (s :: k :: stride :: pad :: rest) = p.callStep st name d "max_pool2d.default" [s, k, stride, pad] := by
  have h1 : branch "max_pool2d.default" = .maxPool := by decide
  simp only [Program.callStep, h1]
  rfl

/-! ## Calls that are rejected -/

/-- **C68** A linear layer without bias is rejected. -/
theorem C68_linear_no_bias_raises (name : String) (d : List Nat) (s w : Arg) (rest : List Arg) (h : rest = [] ∨ rest.head? = some .absent) :
    p.callStep st name d "linear.default" (s :: w :: rest) = none := by
  have h1 : branch "linear.default" = .linear := by decide
  simp only [Program.callStep, h1]
  rcases h with rfl | h
  · cases p.param w <;> simp
  · cases rest with
    | nil => simp at h
    | cons a r =>
      simp only [List.head?_cons, Option.some.injEq] at h
      subst h
      cases p.param w <;> simp [Program.param]

/-- **C68** `conv2d(x, w)` with two arguments is rejected. -/
theorem C68_conv_two_args_raises (name : String) (d : List Nat) (s w : Arg) : p.callStep st name d "conv2d.default" [s, w] = none := by
  have h1 : branch "conv2d.default" = .conv2d := by decide
  simp only [Program.callStep, h1]
  have e : ([s, w] : List Arg)[2]? = none := rfl
  rw [Option.eq_none_iff_forall_ne_some]
  intro r h
  obtain ⟨_, _, h2⟩ := Option.bind_eq_some_iff.mp h
  obtain ⟨_, _, h3⟩ := Option.bind_eq_some_iff.mp h2
  obtain ⟨_, _, h4⟩ := Option.bind_eq_some_iff.mp h3
  obtain ⟨_, _, h5⟩ := Option.bind_eq_some_iff.mp h4
  obtain ⟨_, _, h6⟩ := Option.bind_eq_some_iff.mp h5
  obtain ⟨_, _, h7⟩ := Option.bind_eq_some_iff.mp h6
  simp at h7

/-- **C68** Concatenations along a negative axis are rejected. -/
theorem C68_cat_negative_raises (name : String) (d : List Nat) (a : Arg) (axis : Int) (h : axis < 0) : p.callStep st name d "cat.default" [a, .int axis] = none := by
  have h1 : branch "cat.default" = .cat := by decide
  have h2 : npAxis axis = none := by
    unfold npAxis
    rw [if_neg (by omega), if_neg (by omega), if_neg (by omega)]
  have h3 : ∀ ss o, createCat axis ss o = none := by
    intro ss o
    unfold createCat
    rw [h2]
    cases ss.mapM shape4 <;> simp
  simp only [Program.callStep, h1]
  rw [Option.eq_none_iff_forall_ne_some]
  intro r h
  obtain ⟨a1, ha1, h4⟩ := Option.bind_eq_some_iff.mp h
  simp only [List.getElem?_cons_succ, List.getElem?_cons_zero, Option.some.injEq] at ha1
  subst ha1
  obtain ⟨k, hk, h5⟩ := Option.bind_eq_some_iff.mp h4
  simp only [Option.some.injEq] at hk
  subst hk
  obtain ⟨_, _, h6⟩ := Option.bind_eq_some_iff.mp h5
  obtain ⟨_, _, h7⟩ := Option.bind_eq_some_iff.mp h6
  obtain ⟨_, _, h8⟩ := Option.bind_eq_some_iff.mp h7
  obtain ⟨_, h9, _⟩ := Option.bind_eq_some_iff.mp h8
  rw [h3] at h9
  cases h9

/-- the output size of a window of size `k` moved by `k` -/
def poolOut (n k : Nat) : Nat := (n - k) / k + 1

/-- **C68** `max_pool2d` with its default stride, the size of the window, is rejected if the window is larger than one pixel and smaller than the image. -/
theorem C68_default_stride_raises (name s : String) (C H W k : Nat) (hk : 2 ≤ k) (hH : k < H) (hl : ∃ j, st.look s = some (j, [1, C, H, W])) :
    p.callStep st name [1, C, poolOut H k, poolOut W k] "max_pool2d.default" [.node s, .ints [k, k]] = none := by
  have h1 : branch "max_pool2d.default" = .maxPool := by decide
  obtain ⟨j, hj⟩ := hl
  have hp : ∀ pad, createPool [1, C, H, W] [1, C, poolOut H k, poolOut W k] k 1 pad = none ∨ pad ≠ .list [0, 0, 0, 0] := by
    intro pad
    by_cases hpad : pad = .list [0, 0, 0, 0]
    · left
      subst hpad
      unfold createPool shape4 Onnx.poolP
      simp only [Option.bind_eq_bind, Option.bind_some]
      split
      · rw [Option.eq_none_iff_forall_ne_some]
        intro c hc
        simp [computePadding, nat?] at hc
        obtain ⟨hacc, _⟩ := hc
        unfold PoolP.Accepted at hacc
        obtain ⟨_, _, h3, _⟩ := hacc
        simp [poolOut] at h3
        have : (H - k) / k < H - k := Nat.div_lt_self (by omega) hk
        omega
      · rfl
    · exact .inr hpad
  have h0 := hp (.list [0, 0, 0, 0])
  simp only [ne_eq, not_true_eq_false, or_false] at h0
  simp only [Program.callStep, h1]
  have hn : nat? (k : Int) = some k := by simp [nat?]
  simp [Arg.head?, hn, padding?, Arg.name?, hj, nat?, h0]

/-- **C68** An activation function that follows the input has no effect. -/
theorem C68_relu_on_input (name s : String) (d : List Nat) (j : Nat) (sh : List Nat) (b : Bool) (i : Shape) (hl : st.look s = some (j, sh))
    (ho : ∃ n, st.net.layers[j]? = some (n, .input b i)) : p.callStep st name d "relu.default" [.node s] = some (st.alias name (j, sh)) := by
  have h1 : branch "relu.default" = .relu := by decide
  obtain ⟨n, ho⟩ := ho
  simp only [Program.callStep, h1]
  simp only [List.getElem?_cons_zero, Option.bind_eq_bind, Option.bind_some, Arg.name?, hl, Option.some.injEq]
  have : (st.net.layers.modify j fun l => (l.1, setAct (Act.compute .relu) l.2)) = st.net.layers := by
    apply List.ext_getElem?
    intro q
    rw [List.getElem?_modify]
    split
    · subst_vars
      rw [ho]
      rfl
    · simp
  unfold State.change
  rw [this]

/-- **C68** The interpreter does not apply an activation function that follows a pooling layer; the generated code does (`C13`). -/
theorem C68_relu_after_pool (M : CMath ℝ) (fmt : DataFormat) (c : PoolP) (f g : ℝ → ℝ) (ins : List (Nd ℝ)) :
    Op.forward M fmt (setAct f (.maxPool c g)) ins = Op.forward M fmt (.maxPool c g) ins ∧ Op.forward M fmt (setAct f (.avgPool c g)) ins = Op.forward M fmt (.avgPool c g) ins := by
  constructor <;> rcases ins with _ | ⟨x, _ | ⟨y, l⟩⟩ <;> rfl

/-! ## Names of the same layer -/

/-- an argument in which the name `s` is replaced by `r` -/
def Arg.rename (s r : String) : Arg → Arg
  | .node a => .node (if a = s then r else a)
  | .nodes l => .nodes (l.map fun a => if a = s then r else a)
  | a => a

/-- a call in which the name `s` is replaced by `r` among the arguments -/
def Node.rename (s r : String) (n : Node) : Node :=
  match n.kind with
  | .call t args kw => { n with kind := .call t (args.map (Arg.rename s r)) kw }
  | _ => n

theorem rename_name (s r : String) (n : Node) : (n.rename s r).name = n.name := by
  unfold Node.rename
  split <;> rfl

theorem rename_attr (s r : String) (n : Node) : (match (n.rename s r).kind with | .getAttr v => some v | _ => none) = (match n.kind with | .getAttr v => some v | _ => none) := by
  unfold Node.rename
  cases h : n.kind <;> simp [h]

variable {p st}

/-- `layerdic` only gets entries with the name `a` -/
def Adds (st : State) (a : String) (o : Option State) : Prop := ∀ st', o = some st' → ∃ l, st'.dic = st.dic ++ l ∧ ∀ e ∈ l, e.1 = a

theorem adds_bind {α : Type} {a : String} {o : Option α} {f : α → Option State} (h : ∀ x, Adds st a (f x)) : Adds st a (o >>= f) := by
  intro st' hs
  obtain ⟨x, _, hx⟩ := Option.bind_eq_some_iff.mp hs
  exact h x st' hx

theorem adds_push (a : String) (sh : List Nat) (op : Op ℝ) (prev : List Nat) : Adds st a (some (st.push a sh op prev)) := by
  intro st' h; cases h; exact ⟨[_], rfl, by simp⟩

theorem adds_alias (a : String) (k : Nat) (f : Nat × Op ℝ → Nat × Op ℝ) (e : Nat × List Nat) : Adds st a (some ((st.change k f).alias a e)) := by
  intro st' h; cases h; exact ⟨[(a, e)], rfl, by simp⟩

theorem adds_alias' (a : String) (e : Nat × List Nat) : Adds st a (some (st.alias a e)) := by
  intro st' h; cases h; exact ⟨[(a, e)], rfl, by simp⟩

theorem adds_none (a : String) : Adds st a none := by intro st' h; cases h

theorem adds_same (a : String) : Adds st a (some st) := by intro st' h; cases h; exact ⟨[], by simp, by simp⟩

/-- a step adds entries with its own name to `layerdic` -/
theorem step_dic (n : Node) : Adds st n.name (p.step st n) := by
  unfold Program.step
  split
  · refine adds_bind fun op => ?_
    intro st' h; cases h; exact ⟨[_], rfl, by simp⟩
  · unfold Program.callStep
    split
    · iterate 8 refine adds_bind fun _ => ?_
      exact adds_push _ _ _ _
    · iterate 3 refine adds_bind fun _ => ?_
      exact adds_alias _ _ _ _
    · iterate 4 refine adds_bind fun _ => ?_
      split
      · exact adds_none _
      · iterate 3 refine adds_bind fun _ => ?_
        exact adds_alias _ _ _ _
    · iterate 14 refine adds_bind fun _ => ?_
      exact adds_push _ _ _ _
    · iterate 15 refine adds_bind fun _ => ?_
      exact adds_alias _ _ _ _
    · iterate 2 refine adds_bind fun _ => ?_
      split
      · iterate 2 refine adds_bind fun _ => ?_
        exact adds_push _ _ _ _
      · exact adds_same _
    · iterate 6 refine adds_bind fun _ => ?_
      exact adds_push _ _ _ _
    · iterate 3 refine adds_bind fun _ => ?_
      exact adds_alias' _ _
    · iterate 9 refine adds_bind fun _ => ?_
      exact adds_push _ _ _ _
    · iterate 5 refine adds_bind fun _ => ?_
      exact adds_push _ _ _ _
    · exact adds_same _
  all_goals exact adds_same _

theorem look_grow {st st' : State} {s : String} {e : Nat × List Nat} {l : List (String × Nat × List Nat)} (h : st.look s = some e) (hd : st'.dic = st.dic ++ l) : st'.look s = some e := by
  unfold State.look at h ⊢
  obtain ⟨a, ha, hae⟩ := Option.map_eq_some_iff.mp h
  simp only [hd, List.find?_append, ha, Option.some_or, Option.map_some, hae]

/-- two names of the same layer -/
def State.Same (st : State) (s r : String) : Prop := ∃ e, st.look s = some e ∧ st.look r = some e

theorem same_step {n : Node} {st' : State} {s r : String} (h : p.step st n = some st') (hs : st.Same s r) : st'.Same s r := by
  obtain ⟨l, hl, _⟩ := step_dic n st' h
  obtain ⟨e, h1, h2⟩ := hs
  exact ⟨e, look_grow h1 hl, look_grow h2 hl⟩

/-- the argument's parameter is the same in both programs -/
def Agree (p p' : Program) (f : Arg → Arg) : Prop := ∀ a, p'.param (f a) = p.param a

theorem rename_look {s r : String} (h : st.Same s r) (a : String) : st.look (if a = s then r else a) = st.look a := by
  obtain ⟨e, h1, h2⟩ := h
  split
  · subst_vars; rw [h1, h2]
  · rfl

theorem rename_name_look {α : Type} {s r : String} (h : st.Same s r) (a : Arg) (k : Nat × List Nat → Option α) :
    ((a.rename s r).name? >>= fun x => st.look x >>= k) = (a.name? >>= fun x => st.look x >>= k) := by
  cases a <;> simp [Arg.rename, Arg.name?, rename_look h]

theorem bind_map {α β γ : Type} (o : Option α) (f : α → β) (k : β → Option γ) : (o.map f >>= k) = (o >>= fun a => k (f a)) := by cases o <;> rfl

theorem bind_congr2 {α β : Type} {o o' : Option α} {f g : α → Option β} (h : o = o') (hf : ∀ a, f a = g a) : (o >>= f) = (o' >>= g) := by
  rw [h, funext hf]

theorem rename_head (s r : String) (a : Arg) : (a.rename s r).head? = a.head? := by cases a <;> rfl
theorem rename_number (s r : String) (a : Arg) : (a.rename s r).number? = a.number? := by cases a <;> rfl
theorem rename_padding (s r : String) (args : List Arg) (k : Nat) : padding? (args.map (Arg.rename s r)) k = padding? args k := by
  unfold padding?
  rw [List.getElem?_map]
  rcases args[k]? with _ | a
  · rfl
  · cases a <;> rfl

theorem rename_mapM {s r : String} (h : st.Same s r) (args : List Arg) :
    ((args.map (Arg.rename s r)).mapM fun a => do st.look (← a.name?)) = args.mapM (fun a => do st.look (← a.name?)) := by
  induction args with
  | nil => rfl
  | cons a l ih =>
    rw [List.map_cons, List.mapM_cons, List.mapM_cons, ih]
    congr 1
    cases a <;> simp [Arg.rename, Arg.name?, rename_look h]

theorem rename_mapM' {s r : String} (h : st.Same s r) (l : List String) : (l.map fun a => if a = s then r else a).mapM st.look = l.mapM st.look := by
  induction l with
  | nil => rfl
  | cons a l ih => rw [List.map_cons, List.mapM_cons, List.mapM_cons, ih, rename_look h]

/-- a call that reads another name of the same layer has the same effect -/
theorem rename_call {p' : Program} {s r : String} (hp : Agree p p' (Arg.rename s r)) (h : st.Same s r) (name : String) (d : List Nat) (t : String) (args : List Arg) :
    p'.callStep st name d t (args.map (Arg.rename s r)) = p.callStep st name d t args := by
  have hp : ∀ a, p'.param (Arg.rename s r a) = p.param a := hp
  unfold Program.callStep
  cases branch t
  · simp only [List.getElem?_map, bind_map, hp, rename_name_look h]
  · simp only [List.getElem?_map, bind_map, rename_name_look h]
  · simp only [List.getElem?_map, bind_map, rename_name_look h, rename_number]
  · simp only [List.getElem?_map, bind_map, hp, rename_name_look h, rename_padding]
    refine bind_congr2 ?_ fun _ => bind_congr2 rfl fun _ => bind_congr2 rfl fun _ => bind_congr2 ?_ fun _ => bind_congr2 rfl fun _ => bind_congr2 ?_ fun _ =>
      bind_congr2 rfl fun _ => bind_congr2 rfl fun _ => bind_congr2 rfl fun _ => bind_congr2 rfl fun _ => bind_congr2 rfl fun _ => bind_congr2 rfl fun a2 =>
      bind_congr2 ?_ fun _ => rfl
    · rcases args[3]? with _ | a
      · rfl
      · exact rename_head s r a
    · rcases args[5]? with _ | a
      · rfl
      · exact rename_head s r a
    · rcases args[6]? with _ | a
      · rfl
      · cases a <;> rfl
    · have := hp a2
      cases a2 <;> first | exact this | rfl
  · simp only [List.getElem?_map, bind_map, hp, rename_name_look h, rename_number]
  · simp only [List.getElem?_map, bind_map, rename_mapM h]
    rcases args[0]? with _ | a
    · rfl
    · cases a <;> simp [Arg.rename, Arg.name?, rename_look h]
  · simp only [List.getElem?_map, bind_map]
    rcases args[1]? with _ | a1
    · rfl
    · simp only [Option.bind_eq_bind, Option.bind_some]
      rcases args[0]? with _ | a
      · cases a1 <;> rfl
      · cases a1 <;> cases a <;> simp [Arg.rename, rename_mapM' h]
  · simp only [List.getElem?_map, bind_map, rename_name_look h]
  · simp only [List.getElem?_map, bind_map, rename_name_look h, rename_padding]
    refine bind_congr2 ?_ fun _ => bind_congr2 rfl fun _ => bind_congr2 ?_ fun _ => rfl
    · rcases args[1]? with _ | a
      · rfl
      · exact rename_head s r a
    · rcases args[2]? with _ | a
      · rfl
      · exact rename_head s r a
  · simp only [List.getElem?_map, bind_map, rename_name_look h]
  · rfl

theorem rename_step {p' : Program} {s r : String} (hp : Agree p p' (Arg.rename s r)) (h : st.Same s r) (n : Node) : p'.step st (n.rename s r) = p.step st n := by
  unfold Program.step Node.rename
  cases hk : n.kind <;> simp only [hk]
  exact rename_call hp h _ _ _ _

theorem rename_fold {p' : Program} {s r : String} (hp : Agree p p' (Arg.rename s r)) (b : List Node) : ∀ st : State, st.Same s r →
    (b.map (Node.rename s r)).foldlM p'.step st = b.foldlM p.step st := by
  induction b with
  | nil => intro st _; rfl
  | cons n b ih =>
    intro st h
    rw [List.map_cons, List.foldlM_cons, List.foldlM_cons, rename_step hp h]
    cases h1 : p.step st n with
    | none => rfl
    | some st1 => exact ih st1 (same_step h1 h)

theorem agree_step {p' : Program} (hp : ∀ a, p'.param a = p.param a) (n : Node) : p'.step st n = p.step st n := by
  unfold Program.step
  cases hk : n.kind <;> simp only
  unfold Program.callStep
  simp only [hp]

theorem agree_fold {p' : Program} (hp : ∀ a, p'.param a = p.param a) (b : List Node) : ∀ st : State, b.foldlM p'.step st = b.foldlM p.step st := by
  induction b with
  | nil => intro st; rfl
  | cons n b ih =>
    intro st
    rw [List.foldlM_cons, List.foldlM_cons, agree_step hp]
    cases p.step st n with
    | none => rfl
    | some st1 => exact ih st1

theorem param_rename (a : List Node) (n : Node) (b : List Node) (s r : String) (x : String) :
    Program.param ⟨a ++ n :: b.map (Node.rename s r)⟩ (.node x) = Program.param ⟨a ++ n :: b⟩ (.node x) := by
  have hf : ∀ b : List Node, ((b.map (Node.rename s r)).find? fun m => decide (m.name = x)).bind (fun m => match m.kind with | .getAttr v => some v | _ => none) =
      ((b.find? fun m => decide (m.name = x)).bind fun m => match m.kind with | .getAttr v => some v | _ => none) := by
    intro b
    induction b with
    | nil => rfl
    | cons m b ih =>
      rw [List.map_cons, List.find?_cons, List.find?_cons, rename_name]
      split
      · simp only [Option.bind_some]; exact rename_attr s r m
      · exact ih
  unfold Program.param
  simp only [List.find?_append, List.find?_cons]
  cases a.find? (fun m => decide (m.name = x)) with
  | some m => rfl
  | none =>
    simp only [Option.none_or]
    split
    · rfl
    · exact hf b

theorem dic_names {b : List Node} : ∀ {st st' : State}, b.foldlM p.step st = some st' → ∀ e ∈ st'.dic, e ∈ st.dic ∨ ∃ m ∈ b, e.1 = m.name := by
  induction b with
  | nil => intro st st' h e he; cases h; exact .inl he
  | cons n b ih =>
    intro st st' h e he
    rw [List.foldlM_cons] at h
    obtain ⟨st1, h1, h2⟩ := Option.bind_eq_some_iff.mp h
    rcases ih h2 e he with h3 | ⟨m, hm, h3⟩
    · obtain ⟨l, hl, hn⟩ := step_dic n st1 h1
      rw [hl] at h3
      rcases List.mem_append.mp h3 with h4 | h4
      · exact .inl h4
      · exact .inr ⟨n, List.mem_cons_self, hn e h4⟩
    · exact .inr ⟨m, List.mem_cons_of_mem _ hm, h3⟩

theorem step_same {n : Node} {s t : String} {args : List Arg} {kw : List (String × Arg)} {st' : State} (hk : n.kind = .call t (.node s :: args) kw)
    (hb : branch t = .relu ∨ branch t = .clamp ∨ branch t = .batchNorm ∨ branch t = .alias) (hn : ∀ e ∈ st.dic, e.1 ≠ n.name) (h : p.step st n = some st') :
    st'.Same s n.name := by
  have fin : ∀ (st1 : State) e, st1.dic = st.dic → st.look s = some e → (st1.alias n.name e).Same s n.name := by
    intro st1 e h1 h2
    refine ⟨e, look_append ((look_dic h1 s).trans h2), look_new (by rw [h1]; exact hn)⟩
  unfold Program.step at h
  rw [hk] at h
  simp only [Program.callStep] at h
  rcases hb with hb | hb | hb | hb <;> rw [hb] at h <;> simp only [List.getElem?_cons_zero, Option.bind_eq_bind, Option.bind_some, Arg.name?] at h
  · obtain ⟨e, he, h⟩ := Option.bind_eq_some_iff.mp h
    cases h
    exact fin (st.change e.1 _) e rfl he
  · obtain ⟨_, _, h1⟩ := Option.bind_eq_some_iff.mp h
    obtain ⟨_, _, h2⟩ := Option.bind_eq_some_iff.mp h1
    obtain ⟨_, _, h3⟩ := Option.bind_eq_some_iff.mp h2
    obtain ⟨_, _, h4⟩ := Option.bind_eq_some_iff.mp h3
    split at h4
    · cases h4
    · obtain ⟨e, he, h5⟩ := Option.bind_eq_some_iff.mp h4
      cases h5
      exact fin (st.change e.1 _) e rfl he
  · obtain ⟨e, he, h1⟩ := Option.bind_eq_some_iff.mp h
    obtain ⟨_, _, h2⟩ := Option.bind_eq_some_iff.mp h1
    obtain ⟨_, _, h3⟩ := Option.bind_eq_some_iff.mp h2
    obtain ⟨_, _, h4⟩ := Option.bind_eq_some_iff.mp h3
    obtain ⟨_, _, h5⟩ := Option.bind_eq_some_iff.mp h4
    obtain ⟨_, _, h6⟩ := Option.bind_eq_some_iff.mp h5
    obtain ⟨_, _, h7⟩ := Option.bind_eq_some_iff.mp h6
    obtain ⟨_, _, h8⟩ := Option.bind_eq_some_iff.mp h7
    obtain ⟨_, _, h9⟩ := Option.bind_eq_some_iff.mp h8
    obtain ⟨_, _, h10⟩ := Option.bind_eq_some_iff.mp h9
    obtain ⟨_, _, h11⟩ := Option.bind_eq_some_iff.mp h10
    obtain ⟨_, _, h12⟩ := Option.bind_eq_some_iff.mp h11
    obtain ⟨_, _, h13⟩ := Option.bind_eq_some_iff.mp h12
    cases h13
    exact fin (st.change e.1 _) e rfl he
  · obtain ⟨e, he, h⟩ := Option.bind_eq_some_iff.mp h
    cases h
    exact fin st e rfl he

/-- **C68** After an activation function or a batch normalisation `n` of a tensor `s`, calls that read `s` get the value of `n`: the program in which they read
`n` instead is imported as the same network.  (The import theorem requires that no other call reads `s`.) -/
theorem C68_operand_overwritten (a b : List Node) (n : Node) (s t : String) (args : List Arg) (kw : List (String × Arg)) (hk : n.kind = .call t (.node s :: args) kw)
    (hb : branch t = .relu ∨ branch t = .clamp ∨ branch t = .batchNorm ∨ branch t = .alias) (hs : ∀ m ∈ a ++ n :: b, m.name = s → ¬ m.isParam)
    (hn : ∀ m ∈ a, m.name ≠ n.name) : loadTorch ⟨a ++ n :: b.map (Node.rename s n.name)⟩ = loadTorch ⟨a ++ n :: b⟩ := by
  have hattr : ∀ x, (∀ m ∈ a ++ n :: b, m.name = x → ¬ m.isParam) → Program.param ⟨a ++ n :: b⟩ (.node x) = none := by
    intro x hx
    unfold Program.param
    simp only
    cases hf : (a ++ n :: b).find? (fun m => decide (m.name = x)) with
    | none => rfl
    | some m =>
      simp only [Option.bind_some]
      have h1 := List.mem_of_find?_eq_some hf
      have h2 := List.find?_some hf
      have := hx m h1 (by simpa using h2)
      cases hmk : m.kind with
      | getAttr v => exact absurd ⟨v, hmk⟩ this
      | _ => rfl
  have hfirst : Program.param ⟨a ++ n :: b⟩ (.node n.name) = none := by
    unfold Program.param
    have : (a ++ n :: b).find? (fun m => decide (m.name = n.name)) = some n := by
      rw [List.find?_append, List.find?_eq_none.mpr (by simpa using hn)]
      simp
    simp only [this, Option.bind_some, hk]
  have hsame : ∀ x, Program.param ⟨a ++ n :: b.map (Node.rename s n.name)⟩ x = Program.param ⟨a ++ n :: b⟩ x := by
    intro x
    cases x <;> first | exact param_rename a n b s n.name _ | rfl
  have hag : Agree ⟨a ++ n :: b⟩ ⟨a ++ n :: b.map (Node.rename s n.name)⟩ (Arg.rename s n.name) := by
    intro x
    rw [hsame]
    cases x with
    | node x =>
      simp only [Arg.rename]
      split
      · rename_i hx
        rw [hfirst, hx, hattr s hs]
      · rfl
    | _ => rfl
  have hbuilt : Program.built ⟨a ++ n :: b.map (Node.rename s n.name)⟩ = Program.built ⟨a ++ n :: b⟩ := by
    unfold Program.built
    simp only [List.foldlM_append, List.foldlM_cons]
    rw [agree_fold hsame]
    cases h1 : a.foldlM (Program.step ⟨a ++ n :: b⟩) ⟨⟨[], [], 0⟩, [], .first⟩ with
    | none => rfl
    | some st1 =>
      simp only [Option.bind_eq_bind, Option.bind_some]
      rw [agree_step hsame]
      cases h2 : Program.step ⟨a ++ n :: b⟩ st1 n with
      | none => rfl
      | some st2 =>
        simp only [Option.bind_some]
        refine rename_fold hag b st2 (step_same hk hb (fun e he => ?_) h2)
        rcases dic_names h1 e he with h3 | ⟨m, hm, h3⟩
        · cases h3
        · rw [h3]; exact hn m hm
  unfold loadTorch
  rw [hbuilt]

/-- **C68** A call of an operator that the importer does not know is dropped: the program without it is imported as the same network, so the result of the
network of a program that ends with `sigmoid` or `softmax` is the operand of that call. -/
theorem C68_unknown_dropped (a b : List Node) (n : Node) (t : String) (args : List Arg) (kw : List (String × Arg)) (hk : n.kind = .call t args kw)
    (hb : branch t = .ignored) (hn : ∀ m ∈ b, m.name ≠ n.name) : loadTorch ⟨a ++ n :: b⟩ = loadTorch ⟨a ++ b⟩ := by
  have hsame : ∀ x, Program.param ⟨a ++ n :: b⟩ x = Program.param ⟨a ++ b⟩ x := by
    intro x
    cases x with
    | node x =>
      unfold Program.param
      simp only [List.find?_append, List.find?_cons]
      cases a.find? (fun m => decide (m.name = x)) with
      | some m => rfl
      | none =>
        simp only [Option.none_or]
        split
        · rename_i hx
          simp only [decide_eq_true_eq] at hx
          have : b.find? (fun m => decide (m.name = x)) = none := List.find?_eq_none.mpr (by rw [← hx]; simpa using hn)
          rw [this]
          simp [hk]
        · rfl
    | _ => rfl
  have hid : ∀ st, Program.step ⟨a ++ b⟩ st n = some st := by
    intro st
    unfold Program.step
    rw [hk]
    simp only [Program.callStep, hb]
  have hbuilt : Program.built ⟨a ++ n :: b⟩ = Program.built ⟨a ++ b⟩ := by
    unfold Program.built
    rw [agree_fold hsame]
    simp only [List.foldlM_append, List.foldlM_cons, hid]
    rfl
  unfold loadTorch
  rw [hbuilt]

/-- the operators that are dropped, among them -/
theorem C68_unknown_examples : ∀ t ∈ ["sigmoid.default", "tanh.default", "softmax.int", "mul.Tensor", "sub.Tensor", "div.Tensor", "mean.dim", "avg_pool2d.default", "view.default", "matmul.default"],
    branch t = .ignored := by decide

end Verif.Torch

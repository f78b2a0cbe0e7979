import Verif.CText.BroadcastCode
import Verif.Layers.Resize

/-!
# The texts of the Resize layers as programs
-/

namespace Verif.CText
open Prog Layers
set_option linter.unusedVariables false
set_option linter.unusedSectionVars false
set_option linter.constructorNameAsVariable false
variable {K : Type} [Field K] [LinearOrder K] [FloorRing K]

/-! ## Lists of statements -/

/-- something that is not a closing brace -/
def headOk : List (CTok K) → Bool
  | .punct .rbrc :: _ => false
  | [] => false
  | _ => true

def notSkip : Stmt K → Bool
  | .skip => false
  | _ => true

/-- a text that is read as a statement, whatever follows -/
def StmtU (x : List (CTok K) × Stmt K) : Prop :=
  headOk x.1 = true ∧ notSkip x.2 = true ∧ ∀ n rest, stmt (n + 100) (x.1 ++ rest) = some (x.2, rest)

omit [Field K] [LinearOrder K] [FloorRing K] in
theorem headOk_cons {l : List (CTok K)} (h : headOk l = true) : ∃ t r, l = t :: r ∧ t ≠ .punct .rbrc := by
  cases l with
  | nil => cases h
  | cons t r =>
    refine ⟨t, r, rfl, ?_⟩
    rintro rfl
    cases h

omit [Field K] [LinearOrder K] [FloorRing K] in
theorem notSkip_ne {s : Stmt K} (h : notSkip s = true) : s ≠ .skip := by
  rintro rfl
  cases h

omit [Field K] [LinearOrder K] [FloorRing K] in
theorem stmts_any (n : Nat) {t : CTok K} (ht : t ≠ .punct .rbrc) (r : List (CTok K)) : stmts (n + 1) (t :: r) =
    (match stmt n (t :: r) with
      | some (a, r) =>
        match stmts n r with
        | some (.skip, r') => some (a, r')
        | some (b, r') => some (.seq a b, r')
        | none => none
      | none => none) := by
  cases t with
  | punct p => cases p <;> first | exact absurd rfl ht | rfl
  | _ => rfl

theorem stmts_listU (rest : List (CTok K)) : ∀ (l : List (List (CTok K) × Stmt K)), (∀ x ∈ l, StmtU x) → ∀ n,
    stmts (n + 101 + l.length) (l.flatMap (·.1) ++ .punct .rbrc :: rest) = some (seqs (l.map (·.2)), .punct .rbrc :: rest)
  | [], _, n => rfl
  | x :: l, h, n => by
    have ih := stmts_listU rest l (fun y hy => h y (List.mem_cons_of_mem _ hy)) n
    obtain ⟨hh, hs, hx⟩ := h x (List.mem_cons_self ..)
    obtain ⟨t, r, hr, ht⟩ := headOk_cons hh
    have e1 : (x :: l).flatMap (·.1) ++ .punct .rbrc :: rest = t :: (r ++ (l.flatMap (·.1) ++ .punct .rbrc :: rest)) := by
      simp [List.flatMap_cons, hr]
    have hx := hx (n + 1 + l.length) (l.flatMap (·.1) ++ .punct .rbrc :: rest)
    rw [hr, List.cons_append] at hx
    rw [e1, show n + 101 + (x :: l).length = (n + 1 + l.length + 100) + 1 by simp only [List.length_cons]; omega, stmts_any _ ht, hx]
    rw [show n + 1 + l.length + 100 = n + 101 + l.length by omega]
    simp only [ih]
    cases l with
    | nil => rfl
    | cons y l =>
      have hne := seqs_ne_skip ((y :: l).map (·.2)) (by simp) (by
        intro z hz
        obtain ⟨w, hw, rfl⟩ := List.mem_map.1 hz
        exact notSkip_ne (h w (List.mem_cons_of_mem _ hw)).2.1)
      show (match (some (seqs ((y :: l).map (·.2)), .punct .rbrc :: rest) : Option (Stmt K × List (CTok K))) with
        | some (.skip, r') => some (x.2, r')
        | some (b, r') => some (.seq x.2 b, r')
        | none => none) = some (.seq x.2 (seqs ((y :: l).map (·.2))), .punct .rbrc :: rest)
      generalize seqs ((y :: l).map (·.2)) = s at hne ⊢
      cases s <;> first | exact absurd rfl hne | rfl

/-- statements before others -/
theorem stmts_before {tail r : List (CTok K)} {s : Stmt K} {n : Nat} (hs : notSkip s = true) (ht : stmts (n + 101) tail = some (s, r)) :
    ∀ (l : List (List (CTok K) × Stmt K)), (∀ x ∈ l, StmtU x) →
    stmts (n + 101 + l.length) (l.flatMap (·.1) ++ tail) = some (seqs (l.map (·.2) ++ [s]), r)
  | [], _ => ht
  | x :: l, h => by
    have ih := stmts_before hs ht l (fun y hy => h y (List.mem_cons_of_mem _ hy))
    obtain ⟨hh, hs', hx⟩ := h x (List.mem_cons_self ..)
    obtain ⟨t, u, hr, htt⟩ := headOk_cons hh
    have e1 : (x :: l).flatMap (·.1) ++ tail = t :: (u ++ (l.flatMap (·.1) ++ tail)) := by simp [List.flatMap_cons, hr]
    have hx := hx (n + 1 + l.length) (l.flatMap (·.1) ++ tail)
    rw [hr, List.cons_append] at hx
    rw [e1, show n + 101 + (x :: l).length = (n + 1 + l.length + 100) + 1 by simp only [List.length_cons]; omega, stmts_any _ htt, hx]
    rw [show n + 1 + l.length + 100 = n + 101 + l.length by omega]
    simp only [ih]
    have hne : seqs (l.map (·.2) ++ [s]) ≠ .skip := seqs_ne_skip _ (by simp) (by
      intro z hz
      rcases List.mem_append.1 hz with hz | hz
      · obtain ⟨w, hw, rfl⟩ := List.mem_map.1 hz
        exact notSkip_ne (h w (List.mem_cons_of_mem _ hw)).2.1
      · rw [List.mem_singleton.1 hz]; exact notSkip_ne hs)
    have e2 : seqs ((x :: l).map (·.2) ++ [s]) = .seq x.2 (seqs (l.map (·.2) ++ [s])) := by
      cases l <;> rfl
    rw [e2]
    generalize seqs (l.map (·.2) ++ [s]) = z at hne ⊢
    cases z <;> first | exact absurd rfl hne | rfl

/-- the closing loop -/
def closeS (size : Nat) (act : CAct K) (road : Nat) : Stmt K :=
  loop (.k, none) size (.block (.assign (.idx true (.output, some ⟨false, road⟩) (.var (.k, none))) .set (act.expr (.idx true (.tensor_temp, none) (.var (.k, none))))))

/-- three loops around statements, before the closing loop -/
theorem loops_stmts {C H W size road : Nat} {act : CAct K} {l : List (List (CTok K) × Stmt K)} (hl : ∀ x ∈ l, StmtU x) (n : Nat) :
    stmts (n + 110 + l.length) (head3' C H W (l.flatMap (·.1) ++ .punct .rbrc :: .punct .rbrc :: .punct .rbrc :: closeT size act road)) =
      some (.seq (loop (.f, none) C (.block (loop (.i, none) H (.block (loop (.j, none) W (.block (seqs (l.map (·.2))))))))) (closeS size act road), []) := by
  have h1 := stmts_listU (.punct .rbrc :: .punct .rbrc :: closeT size act road) l hl n
  rw [show n + 101 + l.length = (n + 81 + l.length) + 20 by omega] at h1
  have h2 := stmt_head3' (C := C) (H := H) (W := W) h1
  have h3 := close_stmts (K := K) (n + 49 + l.length) size act road
  rw [show n + 49 + l.length + 60 = n + 81 + l.length + 28 by omega] at h3
  rw [show n + 110 + l.length = (n + 81 + l.length + 28) + 1 by omega]
  have h4 : ∀ N : Nat, stmts (N + 1) (head3' C H W (l.flatMap (·.1) ++ .punct .rbrc :: .punct .rbrc :: .punct .rbrc :: closeT (K := K) size act road)) =
    (match stmt N (head3' C H W (l.flatMap (·.1) ++ .punct .rbrc :: .punct .rbrc :: .punct .rbrc :: closeT (K := K) size act road)) with
      | some (a, r) =>
        match stmts N r with
        | some (.skip, r') => some (a, r')
        | some (b, r') => some (.seq a b, r')
        | none => none
      | none => none) := fun _ => rfl
  rw [h4, h2]
  simp only [h3]
  rfl

omit [Field K] [LinearOrder K] [FloorRing K] in
theorem length_flatMap {l : List (List (CTok K) × Stmt K)} (hl : ∀ x ∈ l, StmtU x) : l.length ≤ (l.flatMap (·.1)).length := by
  induction l with
  | nil => simp
  | cons x l ih =>
    obtain ⟨t, r, hr, -⟩ := headOk_cons (hl x (List.mem_cons_self ..)).1
    have := ih fun y hy => hl y (List.mem_cons_of_mem _ hy)
    simp only [List.flatMap_cons, List.length_append, List.length_cons, hr]
    omega

/-- a text with statements before the three loops -/
theorem loops_code {text : List Char} {h : Hash K} {C H W size road : Nat} {act : CAct K} {pre l : List (List (CTok K) × Stmt K)}
    (ht : ((tokens text).bind fun tt => inst tt h) = some (pre.flatMap (·.1) ++ head3' C H W (l.flatMap (·.1) ++ .punct .rbrc :: .punct .rbrc :: .punct .rbrc :: closeT size act road)))
    (hp : ∀ x ∈ pre, StmtU x) (hl : ∀ x ∈ l, StmtU x) :
    code text h = some (seqs (pre.map (·.2) ++ [.seq (loop (.f, none) C (.block (loop (.i, none) H (.block (loop (.j, none) W (.block (seqs (l.map (·.2))))))))) (closeS size act road)])) := by
  have hc : code text h = (((tokens text).bind fun tt => inst tt h)).bind program := by
    unfold code
    cases tokens text <;> rfl
  rw [hc, ht]
  simp only [Option.bind_some]
  unfold program
  have l1 := length_flatMap hl
  have l2 := length_flatMap hp
  obtain ⟨n, hn⟩ : ∃ n, 10 * (pre.flatMap (·.1) ++ head3' C H W (l.flatMap (·.1) ++ .punct .rbrc :: .punct .rbrc :: .punct .rbrc :: closeT (K := K) size act road)).length + 20 =
      (n + 9 + l.length) + 101 + pre.length := by
    refine ⟨10 * (pre.flatMap (·.1) ++ head3' C H W (l.flatMap (·.1) ++ .punct .rbrc :: .punct .rbrc :: .punct .rbrc :: closeT (K := K) size act road)).length + 20 - (110 + l.length + pre.length), ?_⟩
    simp only [head3', List.length_cons, List.length_append]
    omega
  rw [hn]
  have h1 := loops_stmts (C := C) (H := H) (W := W) (size := size) (road := road) (act := act) hl n
  rw [show n + 110 + l.length = (n + 9 + l.length) + 101 by omega] at h1
  rw [stmts_before rfl h1 pre hp]

/-! ## Coordinates -/

/-- The strings of `coordinate_transformation_mode` (`layers/resize/Resize.py` 215-222, 232-251, 271-285, 304-324,
342-349, 359-386). -/
def coordString (mode : CoordMode) (outLen : Nat) : List Char :=
  match mode with
  | .halfPixel => chars! "{{x}} = ({{v}} + 0.5)/{{scale}} - 0.5;"
  | .halfPixelSymmetric => chars! "float adjustment = {{int_target}}/{{target}};
                float center = {{input_length}}/2;
                float offset = center*(1 - adjustment);
                {{x}} = offset + ({{v}} + 0.5)/{{scale}} - 0.5;"
  | .pytorchHalfPixel => if outLen > 1 then chars! "{{x}} = ({{v}} + 0.5)/{{scale}} - 0.5;" else chars! "{{x}} = 0;"
  | .alignCorners => chars! "{{x}} = {{v}}*({{input_length}} - 1)/({{output_length}} - 1);"
  | .asymmetric => chars! "{{x}} = {{v}}/{{scale}};"
  | .tfCropAndResize => if outLen > 1 then chars! "{{x}} = {{start}}*({{input_length}} - 1) + {{v}}*({{end}} - {{start}})*({{input_length}} - 1)/({{output_length}} - 1);                if({{x}} < 0) || ({{x}} > {{input_length}}){{x}} = {{extrapolation}}"
      else chars! "{{x}} = 0.5*({{end}} - {{start}})*({{input_length}} - 1);
                if({{x}} < 0) || ({{x}} > {{input_length}}){{x}} = {{extrapolation}}"

/-- what is spliced into the strings: numbers of type `float` are printed by Python with a decimal point or an exponent -/
def coordHash (a : RAxis K) (ext : SNum K) (v x : List Char) : Hash K :=
  [(chars! "x", .word x), (chars! "v", .word v), (chars! "scale", .toks [.flt a.scale]), (chars! "int_target", .num ⌊(a.outLen : K) * a.scale⌋.toNat),
   (chars! "target", .toks [.flt ((a.outLen : K) * a.scale)]), (chars! "input_length", .num a.inLen), (chars! "output_length", .num a.outLen),
   (chars! "start", .toks [.flt a.roiStart]), (chars! "end", .toks [.flt a.roiEnd]), (chars! "extrapolation", .toks ext.toks)]

/-- `self.coordinate_transformation_mode_mapping[self.coordinate_transformation_mode](v, .., x)` -/
def coordText (mode : CoordMode) (a : RAxis K) (ext : SNum K) (v x : List Char) : HVal K :=
  .toks (rendered (coordString mode a.outLen) (coordHash a ext v x))

/-- the four ways the templates call it -/
inductive CVar | ix | jy | jx | ix1
def CVar.v : CVar → List Char | .ix | .ix1 => chars! "i" | .jy | .jx => chars! "j"
def CVar.x : CVar → List Char | .ix | .ix1 | .jx => chars! "x" | .jy => chars! "y"
def CVar.vId : CVar → Ident | .ix | .ix1 => (.i, none) | .jy | .jx => (.j, none)
def CVar.xId : CVar → Ident | .ix | .ix1 | .jx => (.x, none) | .jy => (.y, none)

def symAdj : Ident := (.other (chars! "adjustment"), none)
def symCen : Ident := (.other (chars! "center"), none)
def symOff : Ident := (.other (chars! "offset"), none)

/-- `(v + 0.5)/scale` -/
def halfE (a : RAxis K) (c : CVar) : Expr K := .bin .div (.bin .add (.var c.vId) (.flt (lit K 5 1))) (.flt a.scale)

/-- the statements of the text -/
def coordS (mode : CoordMode) (a : RAxis K) (c : CVar) : List (Stmt K) :=
  let h : Stmt K := .assign (.var c.xId) .set (.bin .sub (halfE a c) (.flt (lit K 5 1)))
  match mode with
  | .halfPixel => [h]
  | .halfPixelSymmetric => [.decl .float symAdj (.bin .div (.num ⌊(a.outLen : K) * a.scale⌋.toNat) (.flt ((a.outLen : K) * a.scale))),
      .decl .float symCen (.bin .div (.num a.inLen) (.num 2)),
      .decl .float symOff (.bin .mul (.var symCen) (.bin .sub (.num 1) (.var symAdj))),
      .assign (.var c.xId) .set (.bin .sub (.bin .add (.var symOff) (halfE a c)) (.flt (lit K 5 1)))]
  | .pytorchHalfPixel => if a.outLen > 1 then [h] else [.assign (.var c.xId) .set (.num 0)]
  | .alignCorners => [.assign (.var c.xId) .set (.bin .div (.bin .mul (.var c.vId) (.bin .sub (.num a.inLen) (.num 1))) (.bin .sub (.num a.outLen) (.num 1)))]
  | .asymmetric => [.assign (.var c.xId) .set (.bin .div (.var c.vId) (.flt a.scale))]
  | .tfCropAndResize => []

/-- the text is the texts of these statements -/
theorem coord_list (mode : CoordMode) (hm : mode ≠ .tfCropAndResize) (a : RAxis K) (ext : SNum K) (c : CVar) : ∃ l : List (List (CTok K) × Stmt K),
    coordText mode a ext c.v c.x = .toks (l.flatMap (·.1)) ∧ l.map (·.2) = coordS mode a c ∧ ∀ x ∈ l, StmtU x := by
  have one : ∀ (str : List Char) (s : Stmt K), headOk (rendered str (coordHash a ext c.v c.x)) = true → notSkip s = true →
      (∀ n rest, stmt (n + 100) (rendered str (coordHash a ext c.v c.x) ++ rest) = some (s, rest)) →
      ∃ l : List (List (CTok K) × Stmt K), HVal.toks (rendered str (coordHash a ext c.v c.x)) = .toks (l.flatMap (·.1)) ∧ l.map (·.2) = [s] ∧ ∀ x ∈ l, StmtU x :=
    fun str s h1 h2 h3 => ⟨[(rendered str (coordHash a ext c.v c.x), s)], by simp, rfl, by simpa using ⟨h1, h2, h3⟩⟩
  cases mode with
  | halfPixel => refine one _ _ ?_ ?_ fun n rest => ?_ <;> cases c <;> kernel_rfl
  | pytorchHalfPixel =>
    unfold coordText coordString coordS
    by_cases h : a.outLen > 1
    · simp only [h, if_true]
      refine one _ _ ?_ ?_ fun n rest => ?_ <;> cases c <;> kernel_rfl
    · simp only [h, if_false]
      refine one _ _ ?_ ?_ fun n rest => ?_ <;> cases c <;> kernel_rfl
  | alignCorners => refine one _ _ ?_ ?_ fun n rest => ?_ <;> cases c <;> kernel_rfl
  | asymmetric => refine one _ _ ?_ ?_ fun n rest => ?_ <;> cases c <;> kernel_rfl
  | tfCropAndResize => exact absurd rfl hm
  | halfPixelSymmetric =>
    refine ⟨[(rendered (chars! "float adjustment = {{int_target}}/{{target}};") (coordHash a ext c.v c.x), _),
      (rendered (chars! "float center = {{input_length}}/2;") (coordHash a ext c.v c.x), _),
      (rendered (chars! "float offset = center*(1 - adjustment);") (coordHash a ext c.v c.x), _),
      (rendered (chars! "{{x}} = offset + ({{v}} + 0.5)/{{scale}} - 0.5;") (coordHash a ext c.v c.x), _)], ?_, rfl, ?_⟩
    · cases c <;> kernel_rfl
    · simp only [List.mem_cons, List.not_mem_nil, or_false, forall_eq_or_imp, forall_eq]
      refine ⟨⟨?_, ?_, fun n rest => ?_⟩, ⟨?_, ?_, fun n rest => ?_⟩, ⟨?_, ?_, fun n rest => ?_⟩, ⟨?_, ?_, fun n rest => ?_⟩⟩ <;> cases c <;> kernel_rfl

/-! ## Texts spliced into others -/

def CAct.toks (act : CAct K) (v : List (CTok K)) : List (CTok K) := ((tokens act.string).bind fun tt => inst tt (act.hash v)).getD []

theorem CAct.text_eq (act : CAct K) (v : List (CTok K)) : act.text v = .toks (act.toks v) := by
  have h : (((tokens act.string).bind fun tt => inst tt (act.hash v)).isSome) = true := by cases act <;> kernel_rfl
  unfold CAct.text CAct.toks
  cases h' : (tokens act.string).bind fun tt => inst tt (act.hash v)
  · rw [h'] at h; cases h
  · rfl

/-- `ctx->tensor_temp[j + W*(i + H*f)]` (`ResizeLinearDefault.py` 58-59, `ResizeCubicDefault.py` 54-55) -/
def tempT (H W : Nat) : List (CTok K) :=
  rendered (chars! "ctx->tensor_temp[j + {{W}}*(i + {{H}}*f)]") [(chars! "W", .num W), (chars! "H", .num H)]

/-- `ctx->x[y0 + W*(x0 + H*f)]` (`ResizeNearestDefault.py` 71-72) -/
def nearT (H W : Nat) (src : Ref) : List (CTok K) :=
  rendered (chars! "ctx->{{output_str}}[y0 + {{W}}*(x0 + {{H}}*f)]") [(chars! "output_str", src.text), (chars! "W", .num W), (chars! "H", .num H)]

def nearE (H W : Nat) (src : Ref) : Expr K :=
  .idx true src.ident (.bin .add (.var (.y0, none)) (.bin .mul (.num W) (.bin .add (.var (.x0, none)) (.bin .mul (.num H) (.var (.f, none))))))

theorem temp_stmt (H W : Nat) (act : CAct K) : StmtU (lhsT H W ++ (act.toks (tempT H W) ++ [.punct .semi]), setCell H W (act.expr (.idx true (.tensor_temp, none) (cellE H W)))) := by
  refine ⟨?_, rfl, fun n rest => ?_⟩
  · kernel_rfl
  · rcases act with _ | _ | _ | ⟨_ | _, _⟩ | _ | _ | _ | _ | ⟨⟨_ | _, _⟩, ⟨_ | _, _⟩⟩ <;> kernel_rfl

theorem near_stmt (H W H' W' : Nat) (src : Ref) (act : CAct K) : StmtU (lhsT H W ++ (act.toks (nearT H' W' src) ++ [.punct .semi]), setCell H W (act.expr (nearE H' W' src))) := by
  unfold nearT nearE
  obtain ⟨y, m, h1, h2⟩ := src.any K
  rw [h1, h2]
  clear h1 h2
  refine ⟨?_, rfl, fun n rest => ?_⟩
  · kernel_rfl
  · rcases act with _ | _ | _ | ⟨_ | _, _⟩ | _ | _ | _ | _ | ⟨⟨_ | _, _⟩, ⟨_ | _, _⟩⟩ <;> kernel_rfl

/-! ## Nearest -/

/-- `floor`, `ceil`, `round_prefer_floor`, `round_prefer_ceil` (`ResizeNearestDefault.py` 46-56, `ResizeNearest.py` 64-66) -/
def nearString : NearestMode → List Char
  | .roundPreferFloor => chars! "{{x}} = floor(ceil(2*{{y}})/2);"
  | .roundPreferCeil => chars! "{{x}} = ceil(floor(2*{{y}})/2);"
  | .floor => chars! "{{x}} = floor({{y}});"
  | .ceil => chars! "{{x}} = ceil({{y}});"

def roundT (nm : NearestMode) (x y : List Char) : List (CTok K) := rendered (nearString nm) [(chars! "x", .word x), (chars! "y", .word y)]

/-- the expression -/
def roundE (nm : NearestMode) (x : Expr K) : Expr K :=
  match nm with
  | .roundPreferFloor => .call1 (.floor, none) (.bin .div (.call1 (.ceil, none) (.bin .mul (.num 2) x)) (.num 2))
  | .roundPreferCeil => .call1 (.ceil, none) (.bin .div (.call1 (.floor, none) (.bin .mul (.num 2) x)) (.num 2))
  | .floor => .call1 (.floor, none) x
  | .ceil => .call1 (.ceil, none) x

theorem round_x (nm : NearestMode) : StmtU (K := K) (roundT nm (chars! "x0") (chars! "x"), .assign (.var (.x0, none)) .set (roundE nm (.var (.x, none)))) := by
  cases nm <;> exact ⟨by kernel_rfl, rfl, fun n rest => by kernel_rfl⟩

theorem round_y (nm : NearestMode) : StmtU (K := K) (roundT nm (chars! "y0") (chars! "y"), .assign (.var (.y0, none)) .set (roundE nm (.var (.y, none)))) := by
  cases nm <;> exact ⟨by kernel_rfl, rfl, fun n rest => by kernel_rfl⟩

/-- what `ResizeNearestDefault.py` 58-88 passes to the template -/
def nearestHash (mode : CoordMode) (nm : NearestMode) (C size idx : Nat) (h w : RAxis K) (ext : SNum K) (act : CAct K) (src : Ref) (road : Nat) : Hash K :=
  [(chars! "name", .word (chars! "ResizeNearest")), (chars! "idx", .num2 idx), (chars! "road", .num road), (chars! "size", .num size),
   (chars! "activation_function", act.text (nearT h.inLen w.inLen src)),
   (chars! "output_channels", .num C), (chars! "output_height", .num h.outLen), (chars! "output_width", .num w.outLen),
   (chars! "coordinate_transformation_mode_x", coordText mode h ext (chars! "i") (chars! "x")),
   (chars! "coordinate_transformation_mode_y", coordText mode w ext (chars! "j") (chars! "y")),
   (chars! "nearest_mode_x", .toks (roundT nm (chars! "x0") (chars! "x"))), (chars! "nearest_mode_y", .toks (roundT nm (chars! "y0") (chars! "y")))]

/-- the statements of a cell -/
def nearestCell (mode : CoordMode) (nm : NearestMode) (h w : RAxis K) (act : CAct K) (src : Ref) : List (Stmt K) :=
  coordS mode h .ix ++ (coordS mode w .jy ++ [.assign (.var (.x0, none)) .set (roundE nm (.var (.x, none))), .assign (.var (.y0, none)) .set (roundE nm (.var (.y, none))),
    setCell h.outLen w.outLen (act.expr (nearE h.inLen w.inLen src))])

theorem nearest_code (mode : CoordMode) (hm : mode ≠ .tfCropAndResize) (nm : NearestMode) (C size idx : Nat) (h w : RAxis K) (ext : SNum K) (act : CAct K) (src : Ref) (road : Nat) :
    code Tpl.resizeNearest (nearestHash mode nm C size idx h w ext act src road) =
      some (.seq (loop (.f, none) C (.block (loop (.i, none) h.outLen (.block (loop (.j, none) w.outLen (.block (seqs (nearestCell mode nm h w act src)))))))) (closeS size .linear road)) := by
  obtain ⟨lx, hx, hxs, hxu⟩ := coord_list mode hm h ext .ix
  obtain ⟨ly, hy, hys, hyu⟩ := coord_list mode hm w ext .jy
  have hx : coordText mode h ext (chars! "i") (chars! "x") = .toks (lx.flatMap (·.1)) := hx
  have hy : coordText mode w ext (chars! "j") (chars! "y") = .toks (ly.flatMap (·.1)) := hy
  have := loops_code (text := Tpl.resizeNearest) (h := nearestHash mode nm C size idx h w ext act src road) (C := C) (H := h.outLen) (W := w.outLen) (size := size) (road := road) (act := .linear)
    (pre := []) (l := lx ++ (ly ++ [(roundT nm (chars! "x0") (chars! "x"), .assign (.var (.x0, none)) .set (roundE nm (.var (.x, none)))),
      (roundT nm (chars! "y0") (chars! "y"), .assign (.var (.y0, none)) .set (roundE nm (.var (.y, none)))),
      (lhsT h.outLen w.outLen ++ (act.toks (nearT h.inLen w.inLen src) ++ [.punct .semi]), setCell h.outLen w.outLen (act.expr (nearE h.inLen w.inLen src)))])) ?_ (by simp) ?_
  · rw [this]
    simp only [List.map_nil, List.nil_append, seqs, List.map_append, hxs, hys]
    rfl
  · unfold nearestHash
    rw [hx, hy, CAct.text_eq]
    simp only [List.flatMap_append, List.flatMap_cons, List.flatMap_nil, List.append_assoc, List.nil_append]
    clear hx hy hxs hys hxu hyu
    generalize lx.flatMap (·.1) = tx
    generalize ly.flatMap (·.1) = ty
    generalize act.toks (nearT h.inLen w.inLen src) = ta
    generalize (roundT nm (chars! "x0") (chars! "x") : List (CTok K)) = rx
    generalize (roundT nm (chars! "y0") (chars! "y") : List (CTok K)) = ry
    kernel_rfl
  · simp only [List.mem_append, List.mem_cons, List.not_mem_nil, or_false]
    rintro z (hz | hz | rfl | rfl | rfl)
    · exact hxu z hz
    · exact hyu z hz
    · exact round_x nm
    · exact round_y nm
    · exact near_stmt ..

/-! ## Linear and cubic: expressions -/

/-- the keys of the templates -/
def cellHash (h w : RAxis K) (src : Ref) : Hash K :=
  [(chars! "output_str", src.text), (chars! "output_height", .num h.outLen), (chars! "output_width", .num w.outLen),
   (chars! "len_height", .num (h.inLen - 1)), (chars! "len_width", .num (w.inLen - 1)), (chars! "input_width", .num w.inLen), (chars! "input_height", .num h.inLen)]

def setV (x : Name) (e : Expr K) : Stmt K := .assign (.var (x, none)) .set e
def setI (x : Ident) (e : Expr K) : Stmt K := .assign (.var x) .set e

/-- `x<lo ? lo : (x>hi ? hi : x)` -/
def clampE (x : Ident) (lo hi : Expr K) : Expr K := .cond (.bin .lt (.var x) lo) lo (.cond (.bin .gt (.var x) hi) hi (.var x))

/-- `ctx->src[b + W*(a + H*f)]` -/
def rdE (src : Ref) (H W : Nat) (a b : Expr K) : Expr K :=
  .idx true src.ident (.bin .add b (.bin .mul (.num W) (.bin .add a (.bin .mul (.num H) (.var (.f, none))))))

/-- `ctx->src[a + D*f]` -/
def rd1E (src : Ref) (D : Nat) (a : Expr K) : Expr K := .idx true src.ident (.bin .add a (.bin .mul (.num D) (.var (.f, none))))

/-- the interpolation of `template_ResizeLinear2D.c.tpl` -/
def lin2E : Expr K :=
  let v (x : Name) : Expr K := .var (x, none)
  let x1x : Expr K := .bin .sub (v .x1) (v .x)
  let xx0 : Expr K := .bin .sub (v .x) (v .x0)
  let y1y : Expr K := .bin .sub (v .y1) (v .y)
  let yy0 : Expr K := .bin .sub (v .y) (v .y0)
  .bin .div (.bin .add (.bin .add (.bin .add (.bin .mul (.bin .mul (v .f11) x1x) y1y) (.bin .mul (.bin .mul (v .f21) xx0) y1y)) (.bin .mul (.bin .mul (v .f12) x1x) yy0)) (.bin .mul (.bin .mul (v .f22) xx0) yy0))
    (.bin .mul (.bin .sub (v .x1) (v .x0)) (.bin .sub (v .y1) (v .y0)))

/-- the interpolation of the cubic templates -/
def cubE (fm1 f0 f1 f2 : Ident) : Expr K :=
  let s : Expr K := .var (.s, none)
  let a : Expr K := .var (.a, none)
  .bin .add (.bin .add (.bin .add
    (.bin .mul (.bin .mul (.bin .mul (.var fm1) a) s) (.bin .add (.num 1) (.bin .mul s (.bin .sub s (.num 2)))))
    (.bin .mul (.var f0) (.bin .add (.bin .mul (.bin .mul s s) (.bin .sub (.bin .add (.bin .mul a (.bin .sub s (.num 1))) (.bin .mul (.num 2) s)) (.num 3))) (.num 1))))
    (.bin .mul (.bin .mul (.var f1) s) (.bin .sub (.bin .mul s (.bin .add (.bin .add (.bin .mul (.neg s) (.bin .add (.num 2) a)) (.bin .mul (.num 2) a)) (.num 3))) a)))
    (.bin .mul (.bin .mul (.bin .mul (.bin .mul (.var f2) a) s) s) (.bin .sub (.num 1) s))

/-- `z < 0 ? lo : z >= n ? hi : mid` -/
def chooseE (n : Nat) (z lo hi mid : Expr K) : Expr K := .cond (.bin .lt z (.num 0)) lo (.cond (.bin .ge z (.num n)) hi mid)

/-- the reads of `template_ResizeCubic1D.c.tpl` -/
def cub1E (src : Ref) (D : Nat) (z : Expr K) : Expr K :=
  chooseE D z (rd1E src D (.num 0)) (rd1E src D (.bin .sub (.num D) (.num 1))) (rd1E src D z)

/-- the reads of `template_ResizeCubic2D.c.tpl` -/
def cub2E (src : Ref) (H W : Nat) (z : Expr K) : Expr K :=
  chooseE H z (rdE src H W (.num 0) (.var (.col_index, none))) (rdE src H W (.bin .sub (.num H) (.num 1)) (.var (.col_index, none))) (rdE src H W z (.var (.col_index, none)))

/-- the column of `template_ResizeCubic2D.c.tpl` -/
def colS (W : Nat) (z : Expr K) : Stmt K := setV .col_index (chooseE W z (.num 0) (.bin .sub (.num W) (.num 1)) z)

/-- the statements of `template_ResizeLinear2D.c.tpl` after the coordinates -/
def lin2L (h w : RAxis K) (src : Ref) : List (List (CTok K) × Stmt K) :=
  let hh : Hash K := cellHash h w src
  [(rendered (chars! "x = x<0 ? 0 : (x>{{len_height}} ? {{len_height}}: x);") hh, setV .x (clampE (.x, none) (.num 0) (.num (h.inLen - 1)))),
   (rendered (chars! "y = y<0 ? 0 : (y>{{len_width}} ? {{len_width}}: y);") hh, setV .y (clampE (.y, none) (.num 0) (.num (w.inLen - 1)))),
   (rendered (chars! "x1 = floor(x) + 1;") hh, setV .x1 (.bin .add (.call1 (.floor, none) (.var (.x, none))) (.num 1))),
   (rendered (chars! "x0 = floor(x);") hh, setV .x0 (.call1 (.floor, none) (.var (.x, none)))),
   (rendered (chars! "y0 = floor(y);") hh, setV .y0 (.call1 (.floor, none) (.var (.y, none)))),
   (rendered (chars! "y1 = floor(y) + 1;") hh, setV .y1 (.bin .add (.call1 (.floor, none) (.var (.y, none))) (.num 1))),
   (rendered (chars! "f11 = ctx->{{output_str}}[y0 + {{input_width}}*(x0 + {{input_height}}*f)];") hh, setV .f11 (rdE src h.inLen w.inLen (.var (.x0, none)) (.var (.y0, none)))),
   (rendered (chars! "f21 = x1 >= {{input_height}} ? 0 : ctx->{{output_str}}[y0 + {{input_width}}*(x1 + {{input_height}}*f)];") hh, setV .f21 (.cond (.bin .ge (.var (.x1, none)) (.num h.inLen)) (.num 0) (rdE src h.inLen w.inLen (.var (.x1, none)) (.var (.y0, none))))),
   (rendered (chars! "f22 = x1 >= {{input_height}} || y1 >= {{input_width}}? 0 : ctx->{{output_str}}[y1 + {{input_width}}*(x1 + {{input_height}}*f)];") hh, setV .f22 (.cond (.lor (.bin .ge (.var (.x1, none)) (.num h.inLen)) (.bin .ge (.var (.y1, none)) (.num w.inLen))) (.num 0) (rdE src h.inLen w.inLen (.var (.x1, none)) (.var (.y1, none))))),
   (rendered (chars! "f12 = y1 >= {{input_width}} ? 0 : ctx->{{output_str}}[y1 + {{input_width}}*(x0 + {{input_height}}*f)];") hh, setV .f12 (.cond (.bin .ge (.var (.y1, none)) (.num w.inLen)) (.num 0) (rdE src h.inLen w.inLen (.var (.x0, none)) (.var (.y1, none))))),
   (rendered (chars! "ctx->tensor_temp[j + {{output_width}}*(i + {{output_height}}*f)] = (f11*(x1 - x)*(y1 - y) + f21*(x - x0)*(y1 - y) + f12*(x1 - x)*(y - y0) + f22*(x - x0)*(y - y0))/((x1 - x0)*(y1 - y0));") hh, setCell h.outLen w.outLen lin2E)]

theorem lin2L_ok (h w : RAxis K) (src : Ref) : ∀ x ∈ (lin2L h w src : List (List (CTok K) × Stmt K)), StmtU x := by
  unfold lin2L cellHash
  dsimp only [rdE, rd1E, cub1E, cub2E]
  obtain ⟨y, m, h1, h2⟩ := src.any K
  rw [h1]
  try rw [h2]
  clear h1 h2
  repeat refine List.forall_mem_cons.2 ⟨⟨by kernel_rfl, rfl, fun n rest => by kernel_rfl⟩, ?_⟩
  exact List.forall_mem_nil _

/-- the statements of `template_ResizeCubic1D.c.tpl` after the coordinate -/
def cub1L (h w d : RAxis K) (src : Ref) : List (List (CTok K) × Stmt K) :=
  let hh : Hash K := (chars! "dimension", .num d.inLen) :: cellHash h w src
  [(rendered (chars! "x0 = floor(x);") hh, setV .x0 (.call1 (.floor, none) (.var (.x, none)))),
   (rendered (chars! "f_1 = x0-1 < 0 ? ctx->{{output_str}}[0 + {{dimension}}*f] : x0-1 >= {{dimension}} ? ctx->{{output_str}}[{{dimension}} - 1 + {{dimension}}*f] : ctx->{{output_str}}[x0-1 + {{dimension}}*f];") hh, setI (.f, some ⟨false, 1⟩) (cub1E src d.inLen (.bin .sub (.var (.x0, none)) (.num 1)))),
   (rendered (chars! "f0 = x0 < 0 ? ctx->{{output_str}}[0 + {{dimension}}*f] : x0 >= {{dimension}} ? ctx->{{output_str}}[{{dimension}} - 1 + {{dimension}}*f] : ctx->{{output_str}}[x0 + {{dimension}}*f];") hh, setI (.f0, none) (cub1E src d.inLen (.var (.x0, none)))),
   (rendered (chars! "f1 = x0+1 < 0 ? ctx->{{output_str}}[0 + {{dimension}}*f] : x0+1 >= {{dimension}} ? ctx->{{output_str}}[{{dimension}} - 1 + {{dimension}}*f] : ctx->{{output_str}}[x0+1 + {{dimension}}*f];") hh, setI (.f1, none) (cub1E src d.inLen (.bin .add (.var (.x0, none)) (.num 1)))),
   (rendered (chars! "f2 = x0+2 < 0 ? ctx->{{output_str}}[0 + {{dimension}}*f] : x0+2 >= {{dimension}} ? ctx->{{output_str}}[{{dimension}} - 1 + {{dimension}}*f] : ctx->{{output_str}}[x0+2 + {{dimension}}*f];") hh, setI (.f2, none) (cub1E src d.inLen (.bin .add (.var (.x0, none)) (.num 2)))),
   (rendered (chars! "s = x - x0;") hh, setV .s (.bin .sub (.var (.x, none)) (.var (.x0, none)))),
   (rendered (chars! "ctx->tensor_temp[j + {{output_width}}*(i + {{output_height}}*f)] = f_1*a*s*(1 + s*(s - 2)) + f0*(s*s*(a*(s - 1) + 2*s - 3) + 1) + f1*s*(s*(-s*(2 + a) + 2*a + 3) - a) + f2*a*s*s*(1 - s);") hh, setCell h.outLen w.outLen (cubE (.f, some ⟨false, 1⟩) (.f0, none) (.f1, none) (.f2, none)))]

theorem cub1L_ok (h w d : RAxis K) (src : Ref) : ∀ x ∈ (cub1L h w d src : List (List (CTok K) × Stmt K)), StmtU x := by
  unfold cub1L cellHash
  dsimp only [rdE, rd1E, cub1E, cub2E]
  obtain ⟨y, m, h1, h2⟩ := src.any K
  rw [h1]
  try rw [h2]
  clear h1 h2
  repeat refine List.forall_mem_cons.2 ⟨⟨by kernel_rfl, rfl, fun n rest => by kernel_rfl⟩, ?_⟩
  exact List.forall_mem_nil _

/-- the statements of a column of `template_ResizeCubic2D.c.tpl` -/
def col0L (h w : RAxis K) (src : Ref) : List (List (CTok K) × Stmt K) :=
  let hh : Hash K := cellHash h w src
  [(rendered (chars! "col_index = y0-1 < 0 ? 0 : y0-1 >= {{input_width}} ? {{input_width}} - 1 : y0-1;") hh, colS w.inLen (.bin .sub (.var (.y0, none)) (.num 1))),
   (rendered (chars! "f_1 = x0-1 < 0 ? ctx->{{output_str}}[col_index + {{input_width}}*(0 + {{input_height}}*f)] : x0-1 >= {{input_height}} ? ctx->{{output_str}}[col_index + {{input_width}}*({{input_height}} - 1 + {{input_height}}*f)] : ctx->{{output_str}}[col_index + {{input_width}}*(x0-1 + {{input_height}}*f)];") hh, setI (.f, some ⟨false, 1⟩) (cub2E src h.inLen w.inLen (.bin .sub (.var (.x0, none)) (.num 1)))),
   (rendered (chars! "f0 = x0 < 0 ? ctx->{{output_str}}[col_index + {{input_width}}*(0 + {{input_height}}*f)] : x0 >= {{input_height}} ? ctx->{{output_str}}[col_index + {{input_width}}*({{input_height}} - 1 + {{input_height}}*f)] : ctx->{{output_str}}[col_index + {{input_width}}*(x0 + {{input_height}}*f)];") hh, setI (.f0, none) (cub2E src h.inLen w.inLen (.var (.x0, none)))),
   (rendered (chars! "f1 = x0+1 < 0 ? ctx->{{output_str}}[col_index + {{input_width}}*(0 + {{input_height}}*f)] : x0+1 >= {{input_height}} ? ctx->{{output_str}}[col_index + {{input_width}}*({{input_height}} - 1 + {{input_height}}*f)] : ctx->{{output_str}}[col_index + {{input_width}}*(x0+1 + {{input_height}}*f)];") hh, setI (.f1, none) (cub2E src h.inLen w.inLen (.bin .add (.var (.x0, none)) (.num 1)))),
   (rendered (chars! "f2 = x0+2 < 0 ? ctx->{{output_str}}[col_index + {{input_width}}*(0 + {{input_height}}*f)] : x0+2 >= {{input_height}} ? ctx->{{output_str}}[col_index + {{input_width}}*({{input_height}} - 1 + {{input_height}}*f)] : ctx->{{output_str}}[col_index + {{input_width}}*(x0+2 + {{input_height}}*f)];") hh, setI (.f2, none) (cub2E src h.inLen w.inLen (.bin .add (.var (.x0, none)) (.num 2)))),
   (rendered (chars! "s = x - x0;") hh, setV .s (.bin .sub (.var (.x, none)) (.var (.x0, none)))),
   (rendered (chars! "float register b_1 = f_1*a*s*(1 + s*(s - 2)) + f0*(s*s*(a*(s - 1) + 2*s - 3) + 1) + f1*s*(s*(-s*(2 + a) + 2*a + 3) - a) + f2*a*s*s*(1 - s);") hh, .decl .float (.b, some ⟨false, 1⟩) (cubE (.f, some ⟨false, 1⟩) (.f0, none) (.f1, none) (.f2, none)))]

theorem col0L_ok (h w : RAxis K) (src : Ref) : ∀ x ∈ (col0L h w src : List (List (CTok K) × Stmt K)), StmtU x := by
  unfold col0L cellHash
  dsimp only [rdE, rd1E, cub1E, cub2E]
  obtain ⟨y, m, h1, h2⟩ := src.any K
  rw [h1]
  try rw [h2]
  clear h1 h2
  repeat refine List.forall_mem_cons.2 ⟨⟨by kernel_rfl, rfl, fun n rest => by kernel_rfl⟩, ?_⟩
  exact List.forall_mem_nil _

/-- the statements of a column of `template_ResizeCubic2D.c.tpl` -/
def col1L (h w : RAxis K) (src : Ref) : List (List (CTok K) × Stmt K) :=
  let hh : Hash K := cellHash h w src
  [(rendered (chars! "col_index = y0 < 0 ? 0 : y0 >= {{input_width}} ? {{input_width}} - 1 : y0;") hh, colS w.inLen (.var (.y0, none))),
   (rendered (chars! "f_1 = x0-1 < 0 ? ctx->{{output_str}}[col_index + {{input_width}}*(0 + {{input_height}}*f)] : x0-1 >= {{input_height}} ? ctx->{{output_str}}[col_index + {{input_width}}*({{input_height}} - 1 + {{input_height}}*f)] : ctx->{{output_str}}[col_index + {{input_width}}*(x0-1 + {{input_height}}*f)];") hh, setI (.f, some ⟨false, 1⟩) (cub2E src h.inLen w.inLen (.bin .sub (.var (.x0, none)) (.num 1)))),
   (rendered (chars! "f0 = x0 < 0 ? ctx->{{output_str}}[col_index + {{input_width}}*(0 + {{input_height}}*f)] : x0 >= {{input_height}} ? ctx->{{output_str}}[col_index + {{input_width}}*({{input_height}} - 1 + {{input_height}}*f)] : ctx->{{output_str}}[col_index + {{input_width}}*(x0 + {{input_height}}*f)];") hh, setI (.f0, none) (cub2E src h.inLen w.inLen (.var (.x0, none)))),
   (rendered (chars! "f1 = x0+1 < 0 ? ctx->{{output_str}}[col_index + {{input_width}}*(0 + {{input_height}}*f)] : x0+1 >= {{input_height}} ? ctx->{{output_str}}[col_index + {{input_width}}*({{input_height}} - 1 + {{input_height}}*f)] : ctx->{{output_str}}[col_index + {{input_width}}*(x0+1 + {{input_height}}*f)];") hh, setI (.f1, none) (cub2E src h.inLen w.inLen (.bin .add (.var (.x0, none)) (.num 1)))),
   (rendered (chars! "f2 = x0+2 < 0 ? ctx->{{output_str}}[col_index + {{input_width}}*(0 + {{input_height}}*f)] : x0+2 >= {{input_height}} ? ctx->{{output_str}}[col_index + {{input_width}}*({{input_height}} - 1 + {{input_height}}*f)] : ctx->{{output_str}}[col_index + {{input_width}}*(x0+2 + {{input_height}}*f)];") hh, setI (.f2, none) (cub2E src h.inLen w.inLen (.bin .add (.var (.x0, none)) (.num 2)))),
   (rendered (chars! "s = x - x0;") hh, setV .s (.bin .sub (.var (.x, none)) (.var (.x0, none)))),
   (rendered (chars! "float register b0 = f_1*a*s*(1 + s*(s - 2)) + f0*(s*s*(a*(s - 1) + 2*s - 3) + 1) + f1*s*(s*(-s*(2 + a) + 2*a + 3) - a) + f2*a*s*s*(1 - s);") hh, .decl .float (.b0, none) (cubE (.f, some ⟨false, 1⟩) (.f0, none) (.f1, none) (.f2, none)))]

theorem col1L_ok (h w : RAxis K) (src : Ref) : ∀ x ∈ (col1L h w src : List (List (CTok K) × Stmt K)), StmtU x := by
  unfold col1L cellHash
  dsimp only [rdE, rd1E, cub1E, cub2E]
  obtain ⟨y, m, h1, h2⟩ := src.any K
  rw [h1]
  try rw [h2]
  clear h1 h2
  repeat refine List.forall_mem_cons.2 ⟨⟨by kernel_rfl, rfl, fun n rest => by kernel_rfl⟩, ?_⟩
  exact List.forall_mem_nil _

/-- the statements of a column of `template_ResizeCubic2D.c.tpl` -/
def col2L (h w : RAxis K) (src : Ref) : List (List (CTok K) × Stmt K) :=
  let hh : Hash K := cellHash h w src
  [(rendered (chars! "col_index = y0+1 < 0 ? 0 : y0+1 >= {{input_width}} ? {{input_width}} - 1 : y0+1;") hh, colS w.inLen (.bin .add (.var (.y0, none)) (.num 1))),
   (rendered (chars! "f_1 = x0-1 < 0 ? ctx->{{output_str}}[col_index + {{input_width}}*(0 + {{input_height}}*f)] : x0-1 >= {{input_height}} ? ctx->{{output_str}}[col_index + {{input_width}}*({{input_height}} - 1 + {{input_height}}*f)] : ctx->{{output_str}}[col_index + {{input_width}}*(x0-1 + {{input_height}}*f)];") hh, setI (.f, some ⟨false, 1⟩) (cub2E src h.inLen w.inLen (.bin .sub (.var (.x0, none)) (.num 1)))),
   (rendered (chars! "f0 = x0 < 0 ? ctx->{{output_str}}[col_index + {{input_width}}*(0 + {{input_height}}*f)] : x0 >= {{input_height}} ? ctx->{{output_str}}[col_index + {{input_width}}*({{input_height}} - 1 + {{input_height}}*f)] : ctx->{{output_str}}[col_index + {{input_width}}*(x0 + {{input_height}}*f)];") hh, setI (.f0, none) (cub2E src h.inLen w.inLen (.var (.x0, none)))),
   (rendered (chars! "f1 = x0+1 < 0 ? ctx->{{output_str}}[col_index + {{input_width}}*(0 + {{input_height}}*f)] : x0+1 >= {{input_height}} ? ctx->{{output_str}}[col_index + {{input_width}}*({{input_height}} - 1 + {{input_height}}*f)] : ctx->{{output_str}}[col_index + {{input_width}}*(x0+1 + {{input_height}}*f)];") hh, setI (.f1, none) (cub2E src h.inLen w.inLen (.bin .add (.var (.x0, none)) (.num 1)))),
   (rendered (chars! "f2 = x0+2 < 0 ? ctx->{{output_str}}[col_index + {{input_width}}*(0 + {{input_height}}*f)] : x0+2 >= {{input_height}} ? ctx->{{output_str}}[col_index + {{input_width}}*({{input_height}} - 1 + {{input_height}}*f)] : ctx->{{output_str}}[col_index + {{input_width}}*(x0+2 + {{input_height}}*f)];") hh, setI (.f2, none) (cub2E src h.inLen w.inLen (.bin .add (.var (.x0, none)) (.num 2)))),
   (rendered (chars! "s = x - x0;") hh, setV .s (.bin .sub (.var (.x, none)) (.var (.x0, none)))),
   (rendered (chars! "float register b1 = f_1*a*s*(1 + s*(s - 2)) + f0*(s*s*(a*(s - 1) + 2*s - 3) + 1) + f1*s*(s*(-s*(2 + a) + 2*a + 3) - a) + f2*a*s*s*(1 - s);") hh, .decl .float (.b1, none) (cubE (.f, some ⟨false, 1⟩) (.f0, none) (.f1, none) (.f2, none)))]

theorem col2L_ok (h w : RAxis K) (src : Ref) : ∀ x ∈ (col2L h w src : List (List (CTok K) × Stmt K)), StmtU x := by
  unfold col2L cellHash
  dsimp only [rdE, rd1E, cub1E, cub2E]
  obtain ⟨y, m, h1, h2⟩ := src.any K
  rw [h1]
  try rw [h2]
  clear h1 h2
  repeat refine List.forall_mem_cons.2 ⟨⟨by kernel_rfl, rfl, fun n rest => by kernel_rfl⟩, ?_⟩
  exact List.forall_mem_nil _

/-- the statements of a column of `template_ResizeCubic2D.c.tpl` -/
def col3L (h w : RAxis K) (src : Ref) : List (List (CTok K) × Stmt K) :=
  let hh : Hash K := cellHash h w src
  [(rendered (chars! "col_index = y0+2 < 0 ? 0 : y0+2 >= {{input_width}} ? {{input_width}} - 1 : y0+2;") hh, colS w.inLen (.bin .add (.var (.y0, none)) (.num 2))),
   (rendered (chars! "f_1 = x0-1 < 0 ? ctx->{{output_str}}[col_index + {{input_width}}*(0 + {{input_height}}*f)] : x0-1 >= {{input_height}} ? ctx->{{output_str}}[col_index + {{input_width}}*({{input_height}} - 1 + {{input_height}}*f)] : ctx->{{output_str}}[col_index + {{input_width}}*(x0-1 + {{input_height}}*f)];") hh, setI (.f, some ⟨false, 1⟩) (cub2E src h.inLen w.inLen (.bin .sub (.var (.x0, none)) (.num 1)))),
   (rendered (chars! "f0 = x0 < 0 ? ctx->{{output_str}}[col_index + {{input_width}}*(0 + {{input_height}}*f)] : x0 >= {{input_height}} ? ctx->{{output_str}}[col_index + {{input_width}}*({{input_height}} - 1 + {{input_height}}*f)] : ctx->{{output_str}}[col_index + {{input_width}}*(x0 + {{input_height}}*f)];") hh, setI (.f0, none) (cub2E src h.inLen w.inLen (.var (.x0, none)))),
   (rendered (chars! "f1 = x0+1 < 0 ? ctx->{{output_str}}[col_index + {{input_width}}*(0 + {{input_height}}*f)] : x0+1 >= {{input_height}} ? ctx->{{output_str}}[col_index + {{input_width}}*({{input_height}} - 1 + {{input_height}}*f)] : ctx->{{output_str}}[col_index + {{input_width}}*(x0+1 + {{input_height}}*f)];") hh, setI (.f1, none) (cub2E src h.inLen w.inLen (.bin .add (.var (.x0, none)) (.num 1)))),
   (rendered (chars! "f2 = x0+2 < 0 ? ctx->{{output_str}}[col_index + {{input_width}}*(0 + {{input_height}}*f)] : x0+2 >= {{input_height}} ? ctx->{{output_str}}[col_index + {{input_width}}*({{input_height}} - 1 + {{input_height}}*f)] : ctx->{{output_str}}[col_index + {{input_width}}*(x0+2 + {{input_height}}*f)];") hh, setI (.f2, none) (cub2E src h.inLen w.inLen (.bin .add (.var (.x0, none)) (.num 2)))),
   (rendered (chars! "s = x - x0;") hh, setV .s (.bin .sub (.var (.x, none)) (.var (.x0, none)))),
   (rendered (chars! "float register b2 = f_1*a*s*(1 + s*(s - 2)) + f0*(s*s*(a*(s - 1) + 2*s - 3) + 1) + f1*s*(s*(-s*(2 + a) + 2*a + 3) - a) + f2*a*s*s*(1 - s);") hh, .decl .float (.b2, none) (cubE (.f, some ⟨false, 1⟩) (.f0, none) (.f1, none) (.f2, none)))]

theorem col3L_ok (h w : RAxis K) (src : Ref) : ∀ x ∈ (col3L h w src : List (List (CTok K) × Stmt K)), StmtU x := by
  unfold col3L cellHash
  dsimp only [rdE, rd1E, cub1E, cub2E]
  obtain ⟨y, m, h1, h2⟩ := src.any K
  rw [h1]
  try rw [h2]
  clear h1 h2
  repeat refine List.forall_mem_cons.2 ⟨⟨by kernel_rfl, rfl, fun n rest => by kernel_rfl⟩, ?_⟩
  exact List.forall_mem_nil _

/-- the last statements of `template_ResizeCubic2D.c.tpl` -/
def cub2L (h w : RAxis K) (src : Ref) : List (List (CTok K) × Stmt K) :=
  let hh : Hash K := cellHash h w src
  [(rendered (chars! "s = y - y0;") hh, setV .s (.bin .sub (.var (.y, none)) (.var (.y0, none)))),
   (rendered (chars! "ctx->tensor_temp[j + {{output_width}}*(i + {{output_height}}*f)] = b_1*a*s*(1 + s*(s - 2)) + b0*(s*s*(a*(s - 1) + 2*s - 3) + 1) + b1*s*(s*(-s*(2 + a) + 2*a + 3) - a) + b2*a*s*s*(1 - s);") hh, setCell h.outLen w.outLen (cubE (.b, some ⟨false, 1⟩) (.b0, none) (.b1, none) (.b2, none)))]

theorem cub2L_ok (h w : RAxis K) (src : Ref) : ∀ x ∈ (cub2L h w src : List (List (CTok K) × Stmt K)), StmtU x := by
  unfold cub2L cellHash
  dsimp only [rdE, rd1E, cub1E, cub2E]
  obtain ⟨y, m, h1, h2⟩ := src.any K
  rw [h1]
  try rw [h2]
  clear h1 h2
  repeat refine List.forall_mem_cons.2 ⟨⟨by kernel_rfl, rfl, fun n rest => by kernel_rfl⟩, ?_⟩
  exact List.forall_mem_nil _

/-- the cell after the interpolation -/
def actS (h w : RAxis K) (act : CAct K) : Stmt K := setCell h.outLen w.outLen (act.expr (.idx true (.tensor_temp, none) (cellE h.outLen w.outLen)))

def actL (h w : RAxis K) (act : CAct K) : List (CTok K) × Stmt K := (lhsT h.outLen w.outLen ++ (act.toks (tempT h.outLen w.outLen) ++ [.punct .semi]), actS h w act)

/-- what `ResizeLinearDefault.py` 49-64, 80-88 passes to the template -/
def linear2Hash (mode : CoordMode) (C size idx : Nat) (h w : RAxis K) (ext : SNum K) (act : CAct K) (src : Ref) (road : Nat) : Hash K :=
  [(chars! "name", .word (chars! "ResizeLinear")), (chars! "idx", .num2 idx), (chars! "output_str", src.text), (chars! "road", .num road), (chars! "size", .num size),
   (chars! "activation_function", act.text (tempT h.outLen w.outLen)),
   (chars! "output_channels", .num C), (chars! "output_height", .num h.outLen), (chars! "output_width", .num w.outLen),
   (chars! "len_height", .num (h.inLen - 1)), (chars! "len_width", .num (w.inLen - 1)), (chars! "input_width", .num w.inLen), (chars! "input_height", .num h.inLen),
   (chars! "coordinate_transformation_mode_x", coordText mode h ext (chars! "i") (chars! "x")),
   (chars! "coordinate_transformation_mode_y", coordText mode w ext (chars! "j") (chars! "y"))]

/-- three loops and the closing loop -/
def loopsS (C size : Nat) (h w : RAxis K) (road : Nat) (cell : List (Stmt K)) : Stmt K :=
  .seq (loop (.f, none) C (.block (loop (.i, none) h.outLen (.block (loop (.j, none) w.outLen (.block (seqs cell))))))) (closeS size .linear road)

def linear2Cell (mode : CoordMode) (h w : RAxis K) (act : CAct K) (src : Ref) : List (Stmt K) :=
  coordS mode h .ix ++ (coordS mode w .jy ++ ((lin2L h w src).map (·.2) ++ [actS h w act]))

theorem linear2_code (mode : CoordMode) (hm : mode ≠ .tfCropAndResize) (C size idx : Nat) (h w : RAxis K) (ext : SNum K) (act : CAct K) (src : Ref) (road : Nat) :
    code Tpl.resizeLinear2D (linear2Hash mode C size idx h w ext act src road) = some (loopsS C size h w road (linear2Cell mode h w act src)) := by
  obtain ⟨lx, hx, hxs, hxu⟩ := coord_list mode hm h ext .ix
  obtain ⟨ly, hy, hys, hyu⟩ := coord_list mode hm w ext .jy
  have hx : coordText mode h ext (chars! "i") (chars! "x") = .toks (lx.flatMap (·.1)) := hx
  have hy : coordText mode w ext (chars! "j") (chars! "y") = .toks (ly.flatMap (·.1)) := hy
  have := loops_code (text := Tpl.resizeLinear2D) (h := linear2Hash mode C size idx h w ext act src road) (C := C) (H := h.outLen) (W := w.outLen) (size := size) (road := road) (act := .linear)
    (pre := []) (l := lx ++ (ly ++ (lin2L h w src ++ [actL h w act]))) ?_ (by simp) ?_
  · rw [this]
    simp only [List.map_nil, List.nil_append, seqs, List.map_append, hxs, hys]
    rfl
  · unfold linear2Hash lin2L cellHash actL
    obtain ⟨r, m, h1, h2⟩ := src.any K
    rw [hx, hy, CAct.text_eq, h1]
    simp only [List.flatMap_append, List.flatMap_cons, List.flatMap_nil, List.append_assoc, List.nil_append]
    clear hx hy hxs hys hxu hyu h1 h2
    generalize lx.flatMap (·.1) = tx
    generalize ly.flatMap (·.1) = ty
    generalize act.toks (tempT h.outLen w.outLen) = ta
    kernel_rfl
  · simp only [List.mem_append, List.mem_cons, List.not_mem_nil, or_false]
    rintro z (hz | hz | hz | rfl)
    · exact hxu z hz
    · exact hyu z hz
    · exact lin2L_ok h w src z hz
    · exact temp_stmt ..

/-- what `ResizeCubicDefault.py` 45-60, 78-86 passes to the template -/
def cubic2Hash (a : SNum K) (mode : CoordMode) (C size idx : Nat) (h w : RAxis K) (ext : SNum K) (act : CAct K) (src : Ref) (road : Nat) : Hash K :=
  [(chars! "name", .word (chars! "ResizeCubic")), (chars! "idx", .num2 idx), (chars! "output_str", src.text), (chars! "road", .num road), (chars! "size", .num size),
   (chars! "activation_function", act.text (tempT h.outLen w.outLen)), (chars! "cubic_coeff_a", .toks a.toks),
   (chars! "output_channels", .num C), (chars! "output_height", .num h.outLen), (chars! "output_width", .num w.outLen),
   (chars! "input_width", .num w.inLen), (chars! "input_height", .num h.inLen),
   (chars! "coordinate_transformation_mode_x", coordText mode h ext (chars! "i") (chars! "x")),
   (chars! "coordinate_transformation_mode_y", coordText mode w ext (chars! "j") (chars! "y"))]

/-- `a = <cubic_coeff_a>;` -/
def aL (a : SNum K) : List (CTok K) × Stmt K := (.id (.a, none) :: .punct .assign :: (a.toks ++ [.punct .semi]), setV .a a.expr)

theorem aL_ok (a : SNum K) : StmtU (aL a) := by
  rcases a with ⟨_ | _, q⟩ <;> exact ⟨by kernel_rfl, rfl, fun n rest => by kernel_rfl⟩

def x0L : List (CTok K) × Stmt K := (rendered (chars! "x0 = floor(x);") [], setV .x0 (.call1 (.floor, none) (.var (.x, none))))
def y0L : List (CTok K) × Stmt K := (rendered (chars! "y0 = floor(y);") [], setV .y0 (.call1 (.floor, none) (.var (.y, none))))
theorem x0L_ok : StmtU (x0L (K := K)) := ⟨by kernel_rfl, rfl, fun n rest => by kernel_rfl⟩
theorem y0L_ok : StmtU (y0L (K := K)) := ⟨by kernel_rfl, rfl, fun n rest => by kernel_rfl⟩

def cubic2Cell (mode : CoordMode) (h w : RAxis K) (act : CAct K) (src : Ref) : List (Stmt K) :=
  coordS mode h .ix ++ (x0L.2 :: (coordS mode w .jy ++ (y0L.2 :: ((col0L h w src).map (·.2) ++ ((col1L h w src).map (·.2) ++ ((col2L h w src).map (·.2) ++
    ((col3L h w src).map (·.2) ++ ((cub2L h w src).map (·.2) ++ [actS h w act]))))))))

theorem cubic2_code (a : SNum K) (mode : CoordMode) (hm : mode ≠ .tfCropAndResize) (C size idx : Nat) (h w : RAxis K) (ext : SNum K) (act : CAct K) (src : Ref) (road : Nat) :
    code Tpl.resizeCubic2D (cubic2Hash a mode C size idx h w ext act src road) = some (.seq (setV .a a.expr) (loopsS C size h w road (cubic2Cell mode h w act src))) := by
  obtain ⟨lx, hx, hxs, hxu⟩ := coord_list mode hm h ext .ix
  obtain ⟨ly, hy, hys, hyu⟩ := coord_list mode hm w ext .jy
  have hx : coordText mode h ext (chars! "i") (chars! "x") = .toks (lx.flatMap (·.1)) := hx
  have hy : coordText mode w ext (chars! "j") (chars! "y") = .toks (ly.flatMap (·.1)) := hy
  have := loops_code (text := Tpl.resizeCubic2D) (h := cubic2Hash a mode C size idx h w ext act src road) (C := C) (H := h.outLen) (W := w.outLen) (size := size) (road := road) (act := .linear)
    (pre := [aL a]) (l := lx ++ (x0L :: (ly ++ (y0L :: (col0L h w src ++ (col1L h w src ++ (col2L h w src ++ (col3L h w src ++ (cub2L h w src ++ [actL h w act]))))))))) ?_ (by simpa using aL_ok a) ?_
  · rw [this]
    simp only [List.map_nil, List.map_cons, List.map_append, hxs, hys]
    rfl
  · unfold cubic2Hash actL aL
    rw [hx, hy, CAct.text_eq]
    simp only [List.flatMap_append, List.flatMap_cons, List.flatMap_nil, List.append_assoc, List.nil_append, List.cons_append]
    clear hx hy hxs hys hxu hyu
    generalize lx.flatMap (·.1) = tx
    generalize ly.flatMap (·.1) = ty
    generalize act.toks (tempT h.outLen w.outLen) = ta
    generalize a.toks = aa
    cases src <;> kernel_rfl
  · simp only [List.mem_append, List.mem_cons, List.not_mem_nil, or_false]
    rintro z (hz | rfl | hz | rfl | hz | hz | hz | hz | hz | rfl)
    · exact hxu z hz
    · exact x0L_ok
    · exact hyu z hz
    · exact y0L_ok
    · exact col0L_ok h w src z hz
    · exact col1L_ok h w src z hz
    · exact col2L_ok h w src z hz
    · exact col3L_ok h w src z hz
    · exact cub2L_ok h w src z hz
    · exact temp_stmt ..

/-- the axis of the one-dimensional templates: the width (`("j", 3, "x")`), or the height (`("i", 2, "x")`) -/
inductive Dim1 | w | h
def Dim1.cvar : Dim1 → CVar | .w => .jx | .h => .ix
def Dim1.axis (h w : RAxis K) : Dim1 → RAxis K | .w => w | .h => h
def Dim1.pick : Dim1 → Nat → Nat → Nat | .w, _, j => j | .h, i, _ => i

/-- what `ResizeCubicDefault.py` 45-60, 64-77 passes to the template -/
def cubic1Hash (a : SNum K) (mode : CoordMode) (C size idx : Nat) (h w : RAxis K) (d : Dim1) (ext : SNum K) (act : CAct K) (src : Ref) (road : Nat) : Hash K :=
  [(chars! "name", .word (chars! "ResizeCubic")), (chars! "idx", .num2 idx), (chars! "output_str", src.text), (chars! "road", .num road), (chars! "size", .num size),
   (chars! "activation_function", act.text (tempT h.outLen w.outLen)), (chars! "cubic_coeff_a", .toks a.toks),
   (chars! "output_channels", .num C), (chars! "output_height", .num h.outLen), (chars! "output_width", .num w.outLen),
   (chars! "dimension", .num (d.axis h w).inLen),
   (chars! "coordinate_transformation_mode", coordText mode (d.axis h w) ext d.cvar.v d.cvar.x)]

def cubic1Cell (mode : CoordMode) (h w : RAxis K) (d : Dim1) (act : CAct K) (src : Ref) : List (Stmt K) :=
  coordS mode (d.axis h w) d.cvar ++ ((cub1L h w (d.axis h w) src).map (·.2) ++ [actS h w act])

theorem cubic1_code (a : SNum K) (mode : CoordMode) (hm : mode ≠ .tfCropAndResize) (C size idx : Nat) (h w : RAxis K) (d : Dim1) (ext : SNum K) (act : CAct K) (src : Ref) (road : Nat) :
    code Tpl.resizeCubic1D (cubic1Hash a mode C size idx h w d ext act src road) = some (.seq (setV .a a.expr) (loopsS C size h w road (cubic1Cell mode h w d act src))) := by
  obtain ⟨lx, hx, hxs, hxu⟩ := coord_list mode hm (d.axis h w) ext d.cvar
  have := loops_code (text := Tpl.resizeCubic1D) (h := cubic1Hash a mode C size idx h w d ext act src road) (C := C) (H := h.outLen) (W := w.outLen) (size := size) (road := road) (act := .linear)
    (pre := [aL a]) (l := lx ++ (cub1L h w (d.axis h w) src ++ [actL h w act])) ?_ (by simpa using aL_ok a) ?_
  · rw [this]
    simp only [List.map_nil, List.map_cons, List.map_append, hxs]
    rfl
  · unfold cubic1Hash cub1L cellHash actL aL
    obtain ⟨r, m, h1, h2⟩ := src.any K
    rw [hx, CAct.text_eq, h1]
    simp only [List.flatMap_append, List.flatMap_cons, List.flatMap_nil, List.append_assoc, List.nil_append, List.cons_append]
    clear hx hxs hxu h1 h2
    generalize lx.flatMap (·.1) = tx
    generalize act.toks (tempT h.outLen w.outLen) = ta
    generalize a.toks = aa
    kernel_rfl
  · simp only [List.mem_append, List.mem_cons, List.not_mem_nil, or_false]
    rintro z (hz | hz | rfl)
    · exact hxu z hz
    · exact cub1L_ok h w _ src z hz
    · exact temp_stmt ..

/-! ## Linear in one dimension -/

/-- what `ResizeLinearDefault.py` 49-79 passes to the template -/
def linear1Hash (mode : CoordMode) (C size idx : Nat) (h w : RAxis K) (d : Dim1) (ext : SNum K) (act : CAct K) (src : Ref) (road : Nat) : Hash K :=
  [(chars! "name", .word (chars! "ResizeLinear")), (chars! "idx", .num2 idx), (chars! "output_str", src.text), (chars! "road", .num road), (chars! "size", .num size),
   (chars! "activation_function", act.text (tempT h.outLen w.outLen)),
   (chars! "output_channels", .num C), (chars! "output_height", .num h.outLen), (chars! "output_width", .num w.outLen),
   (chars! "len_dimension", .num ((d.axis h w).inLen - 1)), (chars! "dimension", .num (d.axis h w).inLen),
   (chars! "coordinate_transformation_mode", coordText mode (d.axis h w) ext d.cvar.v d.cvar.x)]

/-- the statements before the loops, and in the loop over the channels -/
def lin1P (d : RAxis K) : List (List (CTok K) × Stmt K) :=
  [(rendered (chars! "x1 = {{len_dimension}};") [(chars! "len_dimension", .num (d.inLen - 1))], setV .x1 (.num (d.inLen - 1))), (rendered (chars! "x0 = 0;") [], setV .x0 (.num 0))]
def lin1Q (d : RAxis K) (src : Ref) : List (List (CTok K) × Stmt K) :=
  [(rendered (chars! "f11 = ctx->{{output_str}}[x0 + {{dimension}}*f];") [(chars! "output_str", src.text), (chars! "dimension", .num d.inLen)], setV .f11 (rd1E src d.inLen (.var (.x0, none)))),
   (rendered (chars! "f22 = ctx->{{output_str}}[x1 + {{dimension}}*f];") [(chars! "output_str", src.text), (chars! "dimension", .num d.inLen)], setV .f22 (rd1E src d.inLen (.var (.x1, none))))]

/-- the interpolation of `template_ResizeLinear1D.c.tpl` -/
def lin1E : Expr K :=
  let v (x : Name) : Expr K := .var (x, none)
  .bin .div (.bin .add (.bin .mul (v .f11) (.bin .sub (v .x1) (v .x))) (.bin .mul (v .f22) (.bin .sub (v .x) (v .x0)))) (.bin .sub (v .x1) (v .x0))

def lin1L (h w : RAxis K) : List (List (CTok K) × Stmt K) :=
  [(rendered (chars! "x = x<x0 ? x0 : (x>x1 ? x1: x);") [], setV .x (clampE (.x, none) (.var (.x0, none)) (.var (.x1, none)))),
   (rendered (chars! "ctx->tensor_temp[j + {{output_width}}*(i + {{output_height}}*f)] = (f11*(x1 - x) + f22*(x - x0))/(x1 - x0);") [(chars! "output_height", .num h.outLen), (chars! "output_width", .num w.outLen)],
    setCell h.outLen w.outLen lin1E)]

theorem lin1P_ok (d : RAxis K) : ∀ x ∈ lin1P d, StmtU x := by
  unfold lin1P
  repeat refine List.forall_mem_cons.2 ⟨⟨by kernel_rfl, rfl, fun n rest => by kernel_rfl⟩, ?_⟩
  exact List.forall_mem_nil _

theorem lin1Q_ok (d : RAxis K) (src : Ref) : ∀ x ∈ lin1Q d src, StmtU x := by
  unfold lin1Q
  dsimp only [rd1E]
  obtain ⟨y, m, h1, h2⟩ := src.any K
  rw [h1, h2]
  clear h1 h2
  repeat refine List.forall_mem_cons.2 ⟨⟨by kernel_rfl, rfl, fun n rest => by kernel_rfl⟩, ?_⟩
  exact List.forall_mem_nil _

theorem lin1L_ok (h w : RAxis K) : ∀ x ∈ lin1L h w, StmtU x := by
  unfold lin1L
  repeat refine List.forall_mem_cons.2 ⟨⟨by kernel_rfl, rfl, fun n rest => by kernel_rfl⟩, ?_⟩
  exact List.forall_mem_nil _

/-- `for (x = 0; x < N; ++x) {` -/
def headT (x : Name) (N : Nat) (r : List (CTok K)) : List (CTok K) :=
  .kw .for_ :: .punct .lpar :: .id (x, none) :: .punct .assign :: .num 0 :: .punct .semi :: .id (x, none) :: .punct .lt :: .num N :: .punct .semi :: .punct .inc :: .id (x, none) :: .punct .rpar :: .punct .lbrc :: r

def linear1Cell (mode : CoordMode) (h w : RAxis K) (d : Dim1) (act : CAct K) : List (Stmt K) :=
  coordS mode (d.axis h w) d.cvar ++ ((lin1L h w).map (·.2) ++ [actS h w act])

/-- the program that the text is -/
def linear1Ast (mode : CoordMode) (C size : Nat) (h w : RAxis K) (d : Dim1) (act : CAct K) (src : Ref) (road : Nat) : Stmt K :=
  seqs ((lin1P (d.axis h w)).map (·.2) ++ [.seq (loop (.f, none) C (.block (seqs ((lin1Q (d.axis h w) src).map (·.2) ++
    [loop (.i, none) h.outLen (.block (loop (.j, none) w.outLen (.block (seqs (linear1Cell mode h w d act)))))])))) (closeS size .linear road)])

theorem linear1_code (mode : CoordMode) (hm : mode ≠ .tfCropAndResize) (C size idx : Nat) (h w : RAxis K) (d : Dim1) (ext : SNum K) (act : CAct K) (src : Ref) (road : Nat) :
    code Tpl.resizeLinear1D (linear1Hash mode C size idx h w d ext act src road) = some (linear1Ast mode C size h w d act src road) := by
  obtain ⟨lx, hx, hxs, hxu⟩ := coord_list mode hm (d.axis h w) ext d.cvar
  let l := lx ++ (lin1L h w ++ [actL h w act])
  let rest : List (CTok K) := closeT size .linear road
  have ht : ((tokens Tpl.resizeLinear1D).bind fun tt => inst tt (linear1Hash mode C size idx h w d ext act src road)) =
      some ((lin1P (d.axis h w)).flatMap (·.1) ++ headT .f C ((lin1Q (d.axis h w) src).flatMap (·.1) ++ headT .i h.outLen (headT .j w.outLen
        (l.flatMap (·.1) ++ .punct .rbrc :: .punct .rbrc :: .punct .rbrc :: rest)))) := by
    unfold linear1Hash lin1P lin1Q
    obtain ⟨r, m, h1, h2⟩ := src.any K
    rw [hx, CAct.text_eq, h1]
    show _ = some (_ ++ headT .f C (_ ++ headT .i h.outLen (headT .j w.outLen ((lx ++ (lin1L h w ++ [actL h w act])).flatMap (·.1) ++ _))))
    unfold lin1L actL
    simp only [List.flatMap_append, List.flatMap_cons, List.flatMap_nil, List.append_assoc, List.nil_append, List.cons_append]
    clear hx hxs hxu h1 h2
    generalize lx.flatMap (·.1) = tx
    generalize act.toks (tempT h.outLen w.outLen) = ta
    kernel_rfl
  have hl : ∀ x ∈ l, StmtU x := by
    simp only [l, List.mem_append, List.mem_cons, List.not_mem_nil, or_false]
    rintro z (hz | hz | rfl)
    · exact hxu z hz
    · exact lin1L_ok h w z hz
    · exact temp_stmt ..
  have hc : code Tpl.resizeLinear1D (linear1Hash mode C size idx h w d ext act src road) =
      (((tokens Tpl.resizeLinear1D).bind fun tt => inst tt (linear1Hash mode C size idx h w d ext act src road))).bind program := by
    unfold code
    cases tokens Tpl.resizeLinear1D <;> rfl
  rw [hc, ht]
  simp only [Option.bind_some]
  unfold program
  have ll := length_flatMap hl
  have hls : l.map (·.2) = linear1Cell mode h w d act := by
    simp only [l, List.map_append, hxs]
    rfl
  obtain ⟨n, hn⟩ : ∃ n, 10 * ((lin1P (d.axis h w)).flatMap (·.1) ++ headT .f C ((lin1Q (d.axis h w) src).flatMap (·.1) ++ headT .i h.outLen (headT .j w.outLen
        (l.flatMap (·.1) ++ .punct .rbrc :: .punct .rbrc :: .punct .rbrc :: rest)))).length + 20 = n + 184 + l.length := by
    refine ⟨10 * ((lin1P (d.axis h w)).flatMap (·.1) ++ headT .f C ((lin1Q (d.axis h w) src).flatMap (·.1) ++ headT .i h.outLen (headT .j w.outLen
        (l.flatMap (·.1) ++ .punct .rbrc :: .punct .rbrc :: .punct .rbrc :: rest)))).length + 20 - (184 + l.length), ?_⟩
    simp only [headT, List.length_cons, List.length_append]
    omega
  rw [hn]
  -- the cell
  have h1 := stmts_listU (.punct .rbrc :: .punct .rbrc :: rest) l hl (n + 70)
  rw [hls, show n + 70 + 101 + l.length = (n + 151 + l.length) + 20 by omega] at h1
  have h2 := stmt_loop's (x := .j) (N := w.outLen) (.inr (.inr rfl)) h1
  rw [show n + 151 + l.length + 23 = (n + 154 + l.length) + 20 by omega] at h2
  have h3 := stmt_loop's (x := .i) (N := h.outLen) (.inr (.inl rfl)) h2
  rw [show n + 154 + l.length + 23 = (n + 76 + l.length) + 101 by omega] at h3
  have h4 := stmts_before (n := n + 76 + l.length) rfl h3 (lin1Q (d.axis h w) src) (lin1Q_ok _ _)
  rw [show (n + 76 + l.length) + 101 + (lin1Q (d.axis h w) src).length = (n + 159 + l.length) + 20 by simp only [lin1Q, List.length_cons, List.length_nil]; omega] at h4
  have h5 := stmt_loop' (x := .f) (N := C) (.inl rfl) h4
  have h6 : stmts (n + 159 + l.length + 23) (headT .f C ((lin1Q (d.axis h w) src).flatMap (·.1) ++ headT .i h.outLen (headT .j w.outLen
        (l.flatMap (·.1) ++ .punct .rbrc :: .punct .rbrc :: .punct .rbrc :: rest)))) =
      some (.seq (loop (.f, none) C (.block (seqs ((lin1Q (d.axis h w) src).map (·.2) ++
    [loop (.i, none) h.outLen (.block (loop (.j, none) w.outLen (.block (seqs (linear1Cell mode h w d act)))))])))) (closeS size .linear road), []) := by
    unfold headT
    rw [stmts_any _ (by simp)]
    rw [h5]
    have h7 := close_stmts (K := K) (n + 159 + l.length + 22 - 60) size .linear road
    rw [show n + 159 + l.length + 22 - 60 + 60 = n + 159 + l.length + 22 by omega] at h7
    simp only [rest, h7]
    rfl
  rw [show n + 159 + l.length + 23 = (n + 81 + l.length) + 101 by omega] at h6
  have h8 := stmts_before (n := n + 81 + l.length) rfl h6 (lin1P (d.axis h w)) (lin1P_ok _)
  rw [show n + 184 + l.length = (n + 81 + l.length + 101 + (lin1P (d.axis h w)).length) by simp only [lin1P, List.length_cons, List.length_nil]; omega]
  unfold headT at h8 ⊢
  rw [h8]
  rfl

end Verif.CText

import Verif.CText.DepthwiseCode
import Verif.CText.Direct
import Verif.Props.Direct
import Mathlib.Data.Rat.Floor

/-!
# C51: what the text of the depth-wise convolution computes
-/

namespace Verif.CText
open Prog Layers
set_option linter.unusedVariables false
set_option linter.unusedSectionVars false
variable {K : Type} [Field K] [LinearOrder K] [FloorRing K]
variable {ints : Ident → Option (List Nat)}

/-- a load before two others -/
theorem load_rot {γ : Type} (b b' b'' : Buf) (a a' a'' : Int) (f : K → K → K → Prog K γ) :
    (andThen (load b a) fun x => andThen (load b' a') fun y => andThen (load b'' a'') fun u => f x y u) =
      andThen (load b'' a'') fun u => andThen (load b a) fun x => andThen (load b' a') fun y => f x y u := by
  have h : (fun x => andThen (load b' a') fun y => andThen (load b'' a'') fun u => f x y u) =
      fun x => andThen (load b'' a'') fun u => andThen (load b' a') fun y => f x y u := by
    funext x
    exact load_comm _ _ _ _ (fun y u => f x y u)
  rw [h]
  exact load_comm _ _ _ _ (fun x u => andThen (load b' a') fun y => f x y u)

/-- the tap of the depth-wise convolution, as a program -/
def dwTapProg (c : ConvP) (idx : Nat) (src : Buf) (o i w : Int) : Prog K Unit :=
  forN c.filters fun k => do
    let t ← load .temp (o + k)
    let x ← (do
      let iv ← load src (i + k)
      let wv ← load (.par .weights idx) (w + k)
      pure (iv * wv) : Prog K K)
    store .temp (o + k) (t + x)

theorem dw_tap (L : Lib K) (hints : ∀ n, ints (n, none) = none) {F : Nat} {V : List Ident} {e : Env K} (c : ConvP) (idx : Nat) (src : Ref)
    {ws hs o kh kw : Int} (hF : c.filters < F) (hV : OnlyK V) (hws : e dWs = some (.int ws)) (hih : e (.ih, none) = some (.int (hs + kh)))
    (hkh : e (.kh, none) = some (.int kh)) (hkw : e (.kw, none) = some (.int kw)) (ho : e dOutP = some (.ptr .temp o)) :
    Sim (std L ints) F V V e (dwTap c idx src.ident) (do
      let iw := ws + kw
      let i : Int := (hs + kh) * c.inW * c.filters + iw * c.filters
      let w : Int := kh * c.kw * c.filters + kw * c.filters
      dwTapProg c idx src.buf o i w) (fun _ => e) := by
  unfold dwTap
  refine Sim.scope (V' := ((V.filter (· ≠ (.iw, none))).filter (· ≠ dInP)).filter (· ≠ dWP))
    (Sim.declThen (v := .int (ws + kw)) ?_ ?_ (Sim.declThen
      (v := .ptr src.buf ((hs + kh) * c.inW * c.filters + (ws + kw) * c.filters)) ?_ ?_ (Sim.declThen
        (v := .ptr (.par .weights idx) (kh * c.kw * c.filters + kw * c.filters)) ?_ ?_ (Sim.forD0 (by simp) hF fun k hk => Sim.block' ?_ rfl))))
    (fun y hy => .inl ?_) ?_
  · intro y hy
    simp only [Expr.vars, List.mem_append, List.mem_cons, List.not_mem_nil, or_false, false_or, List.nil_append, List.append_nil] at hy
    rcases hy with rfl | rfl <;> exact hV.not (by simp)
  · ceval [hws, hkw]
  · intro y hy
    simp only [dwAtE, Expr.vars, List.mem_append, List.mem_cons, List.not_mem_nil, or_false, false_or, List.nil_append, List.append_nil] at hy
    rcases hy with rfl | rfl <;> exact (hV.filter _).not (by simp)
  · ceval [dwAtE, hih]
  · intro y hy
    simp only [dwAtE, Expr.vars, List.mem_append, List.mem_cons, List.not_mem_nil, or_false, false_or, List.nil_append, List.append_nil] at hy
    rcases hy with rfl | rfl <;> exact ((hV.filter _).filter _).not (by simp)
  · ceval [dwAtE, hkh, hkw]
  · have hV3 : OnlyK (((V.filter (· ≠ (.iw, none))).filter (· ≠ dInP)).filter (· ≠ dWP)) := ((hV.filter _).filter _).filter _
    refine (Sim.addP (b := .temp) (o := o) (za := k)
      (q := load src.buf ((hs + kh) * c.inW * c.filters + (ws + kw) * c.filters + k) >>= fun iv =>
        load (.par .weights idx) (kh * c.kw * c.filters + kw * c.filters + k) >>= fun wv => ret (iv * wv)) rfl
        (by simpa [upd] using ho) (hV3.nil _) (fun y _ => hV3.nil _) (fun y _ => hV3.nil _) (by ceval) ?_).congr ?_
    · rw [Expr.eval, eval_ptr (b := src.buf) (o := (hs + kh) * c.inW * c.filters + (ws + kw) * c.filters) (za := (k : Int)) rfl (hints _) (by simp [upd]) (by ceval),
        eval_ptr (b := .par .weights idx) (o := kh * c.kw * c.filters + kw * c.filters) (za := (k : Int)) rfl (hints _) (by simp [upd]) (by ceval)]
      ceval
    · simp only [bind_eq, andThen_assoc, ret_andThen, pure_eq_ret]
      exact load_rot _ _ _ _ _ _ (fun x y u => store .temp (o + k) (u + x * y))
  · simp only [List.mem_filter] at hy; exact hy.1.1.1
  · intro y hy
    simp only [decls, List.mem_append, List.mem_cons, List.not_mem_nil, or_false, not_or, List.append_nil, List.cons_append, List.nil_append] at hy
    simp [upd, hy]

/-- the first tap inside the image -/
def dwLow (s : Int) : Int := if 0 > -s then 0 else -s

/-- the end of the taps inside the image -/
def dwHigh (k n : Nat) (s : Int) : Int := if (k : Int) < n - s then (k : Int) else n - s

theorem dw_range (k n : Nat) (s : Int) : (dwHigh k n s - dwLow s).toNat ≤ k := by
  unfold dwHigh dwLow
  split <;> split <;> omega

/-- values of `(0 > -x) ? 0 : -x` -/
theorem eval_dwLow {G : Globals K} {e : Env K} {x : Ident} {z : Int} (hx : x.1 ≠ .INFINITY) (ha : e x = some (.int z)) :
    ((dwLowE x : Expr K).eval G e >>= fun v => ofOpt (convertTy .int v)) = ret (.int (dwLow z)) := by
  have hx' : x ≠ (.INFINITY, none) := fun h => hx (by rw [h])
  unfold dwLow
  by_cases h : 0 < z <;>
    simp [dwLowE, Expr.eval, ha, hx, hx', ret_andThen, ofOpt, binOp, intOp, truth, boolVal, isFlt, h, convertTy, Val.toInt]

/-- values of `(k < n - x) ? k : (n - x)` -/
theorem eval_dwHigh {G : Globals K} {e : Env K} {x : Ident} {z : Int} {k n : Nat} (hx : x.1 ≠ .INFINITY) (ha : e x = some (.int z)) :
    ((dwHighE k n x : Expr K).eval G e >>= fun v => ofOpt (convertTy .int v)) = ret (.int (dwHigh k n z)) := by
  have hx' : x ≠ (.INFINITY, none) := fun h => hx (by rw [h])
  unfold dwHigh
  by_cases h : (k : Int) < n - z <;>
    simp [dwHighE, Expr.eval, ha, hx, hx', ret_andThen, ofOpt, binOp, intOp, truth, boolVal, isFlt, h, convertTy, Val.toInt]

theorem vars_dwLow {V : List Ident} (hV : OnlyK V) {x : Ident} (hx : x ≠ (.k, none)) : ∀ y ∈ (dwLowE x : Expr K).vars, y ∉ V := by
  intro y hy
  simp only [dwLowE, Expr.vars, List.mem_append, List.mem_cons, List.not_mem_nil, or_false, false_or, or_self] at hy
  subst hy; exact hV.not hx

theorem vars_dwHigh {V : List Ident} (hV : OnlyK V) {k n : Nat} {x : Ident} (hx : x ≠ (.k, none)) : ∀ y ∈ (dwHighE k n x : Expr K).vars, y ∉ V := by
  intro y hy
  simp only [dwHighE, Expr.vars, List.mem_append, List.mem_cons, List.not_mem_nil, or_false, false_or, or_self] at hy
  subst hy; exact hV.not hx

theorem vars_dwStart {V : List Ident} (hV : OnlyK V) (c : ConvP) {x : Name} (hx : x ≠ .k) : ∀ y ∈ (dwStartE c x : Expr K).vars, y ∉ V := by
  intro y hy
  simp only [dwStartE, Expr.vars, List.mem_append, List.mem_cons, List.not_mem_nil, or_false, false_or] at hy
  subst hy; exact hV.not (by simpa using hx)

/-- the loops over the window, as a program -/
def dwWindowProg (c : ConvP) (idx : Nat) (src : Buf) (hs ws o khs khe kws kwe : Int) : Prog K Unit :=
  forRange khs khe fun kh => forRange kws kwe fun kw =>
    dwTapProg c idx src o ((hs + kh) * c.inW * c.filters + (ws + kw) * c.filters) (kh * c.kw * c.filters + kw * c.filters)

theorem dw_window (L : Lib K) (hints : ∀ n, ints (n, none) = none) {F : Nat} {V : List Ident} {e : Env K} (c : ConvP) (idx : Nat) (src : Ref)
    {hs ws o khs khe kws kwe : Int} (hF : c.filters < F) (hFh : (khe - khs).toNat < F) (hFw : (kwe - kws).toNat < F) (hV : OnlyK V)
    (hhs : e dHs = some (.int hs)) (hws : e dWs = some (.int ws))
    (h1 : e dKhs = some (.int khs)) (h2 : e dKhe = some (.int khe)) (h3 : e dKws = some (.int kws)) (h4 : e dKwe = some (.int kwe))
    (ho : e dOutP = some (.ptr .temp o)) :
    Sim (std L ints) F V V e (dwWindow c idx src.ident) (dwWindowProg c idx src.buf hs ws o khs khe kws kwe) (fun _ => e) := by
  unfold dwWindow dwWindowProg
  have hV1 := hV.filter (.kh, none)
  have hV2 := hV1.filter (.ih, none)
  have hV3 := hV2.filter (.kw, none)
  refine Sim.forD (by simp) ?_ ?_ (by ceval [h1]) (fun z => by ceval [h2]) hFh fun kh _ _ => ?_
  · intro y hy
    simp only [Expr.vars, List.mem_cons, List.not_mem_nil, or_false] at hy
    subst hy; exact hV.not (by simp)
  · intro y hy
    simp only [Expr.vars, List.mem_cons, List.not_mem_nil, or_false] at hy
    subst hy; exact hV.not (by simp)
  refine Sim.scope (V' := (V.filter (· ≠ (.kh, none))).filter (· ≠ (.ih, none)))
    (Sim.declThen (v := .int (hs + kh)) ?_ (by ceval [hhs]) (Sim.forD (by simp) ?_ ?_ (by ceval [h3]) (fun z => by ceval [h4])
      hFw fun kw _ _ => ?_))
    (fun y hy => .inl (List.mem_filter.1 hy).1) (fun y hy => ?_)
  · intro y hy
    simp only [Expr.vars, List.mem_append, List.mem_cons, List.not_mem_nil, or_false] at hy
    rcases hy with rfl | rfl <;> exact hV1.not (by simp)
  · intro y hy
    simp only [Expr.vars, List.mem_cons, List.not_mem_nil, or_false] at hy
    subst hy; exact hV2.not (by simp)
  · intro y hy
    simp only [Expr.vars, List.mem_cons, List.not_mem_nil, or_false] at hy
    subst hy; exact hV2.not (by simp)
  · exact dw_tap L hints c idx src hF hV3 (by simpa [upd] using hws) (by simp [upd]) (by simp [upd]) (by simp [upd]) (by simpa [upd] using ho)
  · simp only [decls, List.mem_append, List.mem_cons, List.not_mem_nil, or_false, List.append_nil] at hy
    simp [upd, hy]

/-- the body of the loop over the columns of the output, as a program -/
def dwOutProg (c : ConvP) (idx : Nat) (src : Buf) (hs khs khe : Int) (oh ow : Nat) : Prog K Unit := do
  forN c.filters fun k => do
    let bias ← load (.par .biases idx) (k : Int)
    store .temp (((oh * c.outW * c.filters + ow * c.filters : Nat) : Int) + k) bias
  dwWindowProg c idx src hs ((ow : Int) * c.stride - c.padLeft) ((oh * c.outW * c.filters + ow * c.filters : Nat) : Int) khs khe
    (dwLow ((ow : Int) * c.stride - c.padLeft)) (dwHigh c.kw c.inW ((ow : Int) * c.stride - c.padLeft))

theorem dw_out (L : Lib K) (hints : ∀ n, ints (n, none) = none) {F : Nat} {V : List Ident} {e : Env K} (c : ConvP) (idx : Nat) (src : Ref)
    {oh ow : Nat} {hs khs khe : Int} (hF : c.filters < F) (hFh : (khe - khs).toNat < F) (hFw : c.kw < F) (hV : OnlyK V)
    (hoh : e (.oh, none) = some (.int oh)) (how : e (.ow, none) = some (.int ow)) (hhs : e dHs = some (.int hs))
    (h1 : e dKhs = some (.int khs)) (h2 : e dKhe = some (.int khe)) :
    Sim (std L ints) F V V e (dwOut c idx src.ident) (dwOutProg c idx src.buf hs khs khe oh ow) (fun _ => e) := by
  unfold dwOut dwOutProg
  have hV1 := hV.filter dOutP
  have hV2 := hV1.filter dWs
  have hV3 := hV2.filter dKws
  have hV4 := hV3.filter dKwe
  refine Sim.scope
    (Sim.declThen (v := .ptr .temp ((oh * c.outW * c.filters + ow * c.filters : Nat) : Int)) ?_ (by ceval [dwAtE, hoh, how])
      (Sim.seq (mid := fun _ => upd e dOutP (.ptr .temp ((oh * c.outW * c.filters + ow * c.filters : Nat) : Int)))
        (Sim.forD0 (by simp) hF fun k _ => Sim.block' ?_ rfl) fun _ =>
        Sim.declThen (v := .int ((ow : Int) * c.stride - c.padLeft)) (vars_dwStart hV1 c (by simp)) (by ceval [dwStartE, how])
        (Sim.declThen (v := .int (dwLow ((ow : Int) * c.stride - c.padLeft))) (vars_dwLow hV2 (by simp)) (eval_dwLow (by simp) (by simp [upd]))
        (Sim.declThen (v := .int (dwHigh c.kw c.inW ((ow : Int) * c.stride - c.padLeft))) (vars_dwHigh hV3 (by simp)) (eval_dwHigh (by simp) (by simp [upd]))
          (dw_window L hints c idx src hF hFh (lt_of_le_of_lt (dw_range _ _ _) hFw) hV4 (by simpa [upd] using hhs) (by simp [upd]) (by simpa [upd] using h1)
            (by simpa [upd] using h2) (by simp [upd]) (by simp [upd]) (by simp [upd]))))))
    (fun y hy => .inl ?_) (fun y hy => ?_)
  · intro y hy
    simp only [dwAtE, Expr.vars, List.mem_append, List.mem_cons, List.not_mem_nil, or_false, false_or] at hy
    rcases hy with rfl | rfl <;> exact hV.not (by simp)
  · exact (Sim.storeP (b := .temp) (o := ((oh * c.outW * c.filters + ow * c.filters : Nat) : Int)) (za := k) (q := load (.par .biases idx) (k : Int)) rfl
      (by simp [upd]) (hV1.nil _) (fun y _ => hV1.nil _) (fun y _ => hV1.nil _) (by ceval) (by ceval)).congr rfl
  · simp only [List.mem_filter] at hy; exact hy.1.1.1.1
  · simp only [decls, List.mem_append, List.mem_cons, List.not_mem_nil, or_false, not_or, List.append_nil, List.cons_append, List.nil_append] at hy
    simp [upd, hy]

/-- the text, as a program: where `k` is declared, `dwAst` does what `depthwiseCode` does -/
theorem dw_sim (L : Lib K) (hints : ∀ n, ints (n, none) = none) (c : ConvP) (size idx : Nat) (act : CAct K) (src : Ref) (road : Nat) {F : Nat} {e : Env K}
    (hF : c.filters + c.kh + c.kw + c.outH + c.outW + size < F) (he : IsInt e (.k, none)) :
    Sim (std L ints) F [((.k, none) : Ident)] [((.k, none) : Ident)] e (dwAst c size idx act src road)
      (depthwiseCode c size idx (act.fn (std L ints)) src.buf road) (fun _ => e) := by
  have hV : OnlyK [((.k, none) : Ident)] := by intro y hy; simpa using hy
  have hp : depthwiseCode c size idx (act.fn (std L ints)) src.buf road = (do
      forN c.outH fun oh => forN c.outW fun ow => dwOutProg c idx src.buf ((oh : Int) * c.stride - c.padLeft) (dwLow ((oh : Int) * c.stride - c.padLeft))
        (dwHigh c.kh c.inH ((oh : Int) * c.stride - c.padLeft)) oh ow
      copyMap size .temp (.out road) (act.fn (std L ints)) : Prog K Unit) := rfl
  rw [hp]
  unfold dwAst
  refine Sim.seq (mid := fun _ => e) (Sim.forD0 (by simp) (by omega) fun oh _ => ?_) fun _ =>
    Sim.copyAct (by simp) (by simp) (by omega) he (by simp) (by simp) (.inl rfl)
  have hV0 := hV.filter (.oh, none)
  have hV1 := hV0.filter dHs
  have hV2 := hV1.filter dKhs
  have hV3 := hV2.filter dKhe
  have hV4 := hV3.filter (.ow, none)
  have := dw_range c.kh c.inH ((oh : Int) * c.stride - c.padLeft)
  refine Sim.scope
    (Sim.declThen (v := .int ((oh : Int) * c.stride - c.padLeft)) (vars_dwStart hV0 c (by simp)) (by ceval [dwStartE])
    (Sim.declThen (v := .int (dwLow ((oh : Int) * c.stride - c.padLeft))) (vars_dwLow hV1 (by simp)) (eval_dwLow (by simp) (by simp [upd]))
    (Sim.declThen (v := .int (dwHigh c.kh c.inH ((oh : Int) * c.stride - c.padLeft))) (vars_dwHigh hV2 (by simp)) (eval_dwHigh (by simp) (by simp [upd]))
      (Sim.forD0 (by simp) (by omega) fun ow _ =>
        dw_out L hints c idx src (by omega) (by omega) (by omega) hV4 (by simp [upd]) (by simp [upd]) (by simp [upd]) (by simp [upd]) (by simp [upd])))))
    (fun y hy => .inl ?_) (fun y hy => ?_)
  · simp only [List.mem_filter] at hy ⊢; exact hy.1.1.1
  · simp only [decls, List.mem_append, List.mem_cons, List.not_mem_nil, or_false, not_or, List.append_nil, List.cons_append, List.nil_append] at hy
    simp [upd, hy]

omit [LinearOrder K] [FloorRing K] in
theorem dw_noRedecl (c : ConvP) (size idx : Nat) (act : CAct K) (src : Ref) (road : Nat) : noRedecl (dwAst c size idx act src road : Stmt K) = true := by
  kernel_rfl

/-- **C51, on the text.** The template `template_Conv_DW_HWC.c.tpl`, rendered with the values that `Conv2D_direct_block` passes, is a C program that declares
no identifier twice in a block; run on a channels-last feature map and on the weights in the layout of the layer it terminates without
out-of-bounds access, leaves the depth-wise convolution, channels-last, in the output array, and changes no other array but the temporary
one and no variable but `k`. -/
theorem C51_depthwise_text (L : Lib K) (hints : ∀ n, ints (n, none) = none) (c : ConvP) (bk size idx road : Nat) (act : CAct K) (src : Ref)
    (wt : Nat → Nat → Nat → K) (bias : Nat → K) (x : Nat → Nat → Nat → K) (m : Mem K) (hpad : c.padLeft = c.padTop)
    (hx : Holds m src.buf (tensor3 c.inH c.inW c.filters fun i j p => x p i j))
    (hw : Holds m (.par .weights idx) (dwLayout c wt)) (hb : Holds m (.par .biases idx) (tensor c.filters bias))
    (hsize : size = c.filters * c.outH * c.outW) (ht : size ≤ m.size .temp) (ho : size ≤ m.size (.out road)) :
    ∃ s m', codeC Tpl.conv_DW_HWC (directHash c bk size idx act src road) = some s ∧ noRedecl s = true ∧
      (∃ F₀, ∀ e, IsInt e (.k, none) → ∀ F, F₀ ≤ F → ∃ e', Agree [(.k, none)] e' e ∧ s.run (std L ints) F e m = some (e', m')) ∧
      Holds m' (.out road) (tensor3 c.outH c.outW c.filters fun i j f => depthwiseSpec c (act.fn (std L ints)) wt bias x f i j) ∧
      OnlyChanges [.out road, .temp] m m' := by
  obtain ⟨m', hm, hh, hch⟩ := C51_depthwise_code c size idx road (act.fn (std L ints)) src.buf wt bias x m
    (by cases src <;> simp [Ref.buf]) hpad hx hw hb hsize ht ho
  refine ⟨_, m', dw_code c bk size idx act src road, dw_noRedecl c size idx act src road,
    ⟨c.filters + c.kh + c.kw + c.outH + c.outW + size + 1, fun e he F hF => ?_⟩, hh, hch⟩
  have := dw_sim L hints c size idx act src road (F := F) (by omega) he e (Agree.refl _ _) m
  rw [hm] at this
  exact this

/-- hypotheses met: two channels of a 4×5 image, 3×2 taps, stride 2, padding 1, ReLU, in place -/
example (L : Lib ℚ) (m : Mem ℚ) (x : Nat → Nat → Nat → ℚ) (wt : Nat → Nat → Nat → ℚ)
    (hx : Holds m (.out 0) (tensor3 4 5 2 fun i j p => x p i j)) (hw : Holds m (.par .weights 3) (dwLayout ⟨2, 2, 4, 5, 2, 3, 3, 2, 2, 1, 1, 1, 1, 1⟩ wt))
    (hb : Holds m (.par .biases 3) (tensor 2 fun f => (f : ℚ))) (ht : 12 ≤ m.size .temp) (ho : 12 ≤ m.size (.out 0)) :
    ∃ (s : Stmt ℚ) (m' : Mem ℚ), codeC Tpl.conv_DW_HWC (directHash ⟨2, 2, 4, 5, 2, 3, 3, 2, 2, 1, 1, 1, 1, 1⟩ 2 12 3 .relu (.out 0) 0) = some s ∧
      (∃ F₀, ∀ e, IsInt e (.k, none) → ∀ F, F₀ ≤ F → ∃ e', Agree [(.k, none)] e' e ∧ s.run (std L) F e m = some (e', m')) ∧
      Holds m' (.out 0) (tensor3 2 3 2 fun i j f => depthwiseSpec ⟨2, 2, 4, 5, 2, 3, 3, 2, 2, 1, 1, 1, 1, 1⟩ ((CAct.relu : CAct ℚ).fn (std L)) wt (fun f => (f : ℚ)) x f i j) := by
  obtain ⟨s, m', h1, -, h2, h3, -⟩ := C51_depthwise_text (ints := fun _ => none) L (fun _ => rfl) ⟨2, 2, 4, 5, 2, 3, 3, 2, 2, 1, 1, 1, 1, 1⟩ 2 12 3 0 .relu (.out 0)
    wt (fun f => (f : ℚ)) x m rfl hx hw hb rfl ht ho
  exact ⟨s, m', h1, h2, h3⟩

end Verif.CText

import Verif.CText.Pointers

/-!
# The text of the blocked convolution (`direct_block`)
-/

namespace Verif.CText
open Prog Layers
set_option linter.unusedVariables false
set_option linter.unusedSectionVars false
variable {K : Type} [Field K] [LinearOrder K] [FloorRing K]
variable {ints : Ident → Option (List Nat)}

/-- only `k` is not followed -/
abbrev OnlyK (V : List Ident) : Prop := ∀ y ∈ V, y = ((.k, none) : Ident)

theorem OnlyK.filter {V : List Ident} (h : OnlyK V) (x : Ident) : OnlyK (V.filter (· ≠ x)) := fun y hy => h y (List.mem_filter.1 hy).1

theorem OnlyK.nil {V : List Ident} (h : OnlyK V) (y : Ident) : y ∉ V.filter (· ≠ ((.k, none) : Ident)) := by
  intro hy
  have := List.mem_filter.1 hy
  simp [h y this.1] at this

theorem OnlyK.not {V : List Ident} (h : OnlyK V) {y : Ident} (hy : y ≠ (.k, none)) : y ∉ V := fun hh => hy (h y hh)

theorem direct_inner (L : Lib K) (hints : ∀ n, ints (n, none) = none) {F : Nat} {V : List Ident} {e : Env K} (c : ConvP) (bk idx : Nat) {src : Buf} {i w o : Int}
    (hF : c.inC + bk < F) (hV : OnlyK V) (hi : e (.i_ptr, none) = some (.ptr src i)) (hw : e (.w_ptr_base, none) = some (.ptr (.par .weights idx) w))
    (ho : e (.o_ptr, none) = some (.ptr .temp o)) :
    Sim (std L ints) F V V e (directInner c bk) (forN c.inC fun ch => do
      let iv ← load src (i + ch)
      forN bk fun k => do
        let t ← load .temp (o + k)
        let x ← (do
          let wv ← load (.par .weights idx) (w + ch * bk + k)
          pure (iv * wv) : Prog K K)
        store .temp (o + k) (t + x)) (fun _ => e) := by
  unfold directInner
  refine Sim.forD0 (by simp) (by omega) fun ch hch => ?_
  have hV' := hV.filter (.c, none)
  refine (Sim.blockD (V' := (.iv, none) :: V.filter (· ≠ (.c, none))) (post := fun _ => upd (upd e (.c, none) (.int ch)) (.iv, none) (.flt 0))
    (Sim.seq (V' := (V.filter (· ≠ (.c, none))).filter (· ≠ (.iv, none))) (mid := fun iv => upd (upd e (.c, none) (.int ch)) (.iv, none) (.flt iv)) (p := load src (i + ch))
      (Sim.declF (val := fun x => .flt x) ?_ ?_) fun iv => ?_) (fun x hx => ?_)).weaken ?_ (fun _ h => h)
  · intro y hy
    simp only [Expr.vars, List.mem_cons, List.not_mem_nil, or_false] at hy
    rcases hy with rfl | rfl <;> exact hV'.not (by simp)
  · rw [eval_ptr (b := src) (o := i) (za := ch) rfl (hints _) (by simpa [upd] using hi) (by ceval)]
    ceval
  · have hV2 := hV'.filter (.iv, none)
    refine Sim.weaken (V' := (V.filter (· ≠ (.c, none))).filter (· ≠ (.iv, none))) (post := fun _ => upd (upd e (.c, none) (.int ch)) (.iv, none) (.flt iv)) ?_
      (fun _ => ?_) (fun y hy => List.mem_cons_of_mem _ (List.mem_filter.1 hy).1)
    · refine Sim.forD0 (by simp) (by omega) fun k hk => ?_
      refine (Sim.addP (b := .temp) (o := o) (za := k) (q := load (.par .weights idx) (w + ch * bk + k) >>= fun wv => ret (iv * wv)) rfl
        (by simpa [upd] using ho) (hV2.nil _) (fun y _ => hV2.nil _) (fun y _ => hV2.nil _) (by ceval) ?_).congr ?_
      · have h1 := eval_ptr (G := std L ints) (e := upd (upd (upd e (.c, none) (.int ch)) (.iv, none) (.flt iv)) (.k, none) (.int k)) (x := (.w_ptr_base, none))
          (a := .bin .add (.bin .mul (.var (.c, none)) (.num bk)) (.var (.k, none))) (b := .par .weights idx) (o := w) (za := (ch : Int) * bk + k) rfl (hints _)
          (by simpa [upd] using hw) (by ceval)
        rw [Expr.eval, h1, ← add_assoc]
        ceval
      · simp only [bind_eq, andThen_assoc, ret_andThen, pure_eq_ret]
        exact load_comm _ _ _ _ (fun x y => store .temp (o + k) (y + iv * x))
    · intro y
      by_cases hy : y = (.iv, none)
      · subst hy; simp [upd, sameTy]
      · simp only [upd, hy, if_false]
        split
        · exact sameTy.refl _
        · trivial
  · rcases List.mem_cons.1 hx with rfl | hx
    · exact .inr (by simp [decls])
    · exact .inl hx
  · intro _
    refine Agree.of_eq ?_
    funext z
    simp only [restore, decls, List.mem_cons, List.not_mem_nil, or_false, List.append_nil, upd]
    split <;> rfl

/-- values of `(a > 0) ? a : 0` -/
theorem eval_lower {G : Globals K} {e : Env K} {a : Expr K} {z : Int} (ha : a.eval G e = ret (.int z)) (hf : isFlt G e a = false) :
    (Expr.cond (.bin .gt a (.num 0)) a (.num 0)).eval G e = ret (.int (if z > 0 then z else 0)) := by
  by_cases h : 0 < z <;>
    simp [Expr.eval, ha, ret_andThen, ofOpt_some, binOp, intOp, truth, boolVal, isFlt, hf, h]

/-- values of `(n < a) ? n : a` -/
theorem eval_upper {G : Globals K} {e : Env K} {a : Expr K} {z : Int} {n : Nat} (ha : a.eval G e = ret (.int z)) (hf : isFlt G e a = false) :
    (Expr.cond (.bin .lt (.num n) a) (.num n) a).eval G e = ret (.int (if (n : Int) < z then (n : Int) else z)) := by
  by_cases h : (n : Int) < z <;>
    simp [Expr.eval, ha, ret_andThen, ofOpt_some, binOp, intOp, truth, boolVal, isFlt, hf, h]

theorem direct_pixel (L : Lib K) (hints : ∀ n, ints (n, none) = none) {F : Nat} {V : List Ident} {e : Env K} (c : ConvP) (bk idx : Nat) (src : Ref)
    {b bc oh ow : Nat} {kh kw o : Int}
    (hF : c.inC + bk < F) (hV : OnlyK V) (hbk : e (.bk, none) = some (.int b)) (hbc : e (.bc, none) = some (.int bc)) (how : e (.ow, none) = some (.int ow))
    (hkh : e (.kh, none) = some (.int kh)) (hkw : e (.kw, none) = some (.int kw)) (hih : e (.ih, none) = some (.int ((oh : Int) * c.stride - c.padLeft + kh)))
    (hcb : e (.c_base, none) = some (.int ((bc * c.inC : Nat) : Int))) (ho : e (.o_ptr, none) = some (.ptr .temp o)) :
    Sim (std L ints) F V V e (directPixel c bk idx src.ident) (do
      let iw : Int := (ow : Int) * c.stride - c.padLeft + kw
      let i : Int := (((oh : Int) * c.stride - c.padLeft + kh) * c.inW + iw) * (c.inC * ((c.inC / c.inC : Nat) : Int)) + (bc * c.inC : Nat)
      let w : Int := ((((b : Int) * ((c.inC / c.inC : Nat) : Int) + bc) * c.kh + kh) * c.kw + kw) * c.inC * bk
      forN c.inC fun ch => do
        let iv ← load src.buf (i + ch)
        forN bk fun k => do
          let t ← load .temp (o + k)
          let x ← (do
            let wv ← load (.par .weights idx) (w + ch * bk + k)
            pure (iv * wv) : Prog K K)
          store .temp (o + k) (t + x)) (fun _ => e) := by
  unfold directPixel
  refine Sim.scope (V' := ((V.filter (· ≠ (.iw, none))).filter (· ≠ (.i_ptr, none))).filter (· ≠ (.w_ptr_base, none)))
    (Sim.declThen (v := .int ((ow : Int) * c.stride - c.padLeft + kw)) ?_ ?_ (Sim.declThen
      (v := .ptr src.buf ((((oh : Int) * c.stride - c.padLeft + kh) * c.inW + ((ow : Int) * c.stride - c.padLeft + kw)) * (c.inC * ((c.inC / c.inC : Nat) : Int)) + (bc * c.inC : Nat))) ?_ ?_
      (Sim.declThen (v := .ptr (.par .weights idx) (((((b : Int) * ((c.inC / c.inC : Nat) : Int) + bc) * c.kh + kh) * c.kw + kw) * c.inC * bk)) ?_ ?_
        (direct_inner L hints c bk idx hF (((hV.filter _).filter _).filter _) (by simp [upd]) (by simp [upd]) (by simpa [upd] using ho)))))
    (fun y hy => .inl ?_) ?_
  · intro y hy
    simp only [Expr.vars, List.mem_append, List.mem_cons, List.not_mem_nil, or_false, false_or, List.nil_append, List.append_nil] at hy
    rcases hy with rfl | rfl <;> exact hV.not (by simp)
  · ceval [how, hkw]
  · intro y hy
    simp only [Expr.vars, List.mem_append, List.mem_cons, List.not_mem_nil, or_false, false_or, List.nil_append, List.append_nil] at hy
    rcases hy with (rfl | rfl) | rfl <;> exact (hV.filter _).not (by simp)
  · ceval [hih, hcb]
    ring_nf
  · intro y hy
    simp only [Expr.vars, List.mem_append, List.mem_cons, List.not_mem_nil, or_false, false_or, List.nil_append, List.append_nil] at hy
    rcases hy with ((rfl | rfl) | rfl) | rfl <;> exact ((hV.filter _).filter _).not (by simp)
  · ceval [hbk, hbc, hkh, hkw]
  · simp only [List.mem_filter] at hy; exact hy.1.1.1
  · intro y hy
    simp only [directInner, decls, List.mem_append, List.mem_cons, List.not_mem_nil, or_false, not_or, List.append_nil, List.cons_append, List.nil_append] at hy
    simp [upd, hy]

/-- the program of the window loops -/
def windowProg (c : ConvP) (bk idx : Nat) (src : Buf) (b oh ow : Nat) (o khs khe kws kwe : Int) (bc : Nat) : Prog K Unit :=
  forRange khs khe fun kh => forRange kws kwe fun kw => do
    let iw : Int := (ow : Int) * c.stride - c.padLeft + kw
    let i : Int := (((oh : Int) * c.stride - c.padLeft + kh) * c.inW + iw) * (c.inC * ((c.inC / c.inC : Nat) : Int)) + (bc * c.inC : Nat)
    let w : Int := ((((b : Int) * ((c.inC / c.inC : Nat) : Int) + bc) * c.kh + kh) * c.kw + kw) * c.inC * bk
    forN c.inC fun ch => do
      let iv ← load src (i + ch)
      forN bk fun k => do
        let t ← load .temp (o + k)
        let x ← (do
          let wv ← load (.par .weights idx) (w + ch * bk + k)
          pure (iv * wv) : Prog K K)
        store .temp (o + k) (t + x)

theorem direct_window (L : Lib K) (hints : ∀ n, ints (n, none) = none) {F : Nat} {V : List Ident} {e : Env K} (c : ConvP) (bk idx : Nat) (src : Ref)
    {b bc oh ow : Nat} {khs khe kws kwe o : Int}
    (hF : c.inC + bk < F) (hFh : (khe - khs).toNat < F) (hFw : (kwe - kws).toNat < F)
    (hV : OnlyK V) (hbk : e (.bk, none) = some (.int b)) (hbc : e (.bc, none) = some (.int bc)) (hoh : e (.oh, none) = some (.int oh)) (how : e (.ow, none) = some (.int ow))
    (h1 : e (.kh_s, none) = some (.int khs)) (h2 : e (.kh_e, none) = some (.int khe)) (h3 : e (.kw_s, none) = some (.int kws)) (h4 : e (.kw_e, none) = some (.int kwe))
    (ho : e (.o_ptr, none) = some (.ptr .temp o)) :
    Sim (std L ints) F V V e (directWindow c bk idx src.ident) (windowProg c bk idx src.buf b oh ow o khs khe kws kwe bc) (fun _ => e) := by
  unfold directWindow windowProg
  have hV1 := hV.filter (.c_base, none)
  have hV2 := hV1.filter (.kh, none)
  have hV3 := hV2.filter (.ih, none)
  have hV4 := hV3.filter (.kw, none)
  refine Sim.scope (V' := V.filter (· ≠ (.c_base, none))) (Sim.declThen (v := .int ((bc * c.inC : Nat) : Int)) ?_ (by ceval [hbc]) (Sim.forD (by simp) ?_ ?_ ?_ ?_ hFh fun kh _ _ => ?_))
    (fun y hy => .inl (List.mem_filter.1 hy).1) (fun y hy => ?_)
  · intro y hy
    simp only [Expr.vars, List.mem_append, List.mem_cons, List.not_mem_nil, or_false] at hy
    subst hy; exact hV.not (by simp)
  · intro y hy
    simp only [Expr.vars, List.mem_cons, List.not_mem_nil, or_false] at hy
    subst hy; exact hV1.not (by simp)
  · intro y hy
    simp only [Expr.vars, List.mem_cons, List.not_mem_nil, or_false] at hy
    subst hy; exact hV1.not (by simp)
  · ceval [h1]
  · intro z; ceval [h2]
  · refine Sim.scope (V' := ((V.filter (· ≠ (.c_base, none))).filter (· ≠ (.kh, none))).filter (· ≠ (.ih, none)))
      (Sim.declThen (v := .int ((oh : Int) * c.stride - c.padLeft + kh)) ?_ (by ceval [hoh]) (Sim.forD (by simp) ?_ ?_ ?_ ?_ hFw fun kw _ _ => ?_))
      (fun y hy => .inl (List.mem_filter.1 hy).1) (fun y hy => ?_)
    · intro y hy
      simp only [Expr.vars, List.mem_append, List.mem_cons, List.not_mem_nil, or_false] at hy
      rcases hy with rfl | rfl <;> exact hV2.not (by simp)
    · intro y hy
      simp only [Expr.vars, List.mem_cons, List.not_mem_nil, or_false] at hy
      subst hy; exact hV3.not (by simp)
    · intro y hy
      simp only [Expr.vars, List.mem_cons, List.not_mem_nil, or_false] at hy
      subst hy; exact hV3.not (by simp)
    · ceval [h3]
    · intro z; ceval [h4]
    · exact direct_pixel L hints c bk idx src hF hV4 (by simpa [upd] using hbk) (by simpa [upd] using hbc) (by simpa [upd] using how) (by simp [upd]) (by simp [upd]) (by simp [upd])
        (by simp [upd]) (by simpa [upd] using ho)
    · simp only [decls, List.mem_append, List.mem_cons, List.not_mem_nil, or_false, List.append_nil] at hy
      simp [upd, hy]
  · simp only [decls, List.mem_append, List.mem_cons, List.not_mem_nil, or_false, List.append_nil] at hy
    simp [upd, hy]

/-- the first tap inside the image -/
def lowTap (c : ConvP) (x : Nat) : Int := if (c.padLeft : Int) - x * c.stride > 0 then (c.padLeft : Int) - x * c.stride else 0

/-- the end of the taps inside the image -/
def highTap (c : ConvP) (k n x : Nat) : Int := if (k : Int) < n + c.padLeft - x * c.stride then (k : Int) else n + c.padLeft - x * c.stride

theorem tap_bound (c : ConvP) (k n x : Nat) : (highTap c k n x - lowTap c x).toNat ≤ k := by
  unfold highTap lowTap
  split <;> split <;> omega

theorem direct_out (L : Lib K) (hints : ∀ n, ints (n, none) = none) {F : Nat} {V : List Ident} {e : Env K} (c : ConvP) (bk idx : Nat) (src : Ref)
    {b oh ow : Nat} {khs khe : Int}
    (hF : c.inC + bk < F) (hF1 : 1 < F) (hFh : (khe - khs).toNat < F) (hFw : c.kw < F)
    (hV : OnlyK V) (hbk : e (.bk, none) = some (.int b)) (hkb : e (.k_base, none) = some (.int ((b * bk : Nat) : Int))) (hoh : e (.oh, none) = some (.int oh)) (how : e (.ow, none) = some (.int ow))
    (h1 : e (.kh_s, none) = some (.int khs)) (h2 : e (.kh_e, none) = some (.int khe)) :
    Sim (std L ints) F V V e (directOut c bk idx src.ident) (do
      let o : Int := ((oh * c.outW * c.filters + ow * c.filters + b * bk : Nat) : Int)
      forN bk fun k => do
        let bias ← load (.par .biases idx) ((b * bk + k : Nat) : Int)
        store .temp (o + k) bias
      forN (c.inC / c.inC) fun bc => windowProg c bk idx src.buf b oh ow o khs khe (lowTap c ow) (highTap c c.kw c.inW ow) bc) (fun _ => e) := by
  unfold directOut
  have hV1 := hV.filter (.kw_s, none)
  have hV2 := hV1.filter (.kw_e, none)
  have hV3 := hV2.filter (.o_ptr, none)
  have hV4 := hV3.filter (.bc, none)
  have hdiv : c.inC / c.inC ≤ 1 := by
    rcases Nat.eq_zero_or_pos c.inC with h | h
    · simp [h]
    · rw [Nat.div_self h]
  refine Sim.scope (V' := ((V.filter (· ≠ (.kw_s, none))).filter (· ≠ (.kw_e, none))).filter (· ≠ (.o_ptr, none)))
    (Sim.declThen (v := .int (lowTap c ow)) ?_ ?_ (Sim.declThen (v := .int (highTap c c.kw c.inW ow)) ?_ ?_
      (Sim.declThen (v := .ptr .temp ((oh * c.outW * c.filters + ow * c.filters + b * bk : Nat) : Int)) ?_ (by ceval [hoh, how, hkb])
        (Sim.seq (mid := fun _ => upd (upd (upd e (.kw_s, none) (.int (lowTap c ow))) (.kw_e, none) (.int (highTap c c.kw c.inW ow))) (.o_ptr, none)
            (.ptr .temp ((oh * c.outW * c.filters + ow * c.filters + b * bk : Nat) : Int)))
          (Sim.forD0 (by simp) (by omega) fun k _ => ?_)
          fun _ => Sim.forD0 (by simp) (by omega) fun bc _ => ?_)))) (fun y hy => .inl ?_) (fun y hy => ?_)
  · intro y hy
    simp only [padE, Expr.vars, List.mem_append, List.mem_cons, List.not_mem_nil, or_false, false_or, or_self] at hy
    subst hy; exact hV.not (by simp)
  · rw [padE, eval_lower (z := (c.padLeft : Int) - ow * c.stride) (by ceval [how]) (by simp [isFlt, how])]
    simp [ret_andThen, convertTy, Val.toInt, ofOpt, lowTap]
  · intro y hy
    simp only [endE, Expr.vars, List.mem_append, List.mem_cons, List.not_mem_nil, or_false, false_or, or_self] at hy
    subst hy; exact hV1.not (by simp)
  · rw [endE, eval_upper (z := (c.inW : Int) + c.padLeft - ow * c.stride) (by ceval [how]) (by simp [isFlt, upd, how])]
    simp [ret_andThen, convertTy, Val.toInt, ofOpt, highTap]
  · intro y hy
    simp only [Expr.vars, List.mem_append, List.mem_cons, List.not_mem_nil, or_false, false_or, or_self] at hy
    rcases hy with (rfl | rfl) | rfl <;> exact hV2.not (by simp)
  · exact (Sim.storeP (b := .temp) (o := ((oh * c.outW * c.filters + ow * c.filters + b * bk : Nat) : Int)) (za := k) (q := load (.par .biases idx) ((b * bk + k : Nat) : Int)) rfl
      (by simp [upd]) (hV3.nil _) (fun y _ => hV3.nil _) (fun y _ => hV3.nil _) (by ceval) (by ceval [hkb])).congr rfl
  · exact direct_window L hints c bk idx src hF hFh (lt_of_le_of_lt (tap_bound _ _ _ _) hFw) hV4 (by simpa [upd] using hbk) (by simp [upd]) (by simpa [upd] using hoh) (by simpa [upd] using how)
      (by simpa [upd] using h1) (by simpa [upd] using h2) (by simp [upd]) (by simp [upd]) (by simp [upd])
  · simp only [List.mem_filter] at hy; exact hy.1.1.1
  · simp only [decls, List.mem_append, List.mem_cons, List.not_mem_nil, or_false, not_or, List.append_nil, List.cons_append, List.nil_append] at hy
    simp [upd, hy]

/-- **C53, blocked convolution.** -/
theorem direct_renders (L : Lib K) (hints : ∀ n, ints (n, none) = none) (c : ConvP) (bk size idx : Nat) (act : CAct K) (src : Ref) (road : Nat) :
    Renders (std L ints) Tpl.conv_direct_block (directHash c bk size idx act src road) [((.k, none), .int)]
      (directBlockCode c bk size idx (act.fn (std L ints)) src.buf road) := by
  refine Renders.of_sim (c.inC + bk + c.kh + c.kw + c.filters / bk + c.outH + c.outW + size + 2) (direct_code ..) fun e he F hF => ?_
  have hk := he.int (.k, none) (by simp)
  have hnb : c.filters / bk < F := by generalize c.filters / bk = nb at hF ⊢; omega
  generalize hn : c.filters / bk = nb at hF
  have hV : OnlyK [((.k, none) : Ident)] := by intro y hy; simpa using hy
  have hV1 := hV.filter (.bk, none)
  have hV2 := hV1.filter (.k_base, none)
  have hV3 := hV2.filter (.oh, none)
  have hV4 := hV3.filter (.kh_s, none)
  have hV5 := hV4.filter (.kh_e, none)
  have hV6 := hV5.filter (.ow, none)
  unfold directAst
  refine Sim.seq (mid := fun _ => e) ?_ fun _ => Sim.copyAct (by simp) (by simp) (by omega) hk (by simp) (by simp) (.inl rfl)
  refine Sim.forD0 (by simp) hnb fun b _ => ?_
  refine Sim.scope (Sim.declThen (v := .int ((b * bk : Nat) : Int)) ?_ (by ceval) (Sim.forD0 (by simp) (by omega) fun oh _ => ?_)) (fun y hy => .inl (List.mem_filter.1 hy).1) (fun y hy => ?_)
  · intro y hy
    simp only [Expr.vars, List.mem_append, List.mem_cons, List.not_mem_nil, or_false] at hy
    subst hy; exact hV1.not (by simp)
  · refine Sim.scope (Sim.declThen (v := .int (lowTap c oh)) ?_ ?_ (Sim.declThen (v := .int (highTap c c.kh c.inH oh)) ?_ ?_ (Sim.forD0 (by simp) (by omega) fun ow _ => ?_)))
      (fun y hy => .inl (List.mem_filter.1 (List.mem_filter.1 hy).1).1) (fun y hy => ?_)
    · intro y hy
      simp only [padE, Expr.vars, List.mem_append, List.mem_cons, List.not_mem_nil, or_false, false_or, or_self] at hy
      subst hy; exact hV3.not (by simp)
    · rw [padE, eval_lower (z := (c.padLeft : Int) - oh * c.stride) (by ceval) (by simp [isFlt, upd])]
      simp [ret_andThen, convertTy, Val.toInt, ofOpt, lowTap]
    · intro y hy
      simp only [endE, Expr.vars, List.mem_append, List.mem_cons, List.not_mem_nil, or_false, false_or, or_self] at hy
      subst hy; exact hV4.not (by simp)
    · rw [endE, eval_upper (z := (c.inH : Int) + c.padLeft - oh * c.stride) (by ceval) (by simp [isFlt, upd])]
      simp [ret_andThen, convertTy, Val.toInt, ofOpt, highTap]
    · have := tap_bound c c.kh c.inH oh
      exact direct_out L hints c bk idx src (khs := lowTap c oh) (khe := highTap c c.kh c.inH oh) (by omega) (by omega) (by omega) (by omega) hV6 (by simp [upd]) (by simp [upd]) (by simp [upd]) (by simp [upd]) (by simp [upd]) (by simp [upd])
    · simp only [decls, List.mem_append, List.mem_cons, List.not_mem_nil, or_false, not_or, List.append_nil, List.cons_append, List.nil_append] at hy
      simp [upd, hy]
  · simp only [decls, List.mem_append, List.mem_cons, List.not_mem_nil, or_false, List.append_nil] at hy
    simp [upd, hy]

end Verif.CText

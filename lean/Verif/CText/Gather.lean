import Verif.CText.GatherCode
import Verif.CText.Rules

/-!
# The texts of Gather and GatherElements
-/

namespace Verif.CText
open Prog Layers
set_option linter.unusedVariables false
set_option linter.unusedSectionVars false
variable {K : Type} [Field K] [LinearOrder K] [FloorRing K]

theorem intAt_loadIdx (l : List Nat) (k : Nat) (a : Int) (h : a = k) :
    (ofOpt (intAt l a) : Prog K (Val K)) = andThen (loadIdx l k) fun z => ret (.int z) := by
  subst h
  funext m
  simp only [intAt, andThen, loadIdx]
  by_cases hk : k < l.length <;> simp [hk, ofOpt, ret, fail]

/-- the name of the index array -/
abbrev indices (idx : Nat) : Ident := (.other (chars! "indice_Gather"), some ⟨decide (idx < 10), idx⟩)

theorem gatherElements_renders (L : Lib K) (ints : Ident → Option (List Nat)) (a : Np.Axis) (l : List Nat)
    (W H Co Ho Wo size idx : Nat) (act : CAct K) (src : Ref) (road : Nat) (hl : ints (indices idx) = some l) :
    Renders (std L ints) Tpl.gatherElements (gatherElementsHash a W H Co Ho Wo size idx act src road)
      [((.f, none), .int), ((.i, none), .int), ((.j, none), .int), ((.k, none), .int)]
      (gatherElementsCode a l W H Co Ho Wo size (act.fn (std L ints)) src.buf road) := by
  have hl' : (std L ints).ints (indices idx) = some l := hl
  have key : ∀ f i j : Nat, (ofOpt (intAt l ((j : Int) + Wo * (i + Ho * f))) : Prog K (Val K)) =
      andThen (loadIdx l (at3 Ho Wo f i j)) fun z => ret (.int z) :=
    fun f i j => intAt_loadIdx _ _ _ (by simp [at3])
  cases a
  · refine Renders.of_sim (Co + Ho + Wo + size + 1) (gatherElementsC_code ..) fun e he F hF => ?_
    refine Sim.seq (Sim.loop3 (by simp) (by simp) (by simp) (by omega) (he.int _ (by simp)) (he.int _ (by simp))
      (he.int _ (by simp)) fun f i j _ _ _ => Sim.block' ?_ rfl)
      fun _ => Sim.copyAct (by simp) (by simp) (by omega) (he.int _ (by simp)) rfl rfl (.inl rfl)
    refine (Sim.store (b := .temp) (za := at3 Ho Wo f i j) (q := (loadIdx l (at3 Ho Wo f i j) : Prog K Nat) >>= fun k =>
      load src.buf (gatherAddr .c W H f i j k : Int)) (by simp) (by simp [Expr.vars]) (by simp [Expr.vars])
      (by ceval [at3]) ?_).congr ?_
    · ceval [hl', key, gatherAddr]
    · simp only [bind_eq, andThen_assoc]
  · refine Renders.of_sim (Co + Ho + Wo + size + 1) (gatherElementsH_code ..) fun e he F hF => ?_
    refine Sim.seq (Sim.loop3 (by simp) (by simp) (by simp) (by omega) (he.int _ (by simp)) (he.int _ (by simp))
      (he.int _ (by simp)) fun f i j _ _ _ => Sim.block' ?_ rfl)
      fun _ => Sim.copyAct (by simp) (by simp) (by omega) (he.int _ (by simp)) rfl rfl (.inl rfl)
    refine (Sim.store (b := .temp) (za := at3 Ho Wo f i j) (q := (loadIdx l (at3 Ho Wo f i j) : Prog K Nat) >>= fun k =>
      load src.buf (gatherAddr .h W H f i j k : Int)) (by simp) (by simp [Expr.vars]) (by simp [Expr.vars])
      (by ceval [at3]) ?_).congr ?_
    · ceval [hl', key, gatherAddr]
    · simp only [bind_eq, andThen_assoc]
  · refine Renders.of_sim (Co + Ho + Wo + size + 1) (gatherElementsW_code ..) fun e he F hF => ?_
    refine Sim.seq (Sim.loop3 (by simp) (by simp) (by simp) (by omega) (he.int _ (by simp)) (he.int _ (by simp))
      (he.int _ (by simp)) fun f i j _ _ _ => Sim.block' ?_ rfl)
      fun _ => Sim.copyAct (by simp) (by simp) (by omega) (he.int _ (by simp)) rfl rfl (.inl rfl)
    refine (Sim.store (b := .temp) (za := at3 Ho Wo f i j) (q := (loadIdx l (at3 Ho Wo f i j) : Prog K Nat) >>= fun k =>
      load src.buf (gatherAddr .w W H f i j k : Int)) (by simp) (by simp [Expr.vars]) (by simp [Expr.vars])
      (by ceval [at3]) ?_).congr ?_
    · ceval [hl', key, gatherAddr]
    · simp only [bind_eq, andThen_assoc]

/-- the statements in the innermost loop -/
theorem gatherInner_sim (L : Lib K) (ints : Ident → Option (List Nat)) {F : Nat} {V : List Ident} {e : Env K}
    (W H : Nat) (act : CAct K) (src : Ref) (f i j p : Nat) (hVf : (.f, none) ∉ V) (hVi : (.i, none) ∉ V)
    (hVj : (.j, none) ∉ V) (hVp : (.position, none) ∉ V) (hf : e (.f, none) = some (.int f))
    (hi : e (.i, none) = some (.int i)) (hj : e (.j, none) = some (.int j)) (hp : e (.position, none) = some (.int p)) :
    Sim (std L ints) F V V e
      (.seq
        (.assign (.idx true (.tensor_temp, none) (.var (.position, none))) .set (.idx true src.ident
            (.bin .add (.var (.j, none)) (.bin .mul (.num W) (.bin .add (.var (.i, none)) (.bin .mul
            (.num H) (.var (.f, none))))))))
        (.seq
          (.assign (.idx true (.tensor_temp, none) (.var (.position, none))) .set (act.expr (.idx true
              (.tensor_temp, none) (.var (.position, none)))))
          (.incr (.position, none))))
      (gatherInner W H (act.fn (std L ints)) src.buf f i j p) (fun p' => upd e (.position, none) (.int p')) := by
  refine Sim.seq₂ (Sim.store (b := .temp) (za := p) (q := load src.buf ((j + W * (i + H * f) : Nat) : Int)) (by simp)
    (by simpa [Expr.vars] using hVp) (by simp [Expr.vars, hVf, hVi, hVj]) (by ceval [hp])
    (by ceval [hf, hi, hj])) fun _ => Sim.seq₂
      (Sim.storeAct (b := .temp) (za := p) (q := load .temp p) (by simp) (by simpa [Expr.vars] using hVp)
        (by simpa [Expr.vars] using hVp) (by ceval [hp]) (Reads.load _ _) (by ceval [hp]) (by simp [isFlt])) fun _ =>
      Sim.incr (z := p) hp hVp (Agree.refl _ _)

theorem gather_renders (L : Lib K) (ints : Ident → Option (List Nat)) (a : Np.Axis) (l : List Nat)
    (W H Co Ho Wo size idx : Nat) (act : CAct K) (src : Ref) (road : Nat) (hl : ints (indices idx) = some l) :
    Renders (std L ints) Tpl.gather (gatherHash a l.length W H Co Ho Wo size idx act src road)
      [((.f, none), .int), ((.i, none), .int), ((.j, none), .int), ((.k, none), .int), ((.position, none), .int)]
      (gatherCode a l W H Co Ho Wo size (act.fn (std L ints)) src.buf road) := by
  have hl' : (std L ints).ints (indices idx) = some l := hl
  have key : ∀ k : Nat, (ofOpt (intAt l (k : Int)) : Prog K (Val K)) =
      andThen (loadIdx l k) fun z => ret (.int z) :=
    fun k => intAt_loadIdx _ _ _ rfl
  have hset : ∀ (F : Nat) (V : List Ident) (e : Env K) (x : Ident) (k : Nat) (z : Int), e x = some (.int z) → x ∉ V →
      (.k, none) ∉ V → (indices idx) ∉ V → e (.k, none) = some (.int k) →
      Sim (std L ints) F V V e (.assign (.var x) .set (.idx false (indices idx) (.var (.k, none)))) (loadIdx l k)
        (fun v => upd e x (.int v)) := by
    intro F V e x k z hx hxV hkV hiV hk
    refine Sim.set (val := fun v : Nat => .int v) hx hxV (by simp [Expr.vars, hkV, hiV]) ?_
    ceval [hl', key, hk]
  cases a
  · refine Renders.of_sim (l.length + Ho + Wo + size + 1) (gatherC_code l.length W H Co Ho Wo size idx act src road) fun e he F hF => ?_
    have hp := he.int (.position, none) (by simp)
    have hf := he.int (.f, none) (by simp)
    have hi := he.int (.i, none) (by simp)
    have hj := he.int (.j, none) (by simp)
    have hk := he.int (.k, none) (by simp)
    refine Sim.int (.position, none) hp fun v => ?_
    refine Sim.seq' (x := ()) (Sim.set (old := .int v) (val := fun _ => .int 0) (by simp [upd]) (by simp)
      (by simp [Expr.vars]) (by ceval)) ?_
    rw [upd_upd]
    refine Sim.seq (Sim.fold (base := fun p : Nat => upd e (.position, none) (.int p)) (by simp) (by simp) (by omega)
      (fun _ => by simpa [IsInt, upd] using hk) fun k _ p => Sim.block' ?_ rfl) fun p => ?_
    · refine Sim.int (.f, none) (by simpa [IsInt, upd] using hf) fun v => ?_
      refine Sim.seq (hset _ _ _ _ k v (by simp [upd]) (by simp) (by simp) (by simp) (by simp [upd])) fun f => ?_
      rw [upd_upd]
      refine Sim.forget (.f, none) (val := fun _ => .int f) ?_ (by simp) fun b => sameTy_int (by simpa [IsInt, upd] using hf)
      refine Sim.fold (base := fun p : Nat => upd (upd (upd e (.position, none) (.int p)) (.k, none) (.int k)) (.f, none) (.int f))
        (by simp) (by simp) (by omega) (fun _ => by simpa [IsInt, upd] using hi) fun i _ p => Sim.block' ?_ rfl
      refine Sim.fold (base := fun p : Nat => upd (upd (upd (upd e (.position, none) (.int p)) (.k, none) (.int k)) (.f, none) (.int f))
        (.i, none) (.int i)) (by simp) (by simp) (by omega) (fun _ => by simpa [IsInt, upd] using hj) fun j _ p => Sim.block' ?_ rfl
      refine (gatherInner_sim L ints W H act src f i j p (by simp) (by simp) (by simp) (by simp) (by simp [upd])
        (by simp [upd]) (by simp [upd]) (by simp [upd])).weaken (fun b => ?_) fun _ h => h
      env_rfl
    · refine Sim.forget (.position, none) (val := fun _ => .int p) (Sim.copy (by simp) (by simp) (by omega) (by simpa [IsInt, upd] using hk) rfl rfl (.inl rfl))
        (by simp) fun b => sameTy_int hp
  · refine Renders.of_sim (l.length + Co + Wo + size + 1) (gatherH_code l.length W H Co Ho Wo size idx act src road) fun e he F hF => ?_
    have hp := he.int (.position, none) (by simp)
    have hf := he.int (.f, none) (by simp)
    have hi := he.int (.i, none) (by simp)
    have hj := he.int (.j, none) (by simp)
    have hk := he.int (.k, none) (by simp)
    refine Sim.int (.position, none) hp fun v => ?_
    refine Sim.seq' (x := ()) (Sim.set (old := .int v) (val := fun _ => .int 0) (by simp [upd]) (by simp)
      (by simp [Expr.vars]) (by ceval)) ?_
    rw [upd_upd]
    refine Sim.seq (Sim.fold (base := fun p : Nat => upd e (.position, none) (.int p)) (by simp) (by simp) (by omega)
      (fun _ => by simpa [IsInt, upd] using hf) fun f _ p => Sim.block' ?_ rfl) fun p => ?_
    · refine Sim.fold (base := fun p : Nat => upd (upd e (.position, none) (.int p)) (.f, none) (.int f))
        (by simp) (by simp) (by omega) (fun _ => by simpa [IsInt, upd] using hk) fun k _ p => Sim.block' ?_ rfl
      refine Sim.int (.i, none) (by simpa [IsInt, upd] using hi) fun v => ?_
      refine Sim.seq (hset _ _ _ _ k v (by simp [upd]) (by simp) (by simp) (by simp) (by simp [upd])) fun i => ?_
      rw [upd_upd]
      refine Sim.forget (.i, none) (val := fun _ => .int i) ?_ (by simp) fun b => sameTy_int (by simpa [IsInt, upd] using hi)
      refine Sim.fold (base := fun p : Nat => upd (upd (upd (upd e (.position, none) (.int p)) (.f, none) (.int f)) (.k, none) (.int k))
        (.i, none) (.int i)) (by simp) (by simp) (by omega) (fun _ => by simpa [IsInt, upd] using hj) fun j _ p => Sim.block' ?_ rfl
      refine (gatherInner_sim L ints W H act src f i j p (by simp) (by simp) (by simp) (by simp) (by simp [upd])
        (by simp [upd]) (by simp [upd]) (by simp [upd])).weaken (fun b => ?_) fun _ h => h
      env_rfl
    · refine Sim.forget (.position, none) (val := fun _ => .int p) (Sim.copy (by simp) (by simp) (by omega) (by simpa [IsInt, upd] using hk) rfl rfl (.inl rfl))
        (by simp) fun b => sameTy_int hp
  · refine Renders.of_sim (l.length + Co + Ho + size + 1) (gatherW_code l.length W H Co Ho Wo size idx act src road) fun e he F hF => ?_
    have hp := he.int (.position, none) (by simp)
    have hf := he.int (.f, none) (by simp)
    have hi := he.int (.i, none) (by simp)
    have hj := he.int (.j, none) (by simp)
    have hk := he.int (.k, none) (by simp)
    refine Sim.int (.position, none) hp fun v => ?_
    refine Sim.seq' (x := ()) (Sim.set (old := .int v) (val := fun _ => .int 0) (by simp [upd]) (by simp)
      (by simp [Expr.vars]) (by ceval)) ?_
    rw [upd_upd]
    refine Sim.seq (Sim.fold (base := fun p : Nat => upd e (.position, none) (.int p)) (by simp) (by simp) (by omega)
      (fun _ => by simpa [IsInt, upd] using hf) fun f _ p => Sim.block' ?_ rfl) fun p => ?_
    · refine Sim.fold (base := fun p : Nat => upd (upd e (.position, none) (.int p)) (.f, none) (.int f))
        (by simp) (by simp) (by omega) (fun _ => by simpa [IsInt, upd] using hi) fun i _ p => Sim.block' ?_ rfl
      refine Sim.fold (base := fun p : Nat => upd (upd (upd e (.position, none) (.int p)) (.f, none) (.int f)) (.i, none) (.int i))
        (by simp) (by simp) (by omega) (fun _ => by simpa [IsInt, upd] using hk) fun k _ p => Sim.block' ?_ rfl
      refine Sim.int (.j, none) (by simpa [IsInt, upd] using hj) fun v => ?_
      refine Sim.seq (hset _ _ _ _ k v (by simp [upd]) (by simp) (by simp) (by simp) (by simp [upd])) fun j => ?_
      rw [upd_upd]
      refine Sim.forget (.j, none) (val := fun _ => .int j) ?_ (by simp) fun b => sameTy_int (by simpa [IsInt, upd] using hj)
      refine (gatherInner_sim L ints W H act src f i j p (by simp) (by simp) (by simp) (by simp) (by simp [upd])
        (by simp [upd]) (by simp [upd]) (by simp [upd])).weaken (fun b => ?_) fun _ h => h
      env_rfl
    · refine Sim.forget (.position, none) (val := fun _ => .int p) (Sim.copy (by simp) (by simp) (by omega) (by simpa [IsInt, upd] using hk) rfl rfl (.inl rfl))
        (by simp) fun b => sameTy_int hp

end Verif.CText

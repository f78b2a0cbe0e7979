import Verif.CText.GemmCode
import Verif.CText.Rules

/-!
# The texts of Gemm
-/

namespace Verif.CText
open Prog Layers
set_option linter.unusedVariables false
set_option linter.unusedSectionVars false
variable {K : Type} [Field K] [LinearOrder K] [FloorRing K]
variable {ints : Ident → Option (List Nat)}

/-- the prefix in the model: the attribute is a list -/
def scaleList (q : Option (SNum K)) : List K := match q with | none => [] | some q => [q.val]

theorem eval_scaled {G : Globals K} {e : Env K} (q : Option (SNum K)) {a : Expr K} {b : Buf} {z : Int}
    (ha : a.eval G e = (load b z >>= fun x => ret (.flt x))) :
    (scaledE q a).eval G e = (load b z >>= fun x => ret (.flt (scaled (scaleList q) x))) := by
  cases q with
  | none => exact ha
  | some q => simp [scaledE, Expr.eval, SNum.eval, ret_andThen, ha, andThen_assoc, ofOpt, binOp, fltOp, scaled, scaleList]

theorem scaled_vars {V : List Ident} (q : Option (SNum K)) {a : Expr K} (ha : ∀ y ∈ a.vars, y ∉ V) : ∀ y ∈ (scaledE q a).vars, y ∉ V := by
  rcases q with _ | ⟨_ | _, q⟩
  · exact ha
  · simpa [scaledE, SNum.expr, Expr.vars] using ha
  · simpa [scaledE, SNum.expr, Expr.vars] using ha

set_option maxHeartbeats 1000000 in
theorem gemmNN_renders (L : Lib K) (m n inH inW size idx : Nat) (alpha beta : Option (SNum K)) (act : CAct K) (src : Ref) (road : Nat) :
    Renders (std L ints) Tpl.gemm (gemmNNHash m n inW (n * m) size idx alpha beta act src road)
      [((.i, none), .int), ((.j, none), .int), ((.k, none), .int), ((.p, none), .int)]
      (gemmCode false false m n inH inW size idx (scaleList alpha) (scaleList beta) (act.fn (std L ints)) src.buf road) := by
  obtain ⟨k, hk⟩ : ∃ k, inW = k := ⟨_, rfl⟩
  rw [hk]
  refine Renders.of_sim (m + n + k + n * m + size + 1) (gemmNN_code ..) fun e he F hF => ?_
  have ti := he.int (.i, none) (by simp)
  have tj := he.int (.j, none) (by simp)
  have tk := he.int (.k, none) (by simp)
  have tp := he.int (.p, none) (by simp)
  unfold gemmCode gemmAlgo gemmLoops
  simp only [Bool.false_eq_true, if_false]
  refine Sim.seq (Sim.for' (by simp) (by simp) (by omega) tk rfl fun q _ => ?_) fun _ =>
    Sim.seq (Sim.for' (by simp) (by simp) (by omega) ti rfl fun i _ => Sim.for (by simp) (by simp) (by omega)
      (by simpa [IsInt, upd] using tj) fun j _ => ?_)
    fun _ => Sim.copy (by simp) (by simp) (by omega) tk (by simp) (by simp) (.inl rfl)
  · exact (Sim.store (b := .temp) (za := q) (q := ret 0) (by simp) (by simp [Expr.vars]) (by simp [Expr.vars]) (by ceval) (by ceval)).congr (ret_andThen _ _)
  · refine (Sim.blockD (V := [(.k, none), (.p, none)]) (V' := [(.output, none), (.k, none), (.p, none)])
      (post := fun _ => upd (upd (upd e (.i, none) (.int i)) (.j, none) (.int j)) (.output, none) (.flt 0)) (Sim.seq' (x := ()) (mid := fun _ => upd (upd (upd e (.i, none) (.int i)) (.j, none) (.int j)) (.output, none) (.flt 0))
      (Sim.decl (val := fun _ => .flt 0) (by simp [Expr.vars]) (by ceval)) (Sim.seq (Sim.fold (base := fun s => upd (upd (upd e (.i, none) (.int i)) (.j, none) (.int j)) (.output, none) (.flt s))
        (by simp) (by simp) (by omega) (fun _ => by simpa [upd, IsInt] using tp) fun p _ s => Sim.block' ?_ rfl) fun s => ?_)) (by simp [decls])).weaken ?_ (fun _ h => h)
    · refine Sim.set' (q := load src.buf ((i * k + p : Nat) : Int) >>= fun a => load (.par .weights idx) ((p * n + j : Nat) : Int) >>= fun b => ret (s + scaled (scaleList alpha) a * b))
        (old := .flt s) (val := fun x => .flt x) (by simp [upd]) (by simp) ?_ ?_ fun b => by env_rfl
      · intro y hy
        simp only [Expr.vars, List.mem_append] at hy
        rcases hy with hy | hy
        · exact scaled_vars alpha (V := [(.k, none)]) (by simp [Expr.vars]) y hy
        · simp only [List.mem_cons, List.not_mem_nil, or_false, List.append_nil, List.singleton_append] at hy
          rcases hy with rfl | rfl | rfl <;> simp
      · simp only [Expr.eval]
        rw [eval_scaled alpha (b := src.buf) (z := (i * k + p : Nat)) (by ceval)]
        ceval
    · refine Sim.seq (mid := fun c => upd (upd (upd e (.i, none) (.int i)) (.j, none) (.int j)) (.output, none) (.flt (s + scaled (scaleList beta) c)))
        (Sim.set' (q := load (.par .biases idx) (j : Int)) (old := .flt s) (val := fun c => .flt (s + scaled (scaleList beta) c)) (by simp [upd]) (by simp)
          (scaled_vars beta (by simp [Expr.vars])) ?_ fun b => by rw [upd_upd]; exact Agree.refl _ _)
        fun c => ?_
      · rw [eval_scaled beta (b := .par .biases idx) (z := j) (by ceval)]
        ceval
      · refine Sim.forget (.output, none) (val := fun _ => .flt (s + scaled (scaleList beta) c)) ?_ (by simp) (fun _ => by simp [upd, sameTy])
        simp only [upd_upd]
        exact (Sim.storeAct (b := .temp) (za := (i * n + j : Nat)) (q := ret (s + scaled (scaleList beta) c)) (by simp) (by simp [Expr.vars]) (by simp [Expr.vars]) (by ceval) (Reads.ret _) (by ceval) (by simp [isFlt, upd])).congr rfl
    · intro b
      refine Agree.of_eq ?_
      funext z
      by_cases hz : z = (.output, none) <;> simp [restore, decls, upd, hz]

set_option maxHeartbeats 1000000 in
theorem gemmNT_renders (L : Lib K) (m n inH inW size idx : Nat) (alpha beta : Option (SNum K)) (act : CAct K) (src : Ref) (road : Nat) :
    Renders (std L ints) Tpl.gemm (gemmNTHash m n inW (n * m) size idx alpha beta act src road)
      [((.i, none), .int), ((.j, none), .int), ((.k, none), .int), ((.p, none), .int)]
      (gemmCode false true m n inH inW size idx (scaleList alpha) (scaleList beta) (act.fn (std L ints)) src.buf road) := by
  obtain ⟨k, hk⟩ : ∃ k, inW = k := ⟨_, rfl⟩
  rw [hk]
  refine Renders.of_sim (m + n + k + n * m + size + 1) (gemmNT_code ..) fun e he F hF => ?_
  have ti := he.int (.i, none) (by simp)
  have tj := he.int (.j, none) (by simp)
  have tk := he.int (.k, none) (by simp)
  have tp := he.int (.p, none) (by simp)
  unfold gemmCode gemmAlgo gemmLoops
  simp only [Bool.false_eq_true, if_false]
  refine Sim.seq (Sim.for' (by simp) (by simp) (by omega) tk rfl fun q _ => ?_) fun _ =>
    Sim.seq (Sim.for' (by simp) (by simp) (by omega) ti rfl fun i _ => Sim.for (by simp) (by simp) (by omega)
      (by simpa [IsInt, upd] using tj) fun j _ => ?_)
    fun _ => Sim.copy (by simp) (by simp) (by omega) tk (by simp) (by simp) (.inl rfl)
  · exact (Sim.store (b := .temp) (za := q) (q := ret 0) (by simp) (by simp [Expr.vars]) (by simp [Expr.vars]) (by ceval) (by ceval)).congr (ret_andThen _ _)
  · refine (Sim.blockD (V := [(.k, none), (.p, none)]) (V' := [(.output, none), (.k, none), (.p, none)])
      (post := fun _ => upd (upd (upd e (.i, none) (.int i)) (.j, none) (.int j)) (.output, none) (.flt 0)) (Sim.seq' (x := ()) (mid := fun _ => upd (upd (upd e (.i, none) (.int i)) (.j, none) (.int j)) (.output, none) (.flt 0))
      (Sim.decl (val := fun _ => .flt 0) (by simp [Expr.vars]) (by ceval)) (Sim.seq (Sim.fold (base := fun s => upd (upd (upd e (.i, none) (.int i)) (.j, none) (.int j)) (.output, none) (.flt s))
        (by simp) (by simp) (by omega) (fun _ => by simpa [upd, IsInt] using tp) fun p _ s => Sim.block' ?_ rfl) fun s => ?_)) (by simp [decls])).weaken ?_ (fun _ h => h)
    · refine Sim.set' (q := load src.buf ((i * k + p : Nat) : Int) >>= fun a => load (.par .weights idx) ((j * k + p : Nat) : Int) >>= fun b => ret (s + scaled (scaleList alpha) a * b))
        (old := .flt s) (val := fun x => .flt x) (by simp [upd]) (by simp) ?_ ?_ fun b => by env_rfl
      · intro y hy
        simp only [Expr.vars, List.mem_append] at hy
        rcases hy with hy | hy
        · exact scaled_vars alpha (V := [(.k, none)]) (by simp [Expr.vars]) y hy
        · simp only [List.mem_cons, List.not_mem_nil, or_false, List.append_nil, List.singleton_append] at hy
          rcases hy with rfl | rfl | rfl <;> simp
      · simp only [Expr.eval]
        rw [eval_scaled alpha (b := src.buf) (z := (i * k + p : Nat)) (by ceval)]
        ceval
    · refine Sim.seq (mid := fun c => upd (upd (upd e (.i, none) (.int i)) (.j, none) (.int j)) (.output, none) (.flt (s + scaled (scaleList beta) c)))
        (Sim.set' (q := load (.par .biases idx) (j : Int)) (old := .flt s) (val := fun c => .flt (s + scaled (scaleList beta) c)) (by simp [upd]) (by simp)
          (scaled_vars beta (by simp [Expr.vars])) ?_ fun b => by rw [upd_upd]; exact Agree.refl _ _)
        fun c => ?_
      · rw [eval_scaled beta (b := .par .biases idx) (z := j) (by ceval)]
        ceval
      · refine Sim.forget (.output, none) (val := fun _ => .flt (s + scaled (scaleList beta) c)) ?_ (by simp) (fun _ => by simp [upd, sameTy])
        simp only [upd_upd]
        exact (Sim.storeAct (b := .temp) (za := (i * n + j : Nat)) (q := ret (s + scaled (scaleList beta) c)) (by simp) (by simp [Expr.vars]) (by simp [Expr.vars]) (by ceval) (Reads.ret _) (by ceval) (by simp [isFlt, upd])).congr rfl
    · intro b
      refine Agree.of_eq ?_
      funext z
      by_cases hz : z = (.output, none) <;> simp [restore, decls, upd, hz]

set_option maxHeartbeats 1000000 in
theorem gemmTN_renders (L : Lib K) (m n inH inW size idx : Nat) (alpha beta : Option (SNum K)) (act : CAct K) (src : Ref) (road : Nat) :
    Renders (std L ints) Tpl.gemm (gemmTNHash m n inH (n * m) size idx alpha beta act src road)
      [((.i, none), .int), ((.j, none), .int), ((.k, none), .int), ((.p, none), .int)]
      (gemmCode true false m n inH inW size idx (scaleList alpha) (scaleList beta) (act.fn (std L ints)) src.buf road) := by
  obtain ⟨k, hk⟩ : ∃ k, inH = k := ⟨_, rfl⟩
  rw [hk]
  refine Renders.of_sim (m + n + k + n * m + size + 1) (gemmTN_code ..) fun e he F hF => ?_
  have ti := he.int (.i, none) (by simp)
  have tj := he.int (.j, none) (by simp)
  have tk := he.int (.k, none) (by simp)
  have tp := he.int (.p, none) (by simp)
  unfold gemmCode gemmAlgo gemmLoops
  simp only [if_true]
  refine Sim.seq (Sim.for' (by simp) (by simp) (by omega) tk rfl fun q _ => ?_) fun _ =>
    Sim.seq (Sim.for' (by simp) (by simp) (by omega) ti rfl fun i _ => Sim.for (by simp) (by simp) (by omega)
      (by simpa [IsInt, upd] using tj) fun j _ => ?_)
    fun _ => Sim.copy (by simp) (by simp) (by omega) tk (by simp) (by simp) (.inl rfl)
  · exact (Sim.store (b := .temp) (za := q) (q := ret 0) (by simp) (by simp [Expr.vars]) (by simp [Expr.vars]) (by ceval) (by ceval)).congr (ret_andThen _ _)
  · refine (Sim.blockD (V := [(.k, none), (.p, none)]) (V' := [(.output, none), (.k, none), (.p, none)])
      (post := fun _ => upd (upd (upd e (.i, none) (.int i)) (.j, none) (.int j)) (.output, none) (.flt 0)) (Sim.seq' (x := ()) (mid := fun _ => upd (upd (upd e (.i, none) (.int i)) (.j, none) (.int j)) (.output, none) (.flt 0))
      (Sim.decl (val := fun _ => .flt 0) (by simp [Expr.vars]) (by ceval)) (Sim.seq (Sim.fold (base := fun s => upd (upd (upd e (.i, none) (.int i)) (.j, none) (.int j)) (.output, none) (.flt s))
        (by simp) (by simp) (by omega) (fun _ => by simpa [upd, IsInt] using tp) fun p _ s => Sim.block' ?_ rfl) fun s => ?_)) (by simp [decls])).weaken ?_ (fun _ h => h)
    · refine Sim.set' (q := load src.buf ((p * m + i : Nat) : Int) >>= fun a => load (.par .weights idx) ((p * n + j : Nat) : Int) >>= fun b => ret (s + scaled (scaleList alpha) a * b))
        (old := .flt s) (val := fun x => .flt x) (by simp [upd]) (by simp) ?_ ?_ fun b => by env_rfl
      · intro y hy
        simp only [Expr.vars, List.mem_append] at hy
        rcases hy with hy | hy
        · exact scaled_vars alpha (V := [(.k, none)]) (by simp [Expr.vars]) y hy
        · simp only [List.mem_cons, List.not_mem_nil, or_false, List.append_nil, List.singleton_append] at hy
          rcases hy with rfl | rfl | rfl <;> simp
      · simp only [Expr.eval]
        rw [eval_scaled alpha (b := src.buf) (z := (p * m + i : Nat)) (by ceval)]
        ceval
    · refine Sim.seq (mid := fun c => upd (upd (upd e (.i, none) (.int i)) (.j, none) (.int j)) (.output, none) (.flt (s + scaled (scaleList beta) c)))
        (Sim.set' (q := load (.par .biases idx) (j : Int)) (old := .flt s) (val := fun c => .flt (s + scaled (scaleList beta) c)) (by simp [upd]) (by simp)
          (scaled_vars beta (by simp [Expr.vars])) ?_ fun b => by rw [upd_upd]; exact Agree.refl _ _)
        fun c => ?_
      · rw [eval_scaled beta (b := .par .biases idx) (z := j) (by ceval)]
        ceval
      · refine Sim.forget (.output, none) (val := fun _ => .flt (s + scaled (scaleList beta) c)) ?_ (by simp) (fun _ => by simp [upd, sameTy])
        simp only [upd_upd]
        exact (Sim.storeAct (b := .temp) (za := (i * n + j : Nat)) (q := ret (s + scaled (scaleList beta) c)) (by simp) (by simp [Expr.vars]) (by simp [Expr.vars]) (by ceval) (Reads.ret _) (by ceval) (by simp [isFlt, upd])).congr rfl
    · intro b
      refine Agree.of_eq ?_
      funext z
      by_cases hz : z = (.output, none) <;> simp [restore, decls, upd, hz]

set_option maxHeartbeats 1000000 in
theorem gemmTT_renders (L : Lib K) (m n inH inW size idx : Nat) (alpha beta : Option (SNum K)) (act : CAct K) (src : Ref) (road : Nat) :
    Renders (std L ints) Tpl.gemm (gemmTTHash m n inH (n * m) size idx alpha beta act src road)
      [((.i, none), .int), ((.j, none), .int), ((.k, none), .int), ((.p, none), .int)]
      (gemmCode true true m n inH inW size idx (scaleList alpha) (scaleList beta) (act.fn (std L ints)) src.buf road) := by
  obtain ⟨k, hk⟩ : ∃ k, inH = k := ⟨_, rfl⟩
  rw [hk]
  refine Renders.of_sim (m + n + k + n * m + size + 1) (gemmTT_code ..) fun e he F hF => ?_
  have ti := he.int (.i, none) (by simp)
  have tj := he.int (.j, none) (by simp)
  have tk := he.int (.k, none) (by simp)
  have tp := he.int (.p, none) (by simp)
  unfold gemmCode gemmAlgo gemmLoops
  simp only [if_true]
  refine Sim.seq (Sim.for' (by simp) (by simp) (by omega) tk rfl fun q _ => ?_) fun _ =>
    Sim.seq (Sim.for' (by simp) (by simp) (by omega) ti rfl fun i _ => Sim.for (by simp) (by simp) (by omega)
      (by simpa [IsInt, upd] using tj) fun j _ => ?_)
    fun _ => Sim.copy (by simp) (by simp) (by omega) tk (by simp) (by simp) (.inl rfl)
  · exact (Sim.store (b := .temp) (za := q) (q := ret 0) (by simp) (by simp [Expr.vars]) (by simp [Expr.vars]) (by ceval) (by ceval)).congr (ret_andThen _ _)
  · refine (Sim.blockD (V := [(.k, none), (.p, none)]) (V' := [(.sum, none), (.k, none), (.p, none)])
      (post := fun _ => upd (upd (upd e (.i, none) (.int i)) (.j, none) (.int j)) (.sum, none) (.flt 0)) (Sim.seq' (x := ()) (mid := fun _ => upd (upd (upd e (.i, none) (.int i)) (.j, none) (.int j)) (.sum, none) (.flt 0))
      (Sim.decl (val := fun _ => .flt 0) (by simp [Expr.vars]) (by ceval)) (Sim.seq (Sim.fold (base := fun s => upd (upd (upd e (.i, none) (.int i)) (.j, none) (.int j)) (.sum, none) (.flt s))
        (by simp) (by simp) (by omega) (fun _ => by simpa [upd, IsInt] using tp) fun p _ s => Sim.block' ?_ rfl) fun s => ?_)) (by simp [decls])).weaken ?_ (fun _ h => h)
    · refine Sim.set' (q := load src.buf ((p * m + i : Nat) : Int) >>= fun a => load (.par .weights idx) ((j * k + p : Nat) : Int) >>= fun b => ret (s + scaled (scaleList alpha) a * b))
        (old := .flt s) (val := fun x => .flt x) (by simp [upd]) (by simp) ?_ ?_ fun b => by env_rfl
      · intro y hy
        simp only [Expr.vars, List.mem_append] at hy
        rcases hy with hy | hy
        · exact scaled_vars alpha (V := [(.k, none)]) (by simp [Expr.vars]) y hy
        · simp only [List.mem_cons, List.not_mem_nil, or_false, List.append_nil, List.singleton_append] at hy
          rcases hy with rfl | rfl | rfl <;> simp
      · simp only [Expr.eval]
        rw [eval_scaled alpha (b := src.buf) (z := (p * m + i : Nat)) (by ceval)]
        ceval
    · refine Sim.seq (mid := fun c => upd (upd (upd e (.i, none) (.int i)) (.j, none) (.int j)) (.sum, none) (.flt (s + scaled (scaleList beta) c)))
        (Sim.set' (q := load (.par .biases idx) (j : Int)) (old := .flt s) (val := fun c => .flt (s + scaled (scaleList beta) c)) (by simp [upd]) (by simp)
          (scaled_vars beta (by simp [Expr.vars])) ?_ fun b => by rw [upd_upd]; exact Agree.refl _ _)
        fun c => ?_
      · rw [eval_scaled beta (b := .par .biases idx) (z := j) (by ceval)]
        ceval
      · refine Sim.forget (.sum, none) (val := fun _ => .flt (s + scaled (scaleList beta) c)) ?_ (by simp) (fun _ => by simp [upd, sameTy])
        simp only [upd_upd]
        exact (Sim.storeAct (b := .temp) (za := (i * n + j : Nat)) (q := ret (s + scaled (scaleList beta) c)) (by simp) (by simp [Expr.vars]) (by simp [Expr.vars]) (by ceval) (Reads.ret _) (by ceval) (by simp [isFlt, upd])).congr rfl
    · intro b
      refine Agree.of_eq ?_
      funext z
      by_cases hz : z = (.sum, none) <;> simp [restore, decls, upd, hz]

end Verif.CText

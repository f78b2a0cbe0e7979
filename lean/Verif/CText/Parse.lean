import Verif.CText.Std

/-!
# Texts with repeated parts

The sections over lists (`{{#concat}}`, `{{#broadcast}}`) make texts whose length is not bounded, so that their reading
is proved by induction.
-/

namespace Verif.CText
open Prog
set_option linter.unusedSectionVars false
set_option linter.constructorNameAsVariable false

variable {K : Type} [Field K]

theorem inst_append (a b : List TTok) (h : Hash K) :
    inst (a ++ b) h = (match inst a h, inst b h with | some x, some y => some (x ++ y) | _, _ => none) := by
  induction a with
  | nil => simp only [List.nil_append, inst]; cases inst b h <;> rfl
  | cons t a ih =>
    simp only [List.cons_append, inst, ih]
    cases inst1 t h <;> cases inst a h <;> cases inst b h <;> simp

theorem inst_append_some {a b : List TTok} {h : Hash K} {x y : List (CTok K)} (ha : inst a h = some x) (hb : inst b h = some y) :
    inst (a ++ b) h = some (x ++ y) := by rw [inst_append, ha, hb]

theorem joinAll_map {ι : Type} (l : List ι) (f : ι → List (CTok K)) : joinAll (l.map fun i => some (f i)) = some (l.flatMap f) := by
  induction l with
  | nil => rfl
  | cons i l ih => simp [joinAll, ih]

/-- a section over a list -/
theorem inst_list {ι : Type} {k : List Char} {b : List TTok} {h : Hash K} {l : List ι} {g : ι → Hash K} {f : ι → List (CTok K)}
    (hl : h.lookup k = some (.list (l.map g))) (hf : ∀ x, inst b (g x ++ h) = some (f x)) : inst [.sec k b] h = some (l.flatMap f) := by
  simp only [inst, inst1, hl, List.map_map]
  have : ((fun h' => inst b (h' ++ h)) ∘ g) = fun x => some (f x) := funext hf
  rw [this, joinAll_map]
  simp

/-- statements one after the other, as `stmts` reads them -/
def seqs : List (Stmt K) → Stmt K
  | [] => .skip
  | [a] => a
  | a :: b :: l => .seq a (seqs (b :: l))

/-- the heads of the three loops of most templates -/
def head3 (C H W : Nat) (r : List (CTok K)) : List (CTok K) :=
  .kw .for_ :: .punct .lpar :: .id (.f, none) :: .punct .assign :: .num 0 :: .punct .semi :: .id (.f, none) :: .punct .lt :: .num C :: .punct .semi :: .id (.f, none) :: .punct .inc :: .punct .rpar :: .punct .lbrc ::
  .kw .for_ :: .punct .lpar :: .id (.i, none) :: .punct .assign :: .num 0 :: .punct .semi :: .id (.i, none) :: .punct .lt :: .num H :: .punct .semi :: .id (.i, none) :: .punct .inc :: .punct .rpar :: .punct .lbrc ::
  .kw .for_ :: .punct .lpar :: .id (.j, none) :: .punct .assign :: .num 0 :: .punct .semi :: .id (.j, none) :: .punct .lt :: .num W :: .punct .semi :: .id (.j, none) :: .punct .inc :: .punct .rpar :: .punct .lbrc :: r

/-- the same with `++x` -/
def head3' (C H W : Nat) (r : List (CTok K)) : List (CTok K) :=
  .kw .for_ :: .punct .lpar :: .id (.f, none) :: .punct .assign :: .num 0 :: .punct .semi :: .id (.f, none) :: .punct .lt :: .num C :: .punct .semi :: .punct .inc :: .id (.f, none) :: .punct .rpar :: .punct .lbrc ::
  .kw .for_ :: .punct .lpar :: .id (.i, none) :: .punct .assign :: .num 0 :: .punct .semi :: .id (.i, none) :: .punct .lt :: .num H :: .punct .semi :: .punct .inc :: .id (.i, none) :: .punct .rpar :: .punct .lbrc ::
  .kw .for_ :: .punct .lpar :: .id (.j, none) :: .punct .assign :: .num 0 :: .punct .semi :: .id (.j, none) :: .punct .lt :: .num W :: .punct .semi :: .punct .inc :: .id (.j, none) :: .punct .rpar :: .punct .lbrc :: r

/-- a loop around statements that are read up to a closing brace -/
theorem stmt_loop {n : Nat} {x : Name} {N : Nat} {r r' : List (CTok K)} {s : Stmt K} (hx : x = .f ∨ x = .i ∨ x = .j)
    (h : stmts (n + 20) r = some (s, .punct .rbrc :: r')) :
    stmt (n + 22) (.kw .for_ :: .punct .lpar :: .id (x, none) :: .punct .assign :: .num 0 :: .punct .semi :: .id (x, none) :: .punct .lt :: .num N :: .punct .semi :: .id (x, none) :: .punct .inc :: .punct .rpar :: .punct .lbrc :: r) =
      some (loop (x, none) N (.block s), r') := by
  have : stmt (n + 22) (.kw .for_ :: .punct .lpar :: .id (x, none) :: .punct .assign :: .num 0 :: .punct .semi :: .id (x, none) :: .punct .lt :: .num N :: .punct .semi :: .id (x, none) :: .punct .inc :: .punct .rpar :: .punct .lbrc :: r) =
      (match (match stmts (n + 20) r with
        | some (s, .punct .rbrc :: r') => some (.block s, r')
        | _ => none) with
      | some (b, r4) => some (loop (x, none) N b, r4)
      | none => none) := by
    rcases hx with rfl | rfl | rfl <;> kernel_rfl
  rw [this, h]

/-- the same as the only statement before a closing brace -/
theorem stmt_loops {n : Nat} {x : Name} {N : Nat} {r r' : List (CTok K)} {s : Stmt K} (hx : x = .f ∨ x = .i ∨ x = .j)
    (h : stmts (n + 20) r = some (s, .punct .rbrc :: .punct .rbrc :: r')) :
    stmts (n + 23) (.kw .for_ :: .punct .lpar :: .id (x, none) :: .punct .assign :: .num 0 :: .punct .semi :: .id (x, none) :: .punct .lt :: .num N :: .punct .semi :: .id (x, none) :: .punct .inc :: .punct .rpar :: .punct .lbrc :: r) =
      some (loop (x, none) N (.block s), .punct .rbrc :: r') := by
  have : stmts (n + 23) (.kw .for_ :: .punct .lpar :: .id (x, none) :: .punct .assign :: .num 0 :: .punct .semi :: .id (x, none) :: .punct .lt :: .num N :: .punct .semi :: .id (x, none) :: .punct .inc :: .punct .rpar :: .punct .lbrc :: r) =
      (match stmt (n + 22) (.kw .for_ :: .punct .lpar :: .id (x, none) :: .punct .assign :: .num 0 :: .punct .semi :: .id (x, none) :: .punct .lt :: .num N :: .punct .semi :: .id (x, none) :: .punct .inc :: .punct .rpar :: .punct .lbrc :: r) with
      | some (a, r) =>
        match stmts (n + 22) r with
        | some (.skip, r') => some (a, r')
        | some (b, r') => some (.seq a b, r')
        | none => none
      | none => none) := rfl
  rw [this, stmt_loop hx h]
  rfl

/-- a loop around statements that are read up to a closing brace -/
theorem stmt_loop' {n : Nat} {x : Name} {N : Nat} {r r' : List (CTok K)} {s : Stmt K} (hx : x = .f ∨ x = .i ∨ x = .j)
    (h : stmts (n + 20) r = some (s, .punct .rbrc :: r')) :
    stmt (n + 22) (.kw .for_ :: .punct .lpar :: .id (x, none) :: .punct .assign :: .num 0 :: .punct .semi :: .id (x, none) :: .punct .lt :: .num N :: .punct .semi :: .punct .inc :: .id (x, none) :: .punct .rpar :: .punct .lbrc :: r) =
      some (loop (x, none) N (.block s), r') := by
  have : stmt (n + 22) (.kw .for_ :: .punct .lpar :: .id (x, none) :: .punct .assign :: .num 0 :: .punct .semi :: .id (x, none) :: .punct .lt :: .num N :: .punct .semi :: .punct .inc :: .id (x, none) :: .punct .rpar :: .punct .lbrc :: r) =
      (match (match stmts (n + 20) r with
        | some (s, .punct .rbrc :: r') => some (.block s, r')
        | _ => none) with
      | some (b, r4) => some (loop (x, none) N b, r4)
      | none => none) := by
    rcases hx with rfl | rfl | rfl <;> kernel_rfl
  rw [this, h]

/-- the same as the only statement before a closing brace -/
theorem stmt_loop's {n : Nat} {x : Name} {N : Nat} {r r' : List (CTok K)} {s : Stmt K} (hx : x = .f ∨ x = .i ∨ x = .j)
    (h : stmts (n + 20) r = some (s, .punct .rbrc :: .punct .rbrc :: r')) :
    stmts (n + 23) (.kw .for_ :: .punct .lpar :: .id (x, none) :: .punct .assign :: .num 0 :: .punct .semi :: .id (x, none) :: .punct .lt :: .num N :: .punct .semi :: .punct .inc :: .id (x, none) :: .punct .rpar :: .punct .lbrc :: r) =
      some (loop (x, none) N (.block s), .punct .rbrc :: r') := by
  have : stmts (n + 23) (.kw .for_ :: .punct .lpar :: .id (x, none) :: .punct .assign :: .num 0 :: .punct .semi :: .id (x, none) :: .punct .lt :: .num N :: .punct .semi :: .punct .inc :: .id (x, none) :: .punct .rpar :: .punct .lbrc :: r) =
      (match stmt (n + 22) (.kw .for_ :: .punct .lpar :: .id (x, none) :: .punct .assign :: .num 0 :: .punct .semi :: .id (x, none) :: .punct .lt :: .num N :: .punct .semi :: .punct .inc :: .id (x, none) :: .punct .rpar :: .punct .lbrc :: r) with
      | some (a, r) =>
        match stmts (n + 22) r with
        | some (.skip, r') => some (a, r')
        | some (b, r') => some (.seq a b, r')
        | none => none
      | none => none) := rfl
  rw [this, stmt_loop' hx h]
  rfl

/-- the three loops -/
theorem stmt_head3 {n C H W : Nat} {r r' : List (CTok K)} {s : Stmt K} (h : stmts (n + 20) r = some (s, .punct .rbrc :: .punct .rbrc :: .punct .rbrc :: r')) :
    stmt (n + 28) (head3 C H W r) = some (loop (.f, none) C (.block (loop (.i, none) H (.block (loop (.j, none) W (.block s))))), r') := by
  have h1 := stmt_loops (x := .j) (N := W) (.inr (.inr rfl)) h
  have h2 := stmt_loops (n := n + 3) (x := .i) (N := H) (.inr (.inl rfl)) h1
  exact stmt_loop (n := n + 6) (x := .f) (N := C) (.inl rfl) h2

/-- the three loops -/
theorem stmt_head3' {n C H W : Nat} {r r' : List (CTok K)} {s : Stmt K} (h : stmts (n + 20) r = some (s, .punct .rbrc :: .punct .rbrc :: .punct .rbrc :: r')) :
    stmt (n + 28) (head3' C H W r) = some (loop (.f, none) C (.block (loop (.i, none) H (.block (loop (.j, none) W (.block s))))), r') := by
  have h1 := stmt_loop's (x := .j) (N := W) (.inr (.inr rfl)) h
  have h2 := stmt_loop's (n := n + 3) (x := .i) (N := H) (.inr (.inl rfl)) h1
  exact stmt_loop' (n := n + 6) (x := .f) (N := C) (.inl rfl) h2

end Verif.CText

/-
C39 (no file is overwritten) and C41 (alignment of the binary parameter file).
-/
import Verif.Gen.Files
import Mathlib.Data.Nat.Bitwise
import Mathlib.Tactic.Ring
import Mathlib.Algebra.Order.Ring.Int

namespace Verif.Gen

/-! ### C39 -/

theorem checkAbsent_exists (fs : FS) (files : List FName) (f : String)
    (hf : FName.str f ∈ files) (he : (fs f).isSome) :
    ∃ e, checkAbsent fs files = .error e ∧ ((∀ g ∈ files, g ≠ .tuple) → e = .fileExists) := by
  induction files with
  | nil => simp at hf
  | cons g files ih =>
    cases g with
    | tuple => exact ⟨.typeError, rfl, fun h => absurd rfl (h _ (List.mem_cons_self ..))⟩
    | str g =>
      simp only [checkAbsent]
      split
      · exact ⟨_, rfl, fun _ => rfl⟩
      · rename_i hg
        rcases List.mem_cons.mp hf with h | h
        · simp only [FName.str.injEq] at h
          rw [h] at he; exact absurd he hg
        · obtain ⟨e, h1, h2⟩ := ih h
          exact ⟨e, h1, fun h => h2 fun g hg => h g (List.mem_cons_of_mem _ hg)⟩

theorem checkAbsent_ok (fs : FS) (files : List FName) :
    checkAbsent fs files = .ok () ↔
      (∀ g ∈ files, g ≠ .tuple) ∧ ∀ f, FName.str f ∈ files → fs f = none := by
  induction files with
  | nil => simp [checkAbsent]
  | cons g files ih =>
    cases g with
    | tuple => simp [checkAbsent]
    | str g =>
      simp only [checkAbsent]
      split
      · rename_i h
        simp only [reduceCtorEq, List.mem_cons, false_iff, not_and, not_forall]
        intro _
        refine ⟨g, Or.inl rfl, fun hc => ?_⟩
        rw [hc] at h; simp at h
      · rename_i h
        rw [ih]
        simp only [Option.not_isSome_iff_eq_none] at h
        constructor
        · rintro ⟨h1, h2⟩
          refine ⟨?_, ?_⟩
          · intro x hx
            rcases List.mem_cons.mp hx with rfl | hx
            · simp
            · exact h1 x hx
          · intro f hf
            rcases List.mem_cons.mp hf with hf | hf
            · simp only [FName.str.injEq] at hf; rw [hf]; exact h
            · exact h2 f hf
        · rintro ⟨h1, h2⟩
          exact ⟨fun x hx => h1 x (List.mem_cons_of_mem _ hx),
            fun f hf => h2 f (List.mem_cons_of_mem _ hf)⟩

/-- C39.  If one of the announced files exists, `generate_c_files` raises and writes nothing, at
whatever point the process could be stopped. -/
theorem C39_refuses (files : List FName) (fns : List (Option (List GenFn))) (crash : Option Nat)
    (fs : FS) (f : String) (hf : FName.str f ∈ files) (he : (fs f).isSome) :
    ∃ e, generateCFiles files fns crash fs = (fs, some e) ∧
      ((∀ g ∈ files, g ≠ .tuple) → e = .fileExists) := by
  obtain ⟨e, h1, h2⟩ := checkAbsent_exists fs files f hf he
  exact ⟨e, by simp only [generateCFiles, h1], h2⟩

theorem runFns_other (fns : List GenFn) (fs : FS) (f : String)
    (h : ∀ g ∈ fns, g.file ≠ f) : runFns fns fs f = fs f := by
  unfold runFns
  induction fns generalizing fs with
  | nil => rfl
  | cons g fns ih =>
    rw [List.foldl_cons, ih _ (fun g' hg' => h g' (List.mem_cons_of_mem _ hg'))]
    have : f ≠ g.file := fun e => h g (List.mem_cons_self ..) e.symm
    simp [GenFn.run, this]

/-- C39.  When every generation function opens an announced file only, no file that exists before
the call is changed, whatever the outcome and wherever the process stops. -/
theorem C39_no_overwrite (files : List FName) (fns : List (Option (List GenFn)))
    (crash : Option Nat) (fs : FS)
    (hann : ∀ l ∈ fns, ∀ g ∈ l.getD [], FName.str g.file ∈ files)
    (f : String) (c : String) (hf : fs f = some c) :
    (generateCFiles files fns crash fs).1 f = some c := by
  unfold generateCFiles
  rcases h : checkAbsent fs files with e | u
  · exact hf
  · have hok := ((checkAbsent_ok fs files).mp (by rw [h])).2
    have hne : ∀ g ∈ fns.flatMap (fun l => l.getD []), g.file ≠ f := by
      intro g hg hc
      obtain ⟨l, hl, hg'⟩ := List.mem_flatMap.mp hg
      have := hok g.file (hann l hl g hg')
      rw [hc, hf] at this
      simp at this
    dsimp only
    cases crash with
    | none => dsimp only; rw [runFns_other _ _ _ hne, hf]
    | some k =>
      dsimp only
      rw [runFns_other _ _ _ (fun g hg => hne g (List.mem_of_mem_take hg)), hf]

theorem runFns_distinct (fns : List GenFn) (hm : ∀ g ∈ fns, g.mode = .append)
    (hd : (fns.map GenFn.file).Nodup) (fs : FS) (hfs : ∀ g ∈ fns, fs g.file = none)
    (g : GenFn) (hg : g ∈ fns) : runFns fns fs g.file = some g.text := by
  unfold runFns
  induction fns generalizing fs with
  | nil => simp at hg
  | cons a fns ih =>
    simp only [List.map_cons, List.nodup_cons] at hd
    rw [List.foldl_cons]
    rcases List.mem_cons.mp hg with rfl | hg'
    · have := runFns_other fns (g.run fs) g.file (fun g' hg' hc =>
        hd.1 (hc ▸ List.mem_map_of_mem hg'))
      unfold runFns at this
      rw [this]
      simp [GenFn.run, hm g (List.mem_cons_self ..), hfs g (List.mem_cons_self ..)]
    · refine ih (fun x hx => hm x (List.mem_cons_of_mem _ hx)) hd.2 _ ?_ hg'
      intro x hx
      have hne : x.file ≠ a.file := fun hc => hd.1 (hc ▸ List.mem_map_of_mem hx)
      simp only [GenFn.run, hne, if_false]
      exact hfs x (List.mem_cons_of_mem _ hx)

/-- The files announced by the default configuration. -/
def announced (cfg : GenConfig) : List String :=
  ["main.c", "test_dataset.h", "inference.c", "inference.h", "global_vars.c", "parameters.c",
    "train_hook.c", "Makefile"] ++
  (if cfg.readExtInput then [] else ["test_dataset.c"]) ++
  (if cfg.genericTarget then [] else ["target.c", "target.h"])

theorem select_default (cfg : GenConfig) (hbin : cfg.binDataset = false) :
    ∃ fns, selectGenerationFunctions cfg [] = .ok ((announced cfg).map FName.str, fns) ∧
      fns.flatMap (fun l => l.getD []) =
        (announced cfg).map (fun f => (⟨f, .append, cfg.text f⟩ : GenFn)) := by
  obtain ⟨r, t, b, text⟩ := cfg
  simp only at hbin
  subst hbin
  cases r <;> cases t <;>
    exact ⟨_, rfl, rfl⟩

/-- C39.  Without custom functions and without the binary parameter file: if no announced file
exists, the call succeeds, creates exactly the announced files with their text and leaves every
other file alone. -/
theorem C39_creates (cfg : GenConfig) (hbin : cfg.binDataset = false) :
    ∃ fns, selectGenerationFunctions cfg [] = .ok ((announced cfg).map FName.str, fns) ∧
      ∀ fs : FS, (∀ f ∈ announced cfg, fs f = none) →
        ∃ fs', generateCFiles ((announced cfg).map FName.str) fns none fs = (fs', none) ∧
          (∀ f ∈ announced cfg, fs' f = some (cfg.text f)) ∧
          (∀ f, f ∉ announced cfg → fs' f = fs f) := by
  obtain ⟨fns, h1, h2⟩ := select_default cfg hbin
  refine ⟨fns, h1, fun fs hfs => ?_⟩
  have hok : checkAbsent fs ((announced cfg).map FName.str) = .ok () := by
    rw [checkAbsent_ok]
    refine ⟨?_, ?_⟩
    · intro g hg
      obtain ⟨f, -, rfl⟩ := List.mem_map.mp hg
      simp
    · intro f hf
      obtain ⟨f', hf', h⟩ := List.mem_map.mp hf
      simp only [FName.str.injEq] at h
      exact h ▸ hfs f' hf'
  refine ⟨_, by simp only [generateCFiles, hok, h2]; rfl, ?_, ?_⟩
  · intro f hf
    have hnd : (announced cfg).Nodup := by
      obtain ⟨r, t, b, text⟩ := cfg
      cases r <;> cases t <;> simp only [announced, Bool.false_eq_true, if_false, if_true] <;>
        decide
    have := runFns_distinct ((announced cfg).map (fun f => (⟨f, .append, cfg.text f⟩ : GenFn)))
      (by intro g hg; obtain ⟨x, -, rfl⟩ := List.mem_map.mp hg; rfl)
      (by rw [List.map_map]; simpa [Function.comp_def] using hnd) fs
      (by intro g hg; obtain ⟨x, hx, rfl⟩ := List.mem_map.mp hg; exact hfs x hx)
      ⟨f, .append, cfg.text f⟩ (List.mem_map_of_mem hf)
    exact this
  · intro f hf
    refine runFns_other _ _ _ ?_
    intro g hg hc
    obtain ⟨x, hx, rfl⟩ := List.mem_map.mp hg
    exact hf (hc ▸ hx)

/-- C39.  A second generation into the same directory is refused and changes nothing. -/
theorem C39_twice (cfg : GenConfig) (hbin : cfg.binDataset = false) :
    ∃ fns, selectGenerationFunctions cfg [] = .ok ((announced cfg).map FName.str, fns) ∧
      ∀ fs : FS, (∀ f ∈ announced cfg, fs f = none) → ∀ crash,
        let fs' := (generateCFiles ((announced cfg).map FName.str) fns none fs).1
        generateCFiles ((announced cfg).map FName.str) fns crash fs' = (fs', some .fileExists) := by
  obtain ⟨fns, h1, h2⟩ := C39_creates cfg hbin
  refine ⟨fns, h1, fun fs hfs crash => ?_⟩
  obtain ⟨fs', h3, h4, -⟩ := h2 fs hfs
  dsimp only
  rw [h3]
  have hm : "main.c" ∈ announced cfg := by simp [announced]
  obtain ⟨e, h5, h6⟩ := C39_refuses ((announced cfg).map FName.str) fns crash fs' "main.c"
    (List.mem_map_of_mem hm) (by rw [h4 _ hm]; rfl)
  rw [h5, h6]
  intro g hg
  obtain ⟨f, -, rfl⟩ := List.mem_map.mp hg
  simp

theorem runFns_append (fns : List GenFn) (fs : FS) (f : String)
    (h : ∀ g ∈ fns, g.file = f → g.mode = .append) (c : String) (hf : fs f = some c) :
    ∃ s, runFns fns fs f = some (c ++ s) := by
  unfold runFns
  induction fns generalizing fs c with
  | nil => exact ⟨"", by simp [hf]⟩
  | cons g fns ih =>
    rw [List.foldl_cons]
    by_cases hg : f = g.file
    · have hr : g.run fs f = some (c ++ g.text) := by
        simp only [GenFn.run, hg, if_true, h g (List.mem_cons_self ..) hg.symm]
        rw [← hg, hf]; rfl
      obtain ⟨s, hs⟩ := ih _ (fun g' hg' => h g' (List.mem_cons_of_mem _ hg')) _ hr
      exact ⟨g.text ++ s, by rw [hs, String.append_assoc]⟩
    · exact ih _ (fun g' hg' => h g' (List.mem_cons_of_mem _ hg')) _ (by simp [GenFn.run, hg, hf])

/-- C39, whatever is announced.  Only a function that opens its file with `"w+"` can destroy text: a file
that exists before the call still begins with its old text after it, wherever the process stops, if no
function truncates that file. -/
theorem C39_append_only (files : List FName) (fns : List (Option (List GenFn))) (crash : Option Nat)
    (fs : FS) (f c : String) (hf : fs f = some c)
    (h : ∀ l ∈ fns, ∀ g ∈ l.getD [], g.file = f → g.mode = .append) :
    ∃ s, (generateCFiles files fns crash fs).1 f = some (c ++ s) := by
  have hall : ∀ g ∈ fns.flatMap (fun l => l.getD []), g.file = f → g.mode = .append := by
    intro g hg
    obtain ⟨l, hl, hg'⟩ := List.mem_flatMap.mp hg
    exact h l hl g hg'
  unfold generateCFiles
  rcases checkAbsent fs files with e | u
  · exact ⟨"", by simp [hf]⟩
  · dsimp only
    cases crash with
    | none => exact runFns_append _ fs f hall c hf
    | some k => exact runFns_append _ fs f (fun g hg => hall g (List.mem_of_mem_take hg)) c hf

/-- … and it may indeed be appended to: an unannounced file that exists gets the new text after its own. -/
example : (generateCFiles [] [some [⟨"log", .append, "new"⟩]] none (fun f => if f = "log" then some "old" else none)).1 "log"
    = some "oldnew" := by decide +kernel

/-- C39, custom functions.  When the user gives pairs `(file name, functions)`, the announced files are those
of the categories he did not redefine, then the names of his entries with at least one function, in his
order; the functions are listed in the same order. -/
theorem C39_custom (cfg : GenConfig) (entries : List (String × String × List GenFn)) :
    let custom : PyDict String CustomVal := entries.map fun e => (e.1, .pair e.2.1 e.2.2)
    let active := entries.filter fun e => !e.2.2.isEmpty
    selectGenerationFunctions cfg custom = .ok
      (((defaultFns cfg custom).flatMap fun e => e.2.1.map FName.str) ++ active.map (fun e => .str e.2.1),
       (defaultFns cfg custom).map (fun e => some e.2.2) ++ active.map fun e => some e.2.2) := by
  intro custom active
  have key : ∀ es : List (String × String × List GenFn),
      customFns (es.map fun e => (e.1, CustomVal.pair e.2.1 e.2.2)) =
        .ok ((es.filter fun e => !e.2.2.isEmpty).map fun e => (e.1, [FName.str e.2.1], some e.2.2)) := by
    intro es
    induction es with
    | nil => rfl
    | cons e es ih =>
      rw [List.map_cons, customFns]
      simp only [ih, bind, Except.bind, pure, Except.pure]
      rcases h : e.2.2 with _ | ⟨g, gs⟩
      · simp [h]
      · simp [h]
  simp only [selectGenerationFunctions, custom, key, bind, Except.bind, pure, Except.pure]
  simp [active, Function.comp_def, List.flatMap_map, ← List.map_eq_flatMap]

/-- The full claim C39 of the default configurations, binary parameter file included. -/
def C39_statement : Prop :=
  ∀ cfg : GenConfig, ∃ files fns, selectGenerationFunctions cfg [] = .ok (files, fns) ∧
    ∀ (fs : FS) (f c : String), fs f = some c → (generateCFiles files fns none fs).1 f = some c

/-- C39 is false with `bin_dataset=True`: `parameters.dat` is not among the announced files and is
opened with `"w+"`, so an existing one is destroyed. -/
theorem C39_fails_bin : ¬ C39_statement := by
  intro H
  obtain ⟨files, fns, h1, h2⟩ := H ⟨false, true, true, fun _ => "new"⟩
  have hsel : selectGenerationFunctions ⟨false, true, true, fun _ => "new"⟩ [] =
      .ok ((announced ⟨false, true, true, fun _ => "new"⟩).map FName.str,
        (defaultFns ⟨false, true, true, fun _ => "new"⟩ []).map (fun e => some e.2.2)) := rfl
  rw [hsel] at h1
  simp only [Except.ok.injEq, Prod.mk.injEq] at h1
  obtain ⟨rfl, rfl⟩ := h1
  have := h2 (fun f => if f = "parameters.dat" then some "old" else none) "parameters.dat" "old" rfl
  revert this
  decide +kernel

/-- … and the announced `parameters.c` is not created. -/
theorem C39_fails_bin_missing :
    ∃ cfg : GenConfig, "parameters.c" ∈ announced cfg ∧
      ∀ files fns, selectGenerationFunctions cfg [] = .ok (files, fns) →
        (generateCFiles files fns none (fun _ => none)).1 "parameters.c" = none := by
  refine ⟨⟨false, true, true, fun _ => "new"⟩, by decide, ?_⟩
  intro files fns h1
  have hsel : selectGenerationFunctions ⟨false, true, true, fun _ => "new"⟩ [] =
      .ok ((announced ⟨false, true, true, fun _ => "new"⟩).map FName.str,
        (defaultFns ⟨false, true, true, fun _ => "new"⟩ []).map (fun e => some e.2.2)) := rfl
  rw [hsel] at h1
  simp only [Except.ok.injEq, Prod.mk.injEq] at h1
  obtain ⟨rfl, rfl⟩ := h1
  decide +kernel

/-- Custom functions given in the documented form (a list of `(file name, function)` tuples, or the
empty list to disable a category) never lead to a successful generation: either the constructor
raises, or `generate_c_files` raises without writing. -/
theorem C39_fails_documented (cfg : GenConfig) (k : String) (l : List (String × GenFn)) (fs : FS) :
    selectGenerationFunctions cfg [(k, .tuples l)] = .error .valueError ∨
    ∃ files fns, selectGenerationFunctions cfg [(k, .tuples l)] = .ok (files, fns) ∧
      ∃ e, generateCFiles files fns none fs = (fs, some e) := by
  rcases l with _ | ⟨a, _ | ⟨b, _ | ⟨c, l⟩⟩⟩
  · left; rfl
  · left; rfl
  · right
    refine ⟨_, _, rfl, ?_⟩
    generalize hfiles : ((defaultFns cfg [(k, .tuples [a, b])]).flatMap
      fun e => e.2.1.map FName.str) ++ _ = files
    have hm : FName.tuple ∈ files := by rw [← hfiles]; simp
    have hne : checkAbsent fs files ≠ .ok () := by
      intro h
      exact ((checkAbsent_ok fs files).mp h).1 _ hm rfl
    rcases h : checkAbsent fs files with e | u
    · exact ⟨e, by simp only [generateCFiles, h]⟩
    · exact absurd h hne
  · left; rfl

/-- Non-vacuity of `C39_no_overwrite`: the default functions open announced files only. -/
example (cfg : GenConfig) (hbin : cfg.binDataset = false) :
    ∃ fns, selectGenerationFunctions cfg [] = .ok ((announced cfg).map FName.str, fns) ∧
      ∀ l ∈ fns, ∀ g ∈ l.getD [], FName.str g.file ∈ (announced cfg).map FName.str := by
  obtain ⟨fns, h1, h2⟩ := select_default cfg hbin
  refine ⟨fns, h1, fun l hl g hg => ?_⟩
  have : g ∈ fns.flatMap (fun l => l.getD []) := List.mem_flatMap.mpr ⟨l, hl, hg⟩
  rw [h2] at this
  obtain ⟨x, hx, rfl⟩ := List.mem_map.mp this
  exact List.mem_map_of_mem hx

/-! ### C41 -/

theorem ldiff_two_pow (x k : Nat) : Nat.ldiff x (2 ^ k - 1) = x / 2 ^ k * 2 ^ k := by
  apply Nat.eq_of_testBit_eq
  intro i
  rw [Nat.testBit_ldiff, Nat.testBit_two_pow_sub_one, Nat.testBit_mul_two_pow,
    Nat.testBit_div_two_pow]
  by_cases h : i < k
  · have : ¬ k ≤ i := by omega
    simp [h, this]
  · have h' : k ≤ i := by omega
    have : i - k + k = i := by omega
    simp [h, h', this]

theorem alignUp_eq (v k : Nat) :
    alignUp (v : Int) ((2 ^ k : Nat) : Int) = (((v + (2 ^ k - 1)) / 2 ^ k * 2 ^ k : Nat) : Int) := by
  have hp : 1 ≤ 2 ^ k := Nat.one_le_two_pow
  unfold alignUp
  have h1 : ((2 ^ k : Nat) : Int) - 1 = ((2 ^ k - 1 : Nat) : Int) := by
    rw [Nat.cast_sub hp]; rfl
  rw [h1, ← Nat.cast_add]
  show Int.land (Int.ofNat (v + (2 ^ k - 1))) (Int.negSucc (2 ^ k - 1)) = _
  simp only [Int.land]
  rw [ldiff_two_pow]

/-- C41, one block.  For every position and every power of two, `align_up` returns the least
multiple of the page size that is not before the position. -/
theorem C41_align_up (v k : Nat) :
    let a := alignUp v ((2 ^ k : Nat) : Int)
    ((2 ^ k : Nat) : Int) ∣ a ∧ (v : Int) ≤ a ∧ a < v + ((2 ^ k : Nat) : Int) ∧
      ∀ b : Int, ((2 ^ k : Nat) : Int) ∣ b → (v : Int) ≤ b → a ≤ b := by
  intro a
  have hp : 0 < 2 ^ k := Nat.two_pow_pos k
  have ha : a = (((v + (2 ^ k - 1)) / 2 ^ k * 2 ^ k : Nat) : Int) := alignUp_eq v k
  have hdm := Nat.div_add_mod (v + (2 ^ k - 1)) (2 ^ k)
  have hlt := Nat.mod_lt (v + (2 ^ k - 1)) hp
  rw [Nat.mul_comm] at hdm
  have hge : v ≤ (v + (2 ^ k - 1)) / 2 ^ k * 2 ^ k := by omega
  have hlt2 : (v + (2 ^ k - 1)) / 2 ^ k * 2 ^ k < v + 2 ^ k := by omega
  rw [ha]
  refine ⟨?_, ?_, ?_, ?_⟩
  · exact Int.natCast_dvd_natCast.mpr (Nat.dvd_mul_left _ _)
  · exact_mod_cast hge
  · exact_mod_cast hlt2
  · intro b hb hv
    obtain ⟨c, rfl⟩ := hb
    have hdvd : ((2 ^ k : Nat) : Int) ∣ (((v + (2 ^ k - 1)) / 2 ^ k * 2 ^ k : Nat) : Int) :=
      Int.natCast_dvd_natCast.mpr (Nat.dvd_mul_left _ _)
    obtain ⟨d, hd⟩ := hdvd
    rw [hd]
    have hp' : (0 : Int) < ((2 ^ k : Nat) : Int) := by exact_mod_cast hp
    have hlt3 : ((2 ^ k : Nat) : Int) * d < ((2 ^ k : Nat) : Int) * (c + 1) := by
      rw [← hd]
      have : ((((v + (2 ^ k - 1)) / 2 ^ k * 2 ^ k : Nat)) : Int) < v + ((2 ^ k : Nat) : Int) := by
        exact_mod_cast hlt2
      rw [mul_add, mul_one]
      omega
    have : d < c + 1 := lt_of_mul_lt_mul_left hlt3 (le_of_lt hp')
    exact mul_le_mul_of_nonneg_left (by omega) (le_of_lt hp')

/-- C41.  For every list of block sizes and every power-of-two page size, each block of the binary
file starts at a multiple of the page size, at or after the end of the previous block (the first
one at or after the current position), with less than one page of padding in between. -/
theorem C41_blocks (k : Nat) (pos : Nat) (sizes : List Nat) :
    let offs := blockOffsets ((2 ^ k : Nat) : Int) pos sizes
    offs.length = sizes.length ∧
    (∀ o ∈ offs, ((2 ^ k : Nat) : Int) ∣ o) ∧
    (∀ o s, offs[0]? = some o → sizes[0]? = some s →
      (pos : Int) ≤ o ∧ o < pos + ((2 ^ k : Nat) : Int)) ∧
    (∀ (n : Nat) (o o' : Int) (s : Nat), offs[n]? = some o → offs[n + 1]? = some o' →
      sizes[n]? = some s → o + s ≤ o' ∧ o' < o + s + ((2 ^ k : Nat) : Int)) := by
  induction sizes generalizing pos with
  | nil => simp [blockOffsets]
  | cons sz sizes ih =>
    have ha := C41_align_up pos k
    dsimp only at ha
    obtain ⟨a, hav⟩ : ∃ a : Nat, alignUp pos ((2 ^ k : Nat) : Int) = a := ⟨_, alignUp_eq pos k⟩
    rw [hav] at ha
    have hrec := ih (a + sz)
    dsimp only at hrec
    obtain ⟨h1, h2, h3, h4⟩ := hrec
    have hcast : ((a + sz : Nat) : Int) = (a : Int) + (sz : Int) := by push_cast; rfl
    rw [hcast] at h1 h2 h3 h4
    simp only [blockOffsets, hav]
    refine ⟨by simpa using h1, ?_, ?_, ?_⟩
    · intro o ho
      rcases List.mem_cons.mp ho with rfl | ho
      · exact ha.1
      · exact h2 o ho
    · intro o s ho _
      simp only [List.getElem?_cons_zero, Option.some.injEq] at ho
      subst ho
      exact ⟨ha.2.1, ha.2.2.1⟩
    · intro n o o' s ho ho' hs
      rcases n with _ | n
      · simp only [List.getElem?_cons_zero, Option.some.injEq] at ho hs
        subst ho; subst hs
        simp only [List.getElem?_cons_succ] at ho'
        rcases sizes with _ | ⟨s', sizes⟩
        · simp [blockOffsets] at ho'
        · exact h3 o' s' ho' rfl
      · simp only [List.getElem?_cons_succ] at ho ho' hs
        exact h4 n o o' s ho ho' hs

/-- C41.  Consequently no two blocks overlap. -/
theorem C41_disjoint (k : Nat) (pos : Nat) (sizes : List Nat) (p q : Nat) (hpq : p < q)
    (o o' : Int) (s : Nat)
    (ho : (blockOffsets ((2 ^ k : Nat) : Int) pos sizes)[p]? = some o)
    (ho' : (blockOffsets ((2 ^ k : Nat) : Int) pos sizes)[q]? = some o')
    (hs : sizes[p]? = some s) : o + s ≤ o' := by
  obtain ⟨hlen, -, -, h4⟩ := C41_blocks k pos sizes
  generalize blockOffsets ((2 ^ k : Nat) : Int) pos sizes = offs at *
  induction q generalizing o' with
  | zero => omega
  | succ q ih =>
    have hq : q + 1 < offs.length := (List.getElem?_eq_some_iff.mp ho').1
    have hoq : offs[q]? = some offs[q] := List.getElem?_eq_getElem (by omega)
    have hsq : sizes[q]? = some sizes[q] := List.getElem?_eq_getElem (by omega)
    have hstep := (h4 q offs[q] o' sizes[q] hoq ho' hsq).1
    by_cases h : p = q
    · subst h
      rw [ho] at hoq
      simp only [Option.some.injEq] at hoq
      rw [hs] at hsq
      simp only [Option.some.injEq] at hsq
      rw [hoq, hsq]
      exact hstep
    · have := ih (by omega) offs[q] hoq
      omega

/-- The alignment must be a power of two (`target_page_size` is not checked): with 48 the result is
not a multiple of 48. -/
theorem C41_fails_not_power : ¬ ((48 : Int) ∣ alignUp 50 48) := by decide +kernel

/-- Non-vacuity. -/
example : blockOffsets 4096 0 [100, 5000, 4] = [0, 4096, 12288] := by decide +kernel

end Verif.Gen

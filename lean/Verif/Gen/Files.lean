/-
Model of the choice of the files to generate (`neural_network.py` 251-323), of `generate_c_files`
(757-772) and of the layout of the binary parameter file (1125-1161).
-/
import Verif.Gen.Registry
import Mathlib.Data.Int.Bitwise

namespace Verif.Gen

/-- The files of the output directory (name ↦ content). -/
abbrev FS := String → Option String

/-- How a generation function opens its file: every one uses `"a+"` except
`generate_bin_parameter_file`, which uses `"w+"` (`neural_network.py` 1153). -/
inductive OpenMode | append | truncate
deriving DecidableEq

/-- A generation function: opens one file of the output directory and writes a text. -/
structure GenFn where
  file : String
  mode : OpenMode
  text : String
deriving DecidableEq

/-- Effect of a generation function on the directory (`with (output_dir / file).open(mode) as f:
f.write(text)`). -/
def GenFn.run (g : GenFn) (fs : FS) : FS := fun f =>
  if f = g.file then
    match g.mode with
    | .append => some ((fs f).getD "" ++ g.text)
    | .truncate => some g.text
  else fs f

/-- The value given by the user for one key of `custom_generation_functions`. -/
inductive CustomVal
  /-- a pair `(name, [functions])`, the form the code expects -/
  | pair (name : String) (fns : List GenFn)
  /-- a list of `(file name, function)` tuples, the documented form -/
  | tuples (l : List (String × GenFn))

/-- Entries of `files_to_gen`: file names, or (by mistake) a tuple. -/
inductive FName
  | str (s : String)
  | tuple
deriving DecidableEq

/-- The parameters of the generator that decide what is generated. -/
structure GenConfig where
  readExtInput : Bool
  genericTarget : Bool
  binDataset : Bool
  /-- the rendered text of each generated file -/
  text : String → String

/-- The default functions of each category, in the order of `neural_network.py` 280-315.  Keys
redefined by the user are skipped. -/
def defaultFns (cfg : GenConfig) (custom : PyDict String CustomVal) :
    List (String × List String × List GenFn) :=
  let fn (f : String) : GenFn := ⟨f, .append, cfg.text f⟩
  let absent (k : String) : Bool := (custom.get? k).isNone
  (if absent "Main" then [("Main", ["main.c", "test_dataset.h"],
      [fn "main.c", fn "test_dataset.h"])] else []) ++
  (if absent "Inference" then [("Inference",
      ["inference.c", "inference.h", "global_vars.c", "parameters.c", "train_hook.c"],
      [fn "inference.c", fn "inference.h", fn "global_vars.c",
        (if cfg.binDataset then ⟨"parameters.dat", .truncate, cfg.text "parameters.dat"⟩
         else fn "parameters.c"),
        fn "train_hook.c"])] else []) ++
  (if absent "Makefile" then [("Makefile", ["Makefile"], [fn "Makefile"])] else []) ++
  (if !cfg.readExtInput && absent "TestValues" then
      [("TestValues", ["test_dataset.c"], [fn "test_dataset.c"])] else []) ++
  (if !cfg.genericTarget && absent "Target" then
      [("Target", ["target.c", "target.h"], [fn "target.c", fn "target.h"])] else [])

/-- The loop over the user's entries (`neural_network.py` 317-321):
`name, generation_function = custom[k]` unpacks exactly two values, and an empty list of functions
is ignored. -/
def customFns : PyDict String CustomVal →
    Except PyErr (List (String × List FName × Option (List GenFn)))
  | [] => .ok []
  | (k, v) :: rest => do
    let here ← (match v with
      | .pair name fns => .ok (if fns = [] then [] else [(k, [FName.str name], some fns)])
      | .tuples [_, _] => .ok [(k, [FName.tuple], none)]
      | .tuples _ => .error .valueError)
    let r ← customFns rest
    return here ++ r

/-- `select_generation_functions` (`neural_network.py` 251-323): the announced files and the
functions.  A `none` in place of the functions is a tuple that cannot be iterated as functions. -/
def selectGenerationFunctions (cfg : GenConfig) (custom : PyDict String CustomVal) :
    Except PyErr (List FName × List (Option (List GenFn))) := do
  let d := defaultFns cfg custom
  let c ← customFns custom
  return ((d.flatMap fun e => e.2.1.map FName.str) ++ c.flatMap (fun e => e.2.1),
    d.map (fun e => some e.2.2) ++ c.map (fun e => e.2.2))

/-- The check loop of `generate_c_files` (`neural_network.py` 766-768). -/
def checkAbsent (fs : FS) : List FName → Except PyErr Unit
  | [] => .ok ()
  | .str f :: rest => if (fs f).isSome then .error .fileExists else checkAbsent fs rest
  | .tuple :: _ => .error .typeError

/-- The generation loop (`neural_network.py` 770-772), stopped after `limit` functions if the
process dies there. -/
def runFns (fns : List GenFn) (fs : FS) : FS := fns.foldl (fun fs g => g.run fs) fs

/-- `generate_c_files` (`neural_network.py` 757-772) on the files of the output directory: the
directory after the call and the exception raised, if any.  `crash = some k` stops the process after
`k` generation functions. -/
def generateCFiles (files : List FName) (fns : List (Option (List GenFn))) (crash : Option Nat)
    (fs : FS) : FS × Option PyErr :=
  match checkAbsent fs files with
  | .error e => (fs, some e)
  | .ok _ =>
    let all := fns.flatMap (fun l => l.getD [])
    match crash with
    | none => (runFns all fs, none)
    | some k => (runFns (all.take k) fs, none)

/-! ### Binary parameter file -/

/-- `align_up(value, alignment) = (value + (alignment - 1)) & ~(alignment - 1)`
(`neural_network.py` 1150-1151), on Python integers: `&` and `~` are the two's complement bitwise
operations. -/
def alignUp (value alignment : Int) : Int :=
  Int.land (value + (alignment - 1)) (Int.lnot (alignment - 1))

/-- The loop of `generate_bin_parameter_file` (`neural_network.py` 1153-1160): the offset of each
block, given the sizes of the blocks in bytes and the current position in the file. -/
def blockOffsets (page : Int) : Int → List Nat → List Int
  | _, [] => []
  | pos, sz :: rest =>
    let o := alignUp pos page
    o :: blockOffsets page (o + sz) rest

end Verif.Gen

/-
C45: an NNET file is loaded as the network it describes; the Python reference and the generated code
compute that network.
-/
import Verif.Gen.Nnet
import Verif.Gen.Sizes
import Verif.Props.Linear
import Verif.Props.Layout
import Verif.Props.Normalize
import Verif.Props.Sizes
import Verif.Graph.Refine

namespace Verif.Gen

open Prog

variable {α : Type}

/-! ### Specification: what an NNET file says -/

/-- A network in the NNET format: comment lines, one unused number and one unused line, the size of
the input, for each layer its weight rows (one per output) and biases, and the normalisation data. -/
structure NnetDesc (α : Type) where
  comments : List Line
  maxSize : Nat
  unused : Line
  inputSize : Nat
  layers : List (List (List α) × List α)
  mins : List α
  maxes : List α
  means : List α
  ranges : List α

/-- Sizes of the successive layers. -/
def NnetDesc.sizes (d : NnetDesc α) : List Nat := d.inputSize :: d.layers.map fun l => l.2.length

/-- Each layer has as many rows as biases and each row has one weight per value of the previous
layer. -/
def LayersFit : Nat → List (List (List α) × List α) → Prop
  | _, [] => True
  | n, (rows, bs) :: rest =>
    rows.length = bs.length ∧ (∀ r ∈ rows, r.length = n) ∧ LayersFit bs.length rest

/-- A description that can be written: comments start with `//`, and the layers fit together. -/
structure NnetDesc.Ok (d : NnetDesc α) : Prop where
  comments : ∀ l ∈ d.comments, ∃ t, l = '/' :: '/' :: t
  fit : LayersFit d.inputSize d.layers

/-- How numbers are written: a text without comma or blank that `float` reads back. -/
structure Codec (α : Type) (pf : Line → Option α) where
  text : α → Line
  reads : ∀ v, pf (text v) = some v
  nonempty : ∀ v, text v ≠ []
  clean : ∀ v, ∀ c ∈ text v, c ≠ ',' ∧ isBlank c = false

/-- A line of numbers, each followed by a comma. -/
def lineOf (texts : List Line) : Line := texts.flatMap (fun t => t ++ [',']) ++ ['\n']

/-- The decimal text of a natural number. -/
def natText (n : Nat) : Line := Nat.toDigits 10 n

/-- The lines of the layers: the rows of a layer, then its biases, one per line. -/
def layerLines {pf : Line → Option α} (C : Codec α pf) (l : List (List α) × List α) : List Line :=
  l.1.map (fun r => lineOf (r.map C.text)) ++ l.2.map (fun b => lineOf [C.text b])

/-- The NNET file of a description. -/
def NnetDesc.file {pf : Line → Option α} (C : Codec α pf) (d : NnetDesc α) : List Line :=
  d.comments ++
  [lineOf [natText d.layers.length, natText d.inputSize, natText (d.sizes.getLastD 0),
      natText d.maxSize],
   lineOf (d.sizes.map natText), d.unused,
   lineOf (d.mins.map C.text), lineOf (d.maxes.map C.text), lineOf (d.means.map C.text),
   lineOf (d.ranges.map C.text)] ++
  d.layers.flatMap (layerLines C)

/-- `W x + b`, one row of `W` per output. -/
def affine [CommSemiring α] (rows : List (List α)) (bs : List α) (x : List α) : List α :=
  List.zipWith (fun r b => (List.zipWith (· * ·) r x).sum + b) rows bs

/-- The function an NNET description stands for: `relu(W x + b)` layer by layer, the last one without
`relu`. -/
def nnetEval [CommSemiring α] [LinearOrder α] : List (List (List α) × List α) → List α → List α
  | [], x => x
  | [(rows, bs)], x => affine rows bs x
  | (rows, bs) :: rest, x => nnetEval rest ((affine rows bs x).map (max 0))

/-! ### Reading the text -/

theorem splitComma_ne_nil (s : Line) : splitComma s ≠ [] := by
  cases s with
  | nil => simp [splitComma]
  | cons c cs =>
    simp only [splitComma]
    split
    · simp
    · split <;> simp

theorem splitComma_append (t : Line) (ht : ∀ c ∈ t, c ≠ ',') (s : Line) :
    splitComma (t ++ ',' :: s) = t :: splitComma s := by
  induction t with
  | nil =>
    simp only [List.nil_append, splitComma]
    cases h : splitComma s with
    | nil => exact absurd h (splitComma_ne_nil s)
    | cons a b => simp
  | cons c t ih =>
    have := ih (fun d hd => ht d (List.mem_cons_of_mem _ hd))
    simp only [List.cons_append, splitComma, this]
    simp [ht c (List.mem_cons_self ..)]

theorem splitComma_fields (texts : List Line) (ht : ∀ t ∈ texts, ∀ c ∈ t, c ≠ ',') :
    splitComma (texts.flatMap fun t => t ++ [',']) = texts ++ [[]] := by
  induction texts with
  | nil => rfl
  | cons t texts ih =>
    rw [List.flatMap_cons, List.append_assoc, List.singleton_append, splitComma_append t (ht t (List.mem_cons_self ..)),
      ih (fun s hs => ht s (List.mem_cons_of_mem _ hs)), List.cons_append]

theorem strip_line (texts : List Line)
    (ht : ∀ t ∈ texts, t ≠ [] ∧ ∀ c ∈ t, c ≠ ',' ∧ isBlank c = false) :
    strip (lineOf texts) = texts.flatMap fun t => t ++ [','] := by
  have hb : ∀ c ∈ texts.flatMap (fun t => t ++ [',']), isBlank c = false := by
    intro c hc
    obtain ⟨t, h1, h2⟩ := List.mem_flatMap.mp hc
    rcases List.mem_append.mp h2 with h | h
    · exact ((ht t h1).2 c h).2
    · simp only [List.mem_singleton] at h; subst h; rfl
  unfold strip lineOf
  generalize texts.flatMap (fun t => t ++ [',']) = s at hb
  have h1 : (s ++ ['\n']).dropWhile isBlank = if s = [] then [] else s ++ ['\n'] := by
    cases s with
    | nil => rfl
    | cons c s => simp [List.dropWhile_cons, hb c (List.mem_cons_self ..)]
  rw [h1]
  by_cases h : s = []
  · subst h; rfl
  · rw [if_neg h, List.reverse_append]
    show ((('\n' : Char) :: s.reverse).dropWhile isBlank).reverse = s
    have h2 : isBlank '\n' = true := rfl
    rw [List.dropWhile_cons, if_pos h2]
    have h3 : s.reverse.dropWhile isBlank = s.reverse := by
      cases hr : s.reverse with
      | nil => rfl
      | cons c r =>
        have : c ∈ s := by
          have : c ∈ s.reverse := by rw [hr]; exact List.mem_cons_self ..
          exact List.mem_reverse.mp this
        simp [List.dropWhile_cons, hb c this]
    rw [h3, List.reverse_reverse]

theorem fields_line (texts : List Line)
    (ht : ∀ t ∈ texts, t ≠ [] ∧ ∀ c ∈ t, c ≠ ',' ∧ isBlank c = false) :
    fields (lineOf texts) = texts := by
  unfold fields
  rw [strip_line texts ht, splitComma_fields texts fun t h c hc => ((ht t h).2 c hc).1,
    List.dropLast_concat]

theorem digit_clean (c : Char) (h : c.isDigit) : c ≠ ',' ∧ isBlank c = false := by
  constructor
  · rintro rfl; revert h; decide
  · have : c ≠ ' ' ∧ c ≠ '\t' ∧ c ≠ '\n' ∧ c ≠ '\r' := by
      refine ⟨?_, ?_, ?_, ?_⟩ <;> (rintro rfl; revert h; decide)
    simp [isBlank, this.1, this.2.1, this.2.2.1, this.2.2.2]

theorem natText_clean (n : Nat) : natText n ≠ [] ∧ ∀ c ∈ natText n, c ≠ ',' ∧ isBlank c = false :=
  ⟨Nat.toDigits_ne_nil, fun c hc => digit_clean c (Nat.isDigit_of_mem_toDigits (by norm_num) (by norm_num) hc)⟩

theorem parseNat_text (n : Nat) : parseNat (natText n) = some n := by
  unfold parseNat
  rw [if_pos]
  · simp only [natText, Nat.ofDigitChars_ten_toDigits]
  · refine ⟨Nat.toDigits_ne_nil, ?_⟩
    rw [List.all_eq_true]
    intro c hc
    exact Nat.isDigit_of_mem_toDigits (by norm_num) (by norm_num) hc

theorem mapM_map {β γ : Type} (f : γ → Option β) (g : β → γ) (h : ∀ b, f (g b) = some b)
    (l : List β) : (l.map g).mapM f = some l := by
  induction l with
  | nil => rfl
  | cons a l ih => simp [List.mapM_cons, h a, ih]

theorem nats_line (ns : List Nat) : (fields (lineOf (ns.map natText))).mapM parseNat = some ns := by
  rw [fields_line]
  · exact mapM_map _ _ parseNat_text ns
  · intro t ht
    obtain ⟨n, -, rfl⟩ := List.mem_map.mp ht
    exact natText_clean n

theorem floats_line {pf : Line → Option α} (C : Codec α pf) (vs : List α) :
    (fields (lineOf (vs.map C.text))).mapM pf = some vs := by
  rw [fields_line]
  · exact mapM_map _ _ C.reads vs
  · intro t ht
    obtain ⟨v, -, rfl⟩ := List.mem_map.mp ht
    exact ⟨C.nonempty v, C.clean v⟩

theorem readRows_spec {pf : Line → Option α} (C : Codec α pf) (prev : Nat) (rows : List (List α))
    (h : ∀ r ∈ rows, r.length = prev) (rest : List Line) :
    readRows pf prev rows.length (rows.map (fun r => lineOf (r.map C.text)) ++ rest) =
      some (rows, rest) := by
  induction rows with
  | nil => rfl
  | cons r rows ih =>
    have hr : readRow pf prev (lineOf (r.map C.text)) = some r := by
      have := h r (List.mem_cons_self ..)
      simp only [readRow, floats_line C r]
      rw [if_pos (by omega), ← this, List.take_length]
    simp only [List.length_cons, List.map_cons, List.cons_append, readRows, readline, hr,
      ih (fun r' hr' => h r' (List.mem_cons_of_mem _ hr'))]

theorem readBiases_spec {pf : Line → Option α} (C : Codec α pf) (bs : List α) (rest : List Line) :
    readBiases pf bs.length (bs.map (fun b => lineOf [C.text b]) ++ rest) = some (bs, rest) := by
  induction bs with
  | nil => rfl
  | cons b bs ih =>
    have h1 : splitComma (strip (lineOf [C.text b])) = [C.text b, []] := by
      have hc : ∀ t ∈ [C.text b], t ≠ [] ∧ ∀ c ∈ t, c ≠ ',' ∧ isBlank c = false := by
        intro t ht
        rw [List.mem_singleton.mp ht]
        exact ⟨C.nonempty b, C.clean b⟩
      rw [strip_line _ hc, splitComma_fields _ fun t h c hc' => ((hc t h).2 c hc').1]
      rfl
    simp only [List.length_cons, List.map_cons, List.cons_append, readBiases, readline, h1,
      List.head?_cons, C.reads, ih]

theorem readLayers_spec {pf : Line → Option α} (C : Codec α pf) (sizes : List Nat)
    (layers : List (List (List α) × List α)) (n i : Nat) (hfit : LayersFit n layers)
    (hs : sizes.drop i = n :: layers.map fun l => l.2.length) :
    readLayers pf sizes layers.length i (layers.flatMap (layerLines C)) = some layers := by
  induction layers generalizing n i with
  | nil => rfl
  | cons l layers ih =>
    obtain ⟨rows, bs⟩ := l
    obtain ⟨h1, h2, h3⟩ := hfit
    have e0 : sizes[i]? = some n := by
      have := congrArg (fun l => l[0]?) hs
      simpa using this
    have e1 : sizes[i + 1]? = some bs.length := by
      have := congrArg (fun l => l[1]?) hs
      simpa using this
    have hs' : sizes.drop (i + 1) = bs.length :: layers.map fun l => l.2.length := by
      have := congrArg List.tail hs
      simpa [List.tail_drop] using this
    simp only [List.length_cons, readLayers, e0, e1, List.flatMap_cons, layerLines, List.append_assoc]
    rw [← h1, readRows_spec C n rows h2]
    dsimp only
    rw [h1, readBiases_spec C bs]
    dsimp only
    have := ih bs.length (i + 1) h3 hs'
    rw [this]

/-! ### The layers built -/

/-- The `i`-th layer of the chain, `n` dense layers in all, before the last activation is replaced. -/
def chainLayer [Zero α] (params : List (List (List α) × List α)) (sizes : List Nat) (n i : Nat) :
    NLayer α where
  idx := i
  size := sizes.getD i 0
  path := 0
  prev := if i = 0 then [] else [i - 1]
  next := if i < n then [i + 1] else []
  dense := if i = 0 then none else
    some ⟨transposed (params.getD (i - 1) ([], [])).1,
      fun k => (params.getD (i - 1) ([], [])).2.getD k 0, true⟩

theorem genLoop_spec [Zero α] (params : List (List (List α) × List α)) (sizes : List Nat)
    (hlen : sizes.length = params.length + 1)
    (hsz : ∀ (i : Nat) p, params[i]? = some p → p.1.length = p.2.length ∧ sizes[i + 1]? = some p.2.length)
    (k : Nat) (hk : k ≤ params.length) :
    genLoop params sizes k = some ((List.range (k + 1)).map (chainLayer params sizes k)) := by
  induction k with
  | zero =>
    have h0 : sizes[0]? = some (sizes.getD 0 0) := by
      rw [List.getElem?_eq_getElem (by omega : 0 < sizes.length)]
      simp [List.getD, List.getElem?_eq_getElem (by omega : 0 < sizes.length)]
    rw [genLoop, h0]
    simp [chainLayer]
  | succ k ih =>
    have hp : params[k]? = some (params.getD k ([], [])) := by
      simp [List.getD, List.getElem?_eq_getElem (by omega : k < params.length)]
    obtain ⟨h1, h2⟩ := hsz k _ hp
    rw [genLoop, ih (by omega)]
    dsimp only
    rw [hp, h2]
    dsimp only
    rw [if_pos ⟨h1, rfl⟩]
    congr 1
    have hl : ((List.range (k + 1)).map (chainLayer params sizes k)) =
        (List.range k).map (chainLayer params sizes k) ++ [chainLayer params sizes k k] := by
      rw [List.range_succ, List.map_append]; rfl
    have hsd : sizes.getD (k + 1) 0 = (params.getD k ([], [])).2.length := by
      simp [List.getD, h2]
    unfold addLayer
    rw [hl, List.getLast?_append]
    simp only [List.getLast?_singleton, Option.some_or, List.dropLast_concat]
    rw [List.range_succ, List.range_succ, List.map_append, List.map_append, List.append_assoc]
    congr 1
    · apply List.map_congr_left
      intro i hi
      have hi := List.mem_range.mp hi
      simp only [chainLayer, hi, (by omega : i < k + 1), if_true]
    · simp only [List.map_cons, List.map_nil, List.cons_append, List.nil_append, chainLayer, hsd]
      simp

/-- The final `i`-th layer. -/
def finalLayer [Zero α] (params : List (List (List α) × List α)) (sizes : List Nat) (i : Nat) :
    NLayer α where
  idx := i
  size := sizes.getD i 0
  path := 0
  prev := if i = 0 then [] else [i - 1]
  next := if i < params.length then [i + 1] else []
  dense := if i = 0 then none else
    some ⟨transposed (params.getD (i - 1) ([], [])).1,
      fun k => (params.getD (i - 1) ([], [])).2.getD k 0, decide (i < params.length)⟩

theorem generateLayers_spec [Zero α] (params : List (List (List α) × List α)) (sizes : List Nat)
    (hlen : sizes.length = params.length + 1)
    (hsz : ∀ (i : Nat) p, params[i]? = some p → p.1.length = p.2.length ∧ sizes[i + 1]? = some p.2.length) :
    generateLayers params.length params sizes =
      some ((List.range (params.length + 1)).map (finalLayer params sizes)) := by
  unfold generateLayers
  rw [genLoop_spec params sizes hlen hsz _ (le_refl _), Option.map_some]
  congr 1
  unfold linearLast
  have hl : ((List.range (params.length + 1)).map (chainLayer params sizes params.length)) =
      (List.range params.length).map (chainLayer params sizes params.length) ++
        [chainLayer params sizes params.length params.length] := by
    rw [List.range_succ, List.map_append]; rfl
  rw [hl, List.getLast?_append]
  simp only [List.getLast?_singleton, Option.some_or, List.dropLast_concat]
  rw [List.range_succ, List.map_append]
  congr 1
  · apply List.map_congr_left
    intro i hi
    have hi := List.mem_range.mp hi
    simp only [chainLayer, finalLayer, hi, decide_true]
  · simp only [List.map_cons, List.map_nil, chainLayer, finalLayer, lt_irrefl, decide_false]
    congr 2
    split <;> rfl

theorem fit_sizes (n : Nat) (layers : List (List (List α) × List α)) (h : LayersFit n layers) (i : Nat)
    (p : List (List α) × List α) (hp : layers[i]? = some p) :
    p.1.length = p.2.length ∧ (n :: layers.map fun l => l.2.length)[i + 1]? = some p.2.length ∧
      ∀ r ∈ p.1, r.length = (n :: layers.map fun l => l.2.length).getD i 0 := by
  induction layers generalizing n i with
  | nil => simp at hp
  | cons l layers ih =>
    obtain ⟨h1, h2, h3⟩ := h
    cases i with
    | zero =>
      simp only [List.getElem?_cons_zero, Option.some.injEq] at hp
      subst hp
      exact ⟨h1, by simp, by simpa using h2⟩
    | succ i =>
      obtain ⟨a, b, c⟩ := ih l.2.length h3 i (by simpa using hp)
      exact ⟨a, by simpa using b, by simpa using c⟩

/-- The network of a description. -/
def NnetDesc.net [Zero α] (d : NnetDesc α) : Nnet α where
  layers := (List.range (d.layers.length + 1)).map (finalLayer d.layers d.sizes)
  normalizer := ⟨d.inputSize, d.sizes.getLastD 0, d.mins, d.maxes, d.means, d.ranges⟩

/-- Loading the file of a description succeeds; the layers are the chain of `finalLayer`. -/
theorem load_spec [Zero α] {pf : Line → Option α} (C : Codec α pf) (d : NnetDesc α) (hd : d.Ok) :
    loadNnet pf (d.file C) = some d.net := by
  have hskip : ∀ (cs : List Line) (l : Line) (rest : List Line), (∀ l ∈ cs, ∃ t, l = '/' :: '/' :: t) →
      l.take 2 ≠ ['/', '/'] → skipHeader (cs ++ l :: rest) = (l, rest) := by
    intro cs l rest hcs hl
    induction cs with
    | nil => simp [skipHeader, hl]
    | cons c cs ih =>
      obtain ⟨t, rfl⟩ := hcs c (List.mem_cons_self ..)
      rw [List.cons_append]
      simp only [skipHeader, List.take_succ_cons, List.take_zero, if_true]
      exact ih fun l hl => hcs l (List.mem_cons_of_mem _ hl)
  have hfirst : (lineOf [natText d.layers.length, natText d.inputSize, natText (d.sizes.getLastD 0),
      natText d.maxSize]).take 2 ≠ ['/', '/'] := by
    intro h
    have hne := (natText_clean d.layers.length).1
    cases ht : natText d.layers.length with
    | nil => exact hne ht
    | cons c t =>
      have hc : c.isDigit := by
        apply Nat.isDigit_of_mem_toDigits (b := 10) (n := d.layers.length) (by norm_num) (by norm_num)
        have : c ∈ natText d.layers.length := by rw [ht]; exact List.mem_cons_self ..
        exact this
      rw [lineOf, List.flatMap_cons, ht] at h
      simp only [List.cons_append, List.take_succ_cons, List.cons.injEq] at h
      rw [h.1] at hc
      revert hc; decide
  have hfile : d.file C = d.comments ++ lineOf [natText d.layers.length, natText d.inputSize,
      natText (d.sizes.getLastD 0), natText d.maxSize] :: lineOf (d.sizes.map natText) :: d.unused ::
      lineOf (d.mins.map C.text) :: lineOf (d.maxes.map C.text) :: lineOf (d.means.map C.text) ::
      lineOf (d.ranges.map C.text) :: d.layers.flatMap (layerLines C) := by
    simp [NnetDesc.file]
  have h0 : (fields (lineOf [natText d.layers.length, natText d.inputSize,
      natText (d.sizes.getLastD 0), natText d.maxSize])).mapM parseNat =
      some [d.layers.length, d.inputSize, d.sizes.getLastD 0, d.maxSize] :=
    nats_line [d.layers.length, d.inputSize, d.sizes.getLastD 0, d.maxSize]
  have hlen : d.sizes.length = d.layers.length + 1 := by simp [NnetDesc.sizes]
  have hlast : d.sizes.getLast? = some (d.sizes.getLastD 0) := by
    simp [NnetDesc.sizes, List.getLast?_cons]
  unfold loadNnet
  rw [hfile, hskip _ _ _ hd.comments hfirst]
  simp only [h0, readline, nats_line, floats_line]
  rw [readLayers_spec C d.sizes d.layers d.inputSize 0 hd.fit rfl]
  dsimp only
  rw [generateLayers_spec d.layers d.sizes hlen
    (fun i p hp => ⟨(fit_sizes _ _ hd.fit i p hp).1, (fit_sizes _ _ hd.fit i p hp).2.1⟩), hlast]
  rfl

/-! ### Running the loaded network -/

section run
variable [CommRing α] [LinearOrder α]

theorem actC_eq (relu : Bool) (v : α) : actC relu v = actPy relu v := by
  unfold actC actPy
  cases relu
  · rfl
  · simp only [if_true]
    split
    · rename_i h; exact (max_eq_right h.le).symm
    · rename_i h; exact (max_eq_left (not_lt.mp h)).symm

theorem net_layer (d : NnetDesc α) (n : Nat) :
    d.net.layer n = if n ≤ d.layers.length then some (finalLayer d.layers d.sizes n) else none := by
  unfold Nnet.layer NnetDesc.net
  dsimp only
  rw [List.find?_map]
  have h : ((fun l : NLayer α => l.idx == n) ∘ finalLayer d.layers d.sizes) = fun i => i == n := by
    funext i; rfl
  rw [h]
  by_cases hn : n ≤ d.layers.length
  · rw [if_pos hn]
    have : (List.range (d.layers.length + 1)).find? (fun i => i == n) = some n := by
      rw [List.find?_range_eq_some]
      refine ⟨by simp, by simp; omega, ?_⟩
      intro j hj; simp; omega
    rw [this]; rfl
  · rw [if_neg hn]
    have : (List.range (d.layers.length + 1)).find? (fun i => i == n) = none := by
      rw [List.find?_eq_none]
      intro i hi
      have := List.mem_range.mp hi
      simp; omega
    rw [this]; rfl

theorem net_prevOf (d : NnetDesc α) (n : Nat) :
    d.net.prevOf n = if 0 < n ∧ n ≤ d.layers.length then [n - 1] else [] := by
  unfold Nnet.prevOf
  rw [net_layer]
  by_cases h : n ≤ d.layers.length
  · by_cases h0 : n = 0
    · subst h0; simp [finalLayer]
    · simp [h, finalLayer, h0, Nat.pos_of_ne_zero h0]
  · simp [h]

theorem net_nextOf (d : NnetDesc α) (n : Nat) :
    d.net.nextOf n = if n < d.layers.length then [n + 1] else [] := by
  unfold Nnet.nextOf
  rw [net_layer]
  by_cases h : n ≤ d.layers.length
  · by_cases h0 : n < d.layers.length
    · simp [h, finalLayer, h0]
    · simp [h, finalLayer, h0]
  · rw [if_neg h, if_neg (by omega)]; rfl

theorem net_sizeOf (d : NnetDesc α) (n : Nat) (h : n ≤ d.layers.length) :
    d.net.sizeOf n = d.sizes.getD n 0 := by
  unfold Nnet.sizeOf
  rw [net_layer, if_pos h]; rfl

theorem net_order (d : NnetDesc α) : d.net.plan.order = List.range (d.layers.length + 1) := by
  unfold Nnet.plan NnetDesc.net
  dsimp only
  rw [List.map_map]
  exact List.map_id _

theorem net_path (d : NnetDesc α) (n : Nat) : d.net.plan.path n = 0 := by
  unfold Nnet.plan
  dsimp only
  rw [net_layer]
  split <;> rfl

/-- The values of the layers. -/
def nnetVal (d : NnetDesc α) (x : List α) : Nat → List α
  | 0 => x
  | n + 1 => d.net.forward (n + 1) [nnetVal d x n]

theorem range_split {L : Nat} {pre post : List Nat} {n : Nat} (h : List.range L = pre ++ n :: post) :
    pre = List.range n ∧ n < L := by
  have h1 : pre = (List.range L).take pre.length := by rw [h]; simp
  have hn : (List.range L)[pre.length]? = some n := by rw [h]; simp
  rw [List.getElem?_eq_some_iff] at hn
  obtain ⟨hlt, hn⟩ := hn
  simp only [List.length_range, List.getElem_range] at hlt hn
  subst hn
  refine ⟨?_, hlt⟩
  rw [List.take_range] at h1
  rwa [Nat.min_eq_left hlt.le] at h1

theorem net_sorted (d : NnetDesc α) : Graph.Sorted d.net.prevOf d.net.plan.order := by
  intro pre n post h
  rw [net_order] at h
  obtain ⟨rfl, hn⟩ := range_split h
  refine ⟨by simp, ?_⟩
  intro p hp
  rw [net_prevOf] at hp
  split at hp
  · rename_i h
    have := List.mem_singleton.mp hp
    rw [List.mem_range]; omega
  · simp at hp

theorem net_links (d : NnetDesc α) (a b : Nat) : a ∈ d.net.prevOf b ↔ b ∈ d.net.nextOf a := by
  rw [net_prevOf, net_nextOf]
  by_cases h1 : 0 < b ∧ b ≤ d.layers.length
  · rw [if_pos h1]
    by_cases h2 : a < d.layers.length
    · rw [if_pos h2, List.mem_singleton, List.mem_singleton]; omega
    · rw [if_neg h2, List.mem_singleton]; simp; omega
  · rw [if_neg h1]
    by_cases h2 : a < d.layers.length
    · rw [if_pos h2, List.mem_singleton]; simp; omega
    · rw [if_neg h2]; simp

theorem nnetVal_fix (d : NnetDesc α) (x : List α) (n : Nat) (hn : n ≤ d.layers.length) :
    nnetVal d x n = d.net.forward n (Graph.argsOf d.net.prevOf x (nnetVal d x) n) := by
  unfold Graph.argsOf
  cases n with
  | zero =>
    have h : d.net.prevOf 0 = [] := by rw [net_prevOf, if_neg (by omega)]
    rw [h]
    simp [Nnet.forward, net_layer, finalLayer, nnetVal]
  | succ n =>
    have h : d.net.prevOf (n + 1) = [n] := by rw [net_prevOf, if_pos ⟨by omega, hn⟩]; rfl
    rw [h]
    simp [nnetVal]

theorem sizes_getD_zero (d : NnetDesc α) : d.sizes.getD 0 0 = d.inputSize := rfl

theorem forward_dense (d : NnetDesc α) (x : List α) (n : Nat) (hn : n < d.layers.length) :
    d.net.forward (n + 1) [x] = tensor (d.sizes.getD (n + 1) 0)
      (Layers.denseForward (d.sizes.getD n 0) (actPy (decide (n + 1 < d.layers.length)))
        (transposed (d.layers.getD n ([], [])).1) (fun k => (d.layers.getD n ([], [])).2.getD k 0)
        fun j => x.getD j 0) := by
  unfold Nnet.forward
  rw [net_layer, if_pos (by omega)]
  simp only [finalLayer, Nat.succ_ne_zero, if_false, Nat.add_sub_cancel]
  rw [show ([n] : List Nat).getD 0 0 = n from rfl, net_sizeOf d n (by omega)]
  rfl

theorem nnetVal_length (d : NnetDesc α) (x : List α) (hx : x.length = d.inputSize) (n : Nat)
    (hn : n ≤ d.layers.length) : (nnetVal d x n).length = d.sizes.getD n 0 := by
  cases n with
  | zero => exact hx
  | succ n => rw [nnetVal, forward_dense d _ n (by omega), tensor_length]

theorem zip_sum (r x : List α) (h : r.length = x.length) :
    (List.zipWith (· * ·) r x).sum = ∑ j ∈ Finset.range r.length, x.getD j 0 * r.getD j 0 := by
  induction r generalizing x with
  | nil => simp
  | cons a r ih =>
    cases x with
    | nil => simp at h
    | cons b x =>
      rw [List.zipWith_cons_cons, List.sum_cons, ih x (by simpa using h), List.length_cons,
        Finset.sum_range_succ', mul_comm a b, add_comm]
      simp

theorem dense_affine (rows : List (List α)) (bs x : List α) (prev s : Nat) (act : α → α)
    (h1 : rows.length = bs.length) (h2 : ∀ r ∈ rows, r.length = prev) (h3 : bs.length = s)
    (hx : x.length = prev) :
    tensor s (Layers.denseForward prev act (transposed rows) (fun k => bs.getD k 0)
      fun j => x.getD j 0) = (affine rows bs x).map act := by
  apply List.ext_getElem
  · simp [affine, h1, h3]
  · intro i hi _
    have hib : i < bs.length := by rw [h3]; simpa using hi
    have hir : i < rows.length := by omega
    have hr : rows[i].length = prev := h2 _ (List.getElem_mem hir)
    rw [tensor_get, List.getElem_map]
    simp only [affine, List.getElem_zipWith]
    rw [zip_sum _ _ (by rw [hr, hx]), hr]
    unfold Layers.denseForward Np.vecMat transposed
    simp only [List.getD, List.getElem?_eq_getElem hib, List.getElem?_eq_getElem hir,
      Option.getD_some]

theorem nnetEval_val (d : NnetDesc α) (hd : d.Ok) (x : List α) (hx : x.length = d.inputSize) (k : Nat)
    (hk : k ≤ d.layers.length) :
    nnetEval (d.layers.drop (d.layers.length - k)) (nnetVal d x (d.layers.length - k)) =
      nnetVal d x d.layers.length := by
  induction k with
  | zero => simp [nnetEval]
  | succ k ih =>
    have ih := ih (by omega)
    obtain ⟨i, hi⟩ : ∃ i, i = d.layers.length - (k + 1) := ⟨_, rfl⟩
    have hi1 : d.layers.length - k = i + 1 := by omega
    have hil : i < d.layers.length := by omega
    rw [← hi]
    rw [hi1] at ih
    obtain ⟨p, hp⟩ : ∃ p, d.layers[i]? = some p := ⟨_, List.getElem?_eq_getElem hil⟩
    obtain ⟨f1, f2, f3⟩ := fit_sizes _ _ hd.fit i p hp
    have hpd : d.layers.getD i ([], []) = p := by simp [List.getD, hp]
    have hdrop : d.layers.drop i = p :: d.layers.drop (i + 1) := by
      rw [List.drop_eq_getElem_cons hil]
      rw [List.getElem?_eq_getElem hil, Option.some.injEq] at hp
      rw [hp]
    have hval : nnetVal d x (i + 1) =
        (affine p.1 p.2 (nnetVal d x i)).map (actPy (decide (i + 1 < d.layers.length))) := by
      rw [nnetVal, forward_dense d _ i hil, hpd]
      apply dense_affine _ _ _ _ _ _ f1 f3
      · have : d.sizes[i + 1]? = some p.2.length := f2
        simp [List.getD, this]
      · exact nnetVal_length d x hx i (by omega)
    rw [hdrop]
    by_cases hlast : i + 1 < d.layers.length
    · obtain ⟨q, hq⟩ : ∃ q, d.layers.drop (i + 1) = q :: d.layers.drop (i + 2) :=
        ⟨_, List.drop_eq_getElem_cons hlast⟩
      rw [hq] at ih ⊢
      rw [nnetEval]
      · rw [hval] at ih
        simp only [hlast, decide_true, actPy, if_true] at ih
        exact ih
      · simp
    · have : d.layers.drop (i + 1) = [] := List.drop_eq_nil_iff.mpr (by omega)
      rw [this] at ih ⊢
      rw [← ih, hval]
      have ha : actPy (α := α) (decide (i + 1 < d.layers.length)) = id := by
        funext v; simp [hlast, actPy]
      rw [ha, List.map_id]
      rfl

/-- C45, reference.  For every NNET description and every way of writing its numbers, loading the
file succeeds, and running the Python reference on the loaded layers computes, layer by layer,
`relu(W x + b)` with the file's weight rows, the last layer without `relu`; the normaliser receives
the file's data. -/
theorem C45_loads {pf : Line → Option α} (C : Codec α pf) (d : NnetDesc α) (hd : d.Ok) :
    ∃ net, loadNnet pf (d.file C) = some net ∧
      net.normalizer = ⟨d.inputSize, d.sizes.getLastD 0, d.mins, d.maxes, d.means, d.ranges⟩ ∧
      net.layers.length = d.layers.length + 1 ∧
      ∀ x : List α, x.length = d.inputSize →
        Graph.interp net.prevOf net.nextOf net.forward net.plan.order x =
          some (nnetEval d.layers x) := by
  refine ⟨d.net, load_spec C d hd, rfl, by simp [NnetDesc.net], fun x hx => ?_⟩
  have hmem : ∀ n ∈ d.net.plan.order, n ≤ d.layers.length := by
    intro n hn
    rw [net_order] at hn
    have := List.mem_range.mp hn
    omega
  have hint := Graph.interp_steps (fwd := d.net.forward) (x := x) (net_sorted d) (net_links d)
    (by
      intro n _ s hs
      rw [net_nextOf] at hs
      rw [net_order, List.mem_range]
      split at hs
      · have := List.mem_singleton.mp hs; omega
      · simp at hs)
    (v := nnetVal d x) (fun n hn => nnetVal_fix d x n (hmem n hn)) d.net.plan.order [] (by simp)
  unfold Graph.interp
  rw [hint]
  have hl : d.net.plan.order.getLast? = some d.layers.length := by
    rw [net_order, List.range_succ]; simp
  rw [hl]
  have := nnetEval_val d hd x hx d.layers.length (le_refl _)
  simp only [Nat.sub_self, List.drop_zero] at this
  simp only [Option.map_some]
  rw [← this]; rfl

/-- The parameter arrays hold the weights of the loaded layers in C order, and their biases
(`generator/neural_network.py` 603-611 and 1176-1199). -/
def NnetParams (net : Nnet α) (m : Mem α) : Prop :=
  ∀ l ∈ net.layers, ∀ p, l.dense = some p →
    Holds m (.par .weights l.idx) (matrix (net.sizeOf (l.prev.getD 0 0)) l.size p.w) ∧
    Holds m (.par .biases l.idx) (tensor l.size p.b)

/-- C45, generated code.  With the declared arrays, the file's parameters and an input vector in
`nn_input`, the generated inference function of the loaded network runs without error and leaves the
described result in `prediction`. -/
theorem C45_code {pf : Line → Option α} (C : Codec α pf) (d : NnetDesc α) (hd : d.Ok) (net : Nnet α)
    (hnet : loadNnet pf (d.file C) = some net) (other sizes : Buf → Nat)
    (hsizes : declared (net.layers.map fun l => { idx := l.idx, size := l.size }) 1 [] other = some sizes)
    (m : Mem α) (hm : m.size = sizes) (hpar : NnetParams net m)
    (x : List α) (hx : x.length = d.inputSize) (hin : Holds m .input x)
    (hpred : (nnetEval d.layers x).length ≤ m.size .pred) :
    ∃ m', Graph.inference net.plan net.prevOf net.sizeOf net.code m = some ((), m') ∧
      Holds m' .pred (nnetEval d.layers x) := by
  rw [load_spec C d hd, Option.some.injEq] at hnet
  subst hnet
  have hmem : ∀ n ∈ d.net.plan.order, n ≤ d.layers.length := by
    intro n hn
    rw [net_order] at hn
    have := List.mem_range.mp hn
    omega
  have hbig : ∀ n, n ≤ d.layers.length →
      d.sizes.getD n 0 ≤ m.size (.out 0) ∧ d.sizes.getD n 0 ≤ m.size .temp := by
    intro n hn
    have hl : (⟨n, d.sizes.getD n 0, none, false⟩ : LayerInfo) ∈
        d.net.layers.map fun l => { idx := l.idx, size := l.size } := by
      rw [List.mem_map]
      refine ⟨finalLayer d.layers d.sizes n, ?_, rfl⟩
      exact List.mem_map_of_mem (List.mem_range.mpr (by omega))
    have h1 := size_le_lSizeMax hl
    simp only [declared, cstSizes, Option.some.injEq] at hsizes
    rw [hm, ← hsizes]
    refine ⟨?_, ?_⟩
    · have h2 : lSizeMax (d.net.layers.map fun l => { idx := l.idx, size := l.size }) ≤
          pathSize (d.net.layers.map fun l => { idx := l.idx, size := l.size }) := by
        unfold pathSize; split <;> omega
      simp only [Nat.zero_lt_one, if_true]
      exact le_trans h1 h2
    · unfold tempSize
      exact le_trans h1 (le_max_left _ _)
  have hval := nnetEval_val d hd x hx d.layers.length (le_refl _)
  simp only [Nat.sub_self, List.drop_zero] at hval
  have hval : nnetEval d.layers x = nnetVal d x d.layers.length := hval
  have hsz : ∀ n ∈ d.net.plan.order, (nnetVal d x n).length = d.net.sizeOf n := fun n hn => by
    rw [net_sizeOf d n (hmem n hn)]; exact nnetVal_length d x hx n (hmem n hn)
  have hout : ∀ n, Graph.outStr d.net.plan n = .out 0 := by
    intro n
    unfold Graph.outStr
    rw [show d.net.plan.cst n = none from rfl, net_path]
  obtain ⟨m1, e1, hm1, -, h1⟩ := Graph.run_refines (plan := d.net.plan) (nextOf := d.net.nextOf)
    (code := d.net.code) (m0 := m) (size := d.net.sizeOf) (x := x) (fwd := d.net.forward)
    (net_sorted d) (net_links d)
    (by
      intro pre post he p q hpq hp hq
      exfalso
      rw [net_order] at he
      have hpre : pre = List.range pre.length := by
        have h1 : pre = (List.range (d.layers.length + 1)).take pre.length := by rw [he]; simp
        have h2 : pre.length ≤ d.layers.length + 1 := by
          have := congrArg List.length he
          simp at this; omega
        rw [List.take_range, Nat.min_eq_left h2] at h1
        exact h1
      have key : ∀ p, Graph.Held d.net.nextOf pre p → p + 1 = pre.length := by
        intro p hp
        obtain ⟨h1, h2⟩ := hp
        rw [hpre, List.mem_range] at h1
        have h3 : pre.length ≤ d.layers.length + 1 := by
          have := congrArg List.length he
          simp at this; omega
        rcases h2 with h2 | ⟨s, hs, hn⟩
        · rw [net_nextOf] at h2
          split at h2
          · simp at h2
          · omega
        · rw [net_nextOf] at hs
          split at hs
          · have hs := List.mem_singleton.mp hs
            rw [hpre, List.mem_range] at hn
            omega
          · simp at hs
      have := key p hp
      have := key q hq
      omega)
    (by
      intro pre post he p q hpq hp hq
      exfalso
      have := hp.2.1
      rw [net_nextOf] at this
      split at this <;> simp at this)
    (by intro n hn; simp [Nnet.plan] at hn)
    (by
      intro n hn m2 v hm2 hro hv
      have hn' := hmem n hn
      rw [net_path, show (d.net.prevOf n).map (Graph.outStr d.net.plan) =
        (d.net.prevOf n).map (fun _ => Buf.out 0) from List.map_congr_left fun p _ => hout p]
      unfold Nnet.code
      rw [net_layer, if_pos hn']
      cases n with
      | zero =>
        have hfwd : d.net.forward 0 (Graph.argsOf d.net.prevOf x v 0) = x := by
          have h : d.net.prevOf 0 = [] := by rw [net_prevOf, if_neg (by omega)]
          unfold Graph.argsOf
          rw [h]
          simp [Nnet.forward, net_layer, finalLayer]
        rw [hfwd]
        simp only [finalLayer, if_true]
        have hh : Holds m2 .input x := hin.congr hm2 (hro .input trivial)
        exact (Layers.C23_vector .first .first 0 0 0 (d.sizes.getD 0 0) 0 x m2 hx).1 hh
          (by rw [hm2]; exact (hbig 0 (by omega)).1)
      | succ n =>
        have hprev : d.net.prevOf (n + 1) = [n] := by
          rw [net_prevOf, if_pos ⟨by omega, hn'⟩]; rfl
        have hfwd : d.net.forward (n + 1) (Graph.argsOf d.net.prevOf x v (n + 1)) =
            d.net.forward (n + 1) [v n] := by
          unfold Graph.argsOf
          rw [hprev]; simp
        obtain ⟨hv1, hv2⟩ := hv n (by rw [hprev]; simp)
        rw [hout] at hv1
        have hsn : d.net.sizeOf n = d.sizes.getD n 0 := net_sizeOf d n (by omega)
        rw [hsn] at hv2
        rw [hfwd, hprev, forward_dense d _ n (by omega)]
        simp only [finalLayer, Nat.succ_ne_zero, if_false, Nat.add_sub_cancel]
        have hvt : Holds m2 (.out 0) (tensor (d.sizes.getD n 0) fun j => (v n).getD j 0) := by
          have : tensor (d.sizes.getD n 0) (fun j => (v n).getD j 0) = v n := by
            apply List.ext_getElem
            · simp [hv2]
            · intro i hi _
              have : i < (v n).length := by rw [hv2]; simpa using hi
              simp [List.getD, List.getElem?_eq_getElem this]
          rw [this]; exact hv1
        have hp := hpar (finalLayer d.layers d.sizes (n + 1))
          (List.mem_map_of_mem (List.mem_range.mpr (by omega)))
          ⟨transposed (d.layers.getD n ([], [])).1, fun k => (d.layers.getD n ([], [])).2.getD k 0,
            decide (n + 1 < d.layers.length)⟩
          (by simp [finalLayer])
        simp only [finalLayer, Nat.succ_ne_zero, if_false, Nat.add_sub_cancel] at hp
        rw [show ([n] : List Nat).getD 0 0 = n from rfl, hsn] at hp
        have hC := Layers.C08_dense (d.sizes.getD (n + 1) 0) (d.sizes.getD n 0) (n + 1) 0
          (actPy (decide (n + 1 < d.layers.length))) (.out 0) (transposed (d.layers.getD n ([], [])).1)
          (fun k => (d.layers.getD n ([], [])).2.getD k 0) (fun j => (v n).getD j 0) m2 (by simp) hvt
          (hp.1.congr hm2 (hro _ trivial)) (hp.2.congr hm2 (hro _ trivial))
          (by rw [hm2]; exact (hbig (n + 1) hn').2) (by rw [hm2]; exact (hbig (n + 1) hn').1)
        have hact : actC (α := α) (decide (n + 1 < d.layers.length)) =
            actPy (decide (n + 1 < d.layers.length)) := funext fun v => actC_eq _ v
        rw [hact]
        simp only [List.map_cons, List.map_nil]
        rw [show ([n] : List Nat).getD 0 0 = n from rfl, hsn]
        exact hC)
    (v := nnetVal d x) (fun n hn => nnetVal_fix d x n (hmem n hn)) hsz
    (by intro n _ k hk; simp [Nnet.plan] at hk)
    d.net.plan.order [] (by simp) m rfl (fun _ _ => rfl) (by simp) (by simp)
  have hl : d.net.plan.order.getLast? = some d.layers.length := by
    rw [net_order, List.range_succ]; simp
  have hfin := h1 _ hl
  rw [hval] at hpred
  obtain ⟨m2, e2, h2, -⟩ := copy_holds (fun _ a => a) hfin (dst := .pred) (by rw [hm1]; exact hpred)
  have hid : (nnetVal d x d.layers.length).mapIdx (fun _ a => a) = nnetVal d x d.layers.length := by
    apply List.ext_getElem <;> simp
  rw [hid] at h2
  refine ⟨m2, ?_, by rw [hval]; exact h2⟩
  unfold Graph.inference
  rw [andThen_run e1]
  unfold Graph.outputCopy
  rw [hl]
  dsimp only
  rw [← hsz d.layers.length (by rw [net_order]; simp)]
  exact e2

end run

/-! ### With normalisation -/

theorem nnetEval_length [CommRing α] [LinearOrder α] (d : NnetDesc α) (hd : d.Ok) (x : List α)
    (hx : x.length = d.inputSize) : (nnetEval d.layers x).length = d.sizes.getLastD 0 := by
  have hval := nnetEval_val d hd x hx d.layers.length (le_refl _)
  simp only [Nat.sub_self, List.drop_zero] at hval
  have hval : nnetEval d.layers x = nnetVal d x d.layers.length := hval
  rw [hval, nnetVal_length d x hx _ (le_refl _)]
  have hlen : d.sizes.length = d.layers.length + 1 := by simp [NnetDesc.sizes]
  rw [List.getLastD_eq_getLast?, List.getLast?_eq_getElem?, hlen]
  rfl

/-- C45 and C46 together: with normalisation, the generated inference function of the network loaded
from the file of a description leaves in `prediction` the de-normalised result of the described
network on the normalised input, as the Python reference does with `Normalizer.pre_processing` and
`post_processing`. -/
theorem C46_network [Field α] [LinearOrder α] {pf : Line → Option α} (C : Codec α pf)
    (d : NnetDesc α) (hd : d.Ok) (net : Nnet α) (hnet : loadNnet pf (d.file C) = some net)
    (hN : net.normalizer.WellFormed) (other sizes : Buf → Nat)
    (hsizes : declared (net.layers.map fun l => { idx := l.idx, size := l.size }) 1 [] other = some sizes)
    (m : Mem α) (hm : m.size = sizes) (hpar : NnetParams net m)
    (x : List α) (hx : x.length = d.inputSize) (hin : Holds m .input x)
    (hpred : d.sizes.getLastD 0 ≤ m.size .pred) :
    ∃ K m' x' y y', net.normalizer.consts = some K ∧
      net.normalizer.preProcessing net.normalizer.inputSize x = some x' ∧
      Graph.interp net.prevOf net.nextOf net.forward net.plan.order x' = some y ∧
      y = nnetEval d.layers x' ∧ net.normalizer.postProcessing y = some y' ∧
      net.normalisedInference K m = some ((), m') ∧ Holds m' .pred y' := by
  obtain ⟨net', h1, h2, -, h4⟩ := C45_loads C d hd
  rw [hnet, Option.some.injEq] at h1
  subst h1
  have hni : net.normalizer.inputSize = d.inputSize := by rw [h2]
  have hno : net.normalizer.outputSize = d.sizes.getLastD 0 := by rw [h2]
  obtain ⟨K, m1, x', hK, e1, hp1, hh1, c1, hl1, -⟩ :=
    C46_pre net.normalizer hN x (by rw [hx, hni]) m hin
  have hx' : x'.length = d.inputSize := by rw [hl1, hni]
  have hy := h4 x' hx'
  have hyl := nnetEval_length d hd x' hx'
  obtain ⟨m2, e2, hh2⟩ := C45_code C d hd net hnet other sizes hsizes m1 (by rw [c1.1, hm])
    (fun l hl p hp => by
      obtain ⟨a, b⟩ := hpar l hl p hp
      exact ⟨a.congr c1.1 (c1.2 _ (by simp)), b.congr c1.1 (c1.2 _ (by simp))⟩)
    x' hx' hh1 (by rw [c1.1, hyl]; exact hpred)
  have hlast : ∀ l : List α, l.length = net.normalizer.inputSize + 1 → ∃ a, l.getLast? = some a := by
    intro l h
    cases hh : l.getLast? with
    | none => rw [List.getLast?_eq_none_iff] at hh; rw [hh] at h; simp at h
    | some a => exact ⟨a, rfl⟩
  obtain ⟨mean, hmean⟩ := hlast _ hN.means
  obtain ⟨range, hrange⟩ := hlast _ hN.ranges
  obtain ⟨K', m3, hK', e3, hp3, hh3, -⟩ := C46_post net.normalizer hN (nnetEval d.layers x')
    (by rw [hyl, hno]) m2 hh2 range mean hrange hmean
  rw [hK, Option.some.injEq] at hK'
  subst hK'
  refine ⟨K, m3, x', _, _, hK, hp1, hy, rfl, hp3, ?_, hh3⟩
  unfold Nnet.normalisedInference
  rw [andThen_run e1, andThen_run e2, e3]

/-! ### Non-vacuity -/

/-- `float(text)` for texts of integers. -/
def exParse (s : Line) : Option ℚ :=
  match s with
  | '-' :: t => (parseNat t).map fun n : Nat => -(n : ℚ)
  | t => (parseNat t).map fun n : Nat => (n : ℚ)

/-- A network with integer weights: two inputs, one hidden layer of two, one output. -/
def exDesc : NnetDesc ℚ where
  comments := ["// a comment\n".toList]
  maxSize := 2
  unused := "0,\n".toList
  inputSize := 2
  layers := [([[1, -1], [2, 0]], [0, -3]), ([[1, 1]], [5])]
  mins := [0, 0]
  maxes := [10, 10]
  means := [1, 1, 4]
  ranges := [2, 1, 3]

/-- The file of the description, spelled out. -/
def exFile : List Line :=
  ["// a comment\n", "2,2,1,2,\n", "2,2,1,\n", "0,\n", "0,0,\n", "10,10,\n", "1,1,4,\n",
   "2,1,3,\n", "1,-1,\n", "2,0,\n", "0,\n", "-3,\n", "1,1,\n", "5,\n"].map String.toList

example : exDesc.Ok := by
  refine ⟨?_, ?_⟩
  · intro l hl
    simp only [exDesc, List.mem_singleton] at hl
    exact ⟨_, hl.trans rfl⟩
  · simp [exDesc, LayersFit]

/-- The file is read as described, and the described function is what one expects: the hidden values
for `(3, 1)` are `relu(2) = 2` and `relu(3) = 3`, the result `2 + 3 + 5`. -/
example : ((loadNnet exParse exFile).map fun n => n.layers.map NLayer.size) = some [2, 2, 1] ∧
    ((loadNnet exParse exFile).bind fun n =>
      Graph.interp n.prevOf n.nextOf n.forward n.plan.order [3, 1]) = some [10] ∧
    nnetEval exDesc.layers [3, 1] = [10] := by decide +kernel

/-- reading the text of an integer -/
def intParse (s : Line) : Option Int :=
  match s with
  | '-' :: t => (parseNat t).map fun n : Nat => -(n : Int)
  | t => (parseNat t).map fun n : Nat => (n : Int)

/-- Texts without comma or blank that read back exist for every integer, so `Codec` is inhabited. -/
def intCodec : Codec Int intParse where
  text v := if v < 0 then '-' :: natText v.natAbs else natText v.natAbs
  reads v := by
    unfold intParse
    by_cases h : v < 0
    · simp only [h, if_true, parseNat_text, Option.map_some, Option.some.injEq]; omega
    · simp only [h, if_false]
      have hne := natText_clean v.natAbs
      cases ht : natText v.natAbs with
      | nil => exact absurd ht hne.1
      | cons c t =>
        have hc : c.isDigit := by
          apply Nat.isDigit_of_mem_toDigits (b := 10) (n := v.natAbs) (by norm_num) (by norm_num)
          have : c ∈ natText v.natAbs := by rw [ht]; exact List.mem_cons_self ..
          exact this
        have hcm : c ≠ '-' := by rintro rfl; revert hc; decide
        split
        · rename_i heq; simp only [List.cons.injEq] at heq; exact absurd heq.1 hcm
        · rw [← ht, parseNat_text, Option.map_some, Option.some.injEq]; omega
  nonempty v := by
    split
    · simp
    · exact (natText_clean _).1
  clean v c hc := by
    split at hc
    · rcases List.mem_cons.mp hc with rfl | h
      · decide
      · exact (natText_clean _).2 c h
    · exact (natText_clean _).2 c hc

section
variable [CommRing α] [LinearOrder α]

/-- For every description and input there is a memory with the declared sizes that holds the
parameters and the input: the hypotheses of `C45_code` are met for every network. -/
theorem nnet_memory_exists (d : NnetDesc α) (x : List α) :
    ∃ (other sizes : Buf → Nat) (m : Mem α),
      declared (d.net.layers.map fun l => { idx := l.idx, size := l.size }) 1 [] other = some sizes ∧
      m.size = sizes ∧ NnetParams d.net m ∧ Holds m .input x ∧
      (nnetEval d.layers x).length ≤ m.size .pred := by
  obtain ⟨other, hother⟩ : ∃ other : Buf → Nat, other = fun b => match b with
    | .input => x.length
    | .pred => (nnetEval d.layers x).length
    | .par .weights n => d.net.sizeOf (n - 1) * d.net.sizeOf n
    | .par .biases n => d.net.sizeOf n
    | _ => 0 := ⟨_, rfl⟩
  refine ⟨other, _, ⟨_, fun b a => match b with
    | .input => x.getD a 0
    | .par .weights n => transposed (d.layers.getD (n - 1) ([], [])).1 (a / d.net.sizeOf n)
        (a % d.net.sizeOf n)
    | .par .biases n => (d.layers.getD (n - 1) ([], [])).2.getD a 0
    | _ => 0⟩, rfl, rfl, ?_, ?_, ?_⟩
  · intro l hl p hp
    obtain ⟨i, hi, rfl⟩ := List.mem_map.mp hl
    have hi := List.mem_range.mp hi
    have hsi : (finalLayer d.layers d.sizes i).size = d.net.sizeOf i :=
      (net_sizeOf d i (by omega)).symm
    by_cases h0 : i = 0
    · subst h0; simp [finalLayer] at hp
    · have hprev : (finalLayer d.layers d.sizes i).prev.getD 0 0 = i - 1 := by
        simp [finalLayer, h0]
      have hp' : p = ⟨transposed (d.layers.getD (i - 1) ([], [])).1,
          fun k => (d.layers.getD (i - 1) ([], [])).2.getD k 0, decide (i < d.layers.length)⟩ := by
        simp only [finalLayer, h0, if_false, Option.some.injEq] at hp
        exact hp.symm
      subst hp'
      rw [hprev, hsi]
      have hidx : (finalLayer d.layers d.sizes i).idx = i := rfl
      rw [hidx]
      constructor
      · refine holds_matrix.2 ⟨by simp [hother], ?_⟩
        intro j k hj hk
        have hpos : 0 < d.net.sizeOf i := lt_of_le_of_lt (Nat.zero_le _) hk
        dsimp only
        rw [show (j * d.net.sizeOf i + k) / d.net.sizeOf i = j by
            rw [Nat.mul_comm, Nat.mul_add_div hpos, Nat.div_eq_of_lt hk, Nat.add_zero],
          show (j * d.net.sizeOf i + k) % d.net.sizeOf i = k by
            rw [Nat.mul_comm, Nat.mul_add_mod, Nat.mod_eq_of_lt hk]]
      · refine holds_tensor.2 ⟨by simp [hother], ?_⟩
        intro a _; rfl
  · refine ⟨by simp [hother], ?_⟩
    intro a ha
    simp [List.getD, List.getElem?_eq_getElem ha]
  · simp [hother]

end

end Verif.Gen

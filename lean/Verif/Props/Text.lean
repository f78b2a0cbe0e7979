/-
C42 (hexadecimal constants), C43 (Q-formats) and C49 (importer dispatch).
-/
import Verif.Gen.Text
import Mathlib.Tactic.Ring
import Mathlib.Tactic.FieldSimp
import Mathlib.Tactic.NormNum
import Mathlib.Data.List.TakeWhile
import Mathlib.Tactic.FinCases
import Mathlib.Tactic.LinearCombination

namespace Verif.Gen

/-! ## C42 -/

/-- Value of a hexadecimal digit. -/
def hexDigitVal (c : Char) : Option Nat :=
  if '0' ≤ c ∧ c ≤ '9' then some (c.toNat - 48)
  else if 'a' ≤ c ∧ c ≤ 'f' then some (c.toNat - 87)
  else if 'A' ≤ c ∧ c ≤ 'F' then some (c.toNat - 55)
  else none

/-- Value of a string of hexadecimal digits. -/
def hexDigitsVal (ds : List Char) : Nat :=
  ds.foldl (fun acc c => 16 * acc + (hexDigitVal c).getD 0) 0

/-- The number denoted by a (signed) hexadecimal floating constant of C (ISO C17, 6.4.4.2):
`[-] 0x H* [. H*] p (+|-) D+` denotes `± H · 16^(- number of fraction digits) · 2^exponent`. -/
def hexConstant (s : List Char) : Option ℚ :=
  let neg := s.head? = some '-'
  match (if neg then s.drop 1 else s) with
  | '0' :: 'x' :: s =>
    let isHex := fun c => (hexDigitVal c).isSome
    let ip := s.takeWhile isHex
    let s := s.dropWhile isHex
    let dot := s.head? = some '.'
    let fp := if dot then (s.drop 1).takeWhile isHex else []
    let s := if dot then (s.drop 1).dropWhile isHex else s
    match s with
    | 'p' :: sg :: es =>
      if ip ++ fp ≠ [] ∧ es ≠ [] ∧ es.all Char.isDigit ∧ (sg = '+' ∨ sg = '-') then
        let e : Int := if sg = '-' then -(Nat.ofDigitChars 10 es 0 : Int)
          else Nat.ofDigitChars 10 es 0
        some ((if neg then -1 else 1) * (hexDigitsVal (ip ++ fp) : ℚ) *
          (2 : ℚ) ^ (e - 4 * fp.length))
      else none
    | _ => none
  | _ => none

/-- The number a finite double stands for: `(-1)^neg · (lead + mant / 2^52) · 2^exp`. -/
def Dbl.value : Dbl → Option ℚ
  | .zero _ => some 0
  | .fin neg lead mant exp =>
    some ((if neg then -1 else 1) * ((if lead then 1 else 0) + (mant : ℚ) / 2 ^ 52) * (2 : ℚ) ^ exp)
  | _ => none

theorem hexDigit_val (d : Nat) (h : d < 16) : hexDigitVal (hexDigit d) = some d := by
  have : ∀ d < 16, hexDigitVal (hexDigit d) = some d := by decide +kernel
  exact this d h

theorem hexPad_length (w m : Nat) : (hexPad w m).length = w := by
  induction w generalizing m with
  | zero => rfl
  | succ w ih => simp [hexPad, ih]

theorem hexPad_hex (w m : Nat) : ∀ c ∈ hexPad w m, (hexDigitVal c).isSome := by
  induction w generalizing m with
  | zero => simp [hexPad]
  | succ w ih =>
    intro c hc
    rw [hexPad, List.mem_append] at hc
    rcases hc with hc | hc
    · exact ih _ c hc
    · rw [List.mem_singleton] at hc
      rw [hc, hexDigit_val _ (Nat.mod_lt _ (by norm_num))]; rfl

theorem hexDigitsVal_append (a b : List Char) :
    hexDigitsVal (a ++ b) = 16 ^ b.length * hexDigitsVal a + hexDigitsVal b := by
  have key : ∀ (b : List Char) (i : Nat),
      b.foldl (fun acc c => 16 * acc + (hexDigitVal c).getD 0) i = 16 ^ b.length * i + hexDigitsVal b := by
    intro b
    induction b with
    | nil => intro i; simp [hexDigitsVal]
    | cons c b ih =>
      intro i
      simp only [List.foldl_cons, hexDigitsVal, List.length_cons]
      rw [ih, ih (16 * 0 + _)]
      ring
  unfold hexDigitsVal
  rw [List.foldl_append, key b]
  rfl

theorem hexPad_val (w m : Nat) (h : m < 16 ^ w) : hexDigitsVal (hexPad w m) = m := by
  induction w generalizing m with
  | zero => simp at h; subst h; rfl
  | succ w ih =>
    rw [hexPad, hexDigitsVal_append]
    have hm : m / 16 < 16 ^ w := by
      rw [Nat.div_lt_iff_lt_mul (by norm_num)]; rw [pow_succ] at h; exact h
    rw [ih _ hm]
    simp only [List.length_singleton, pow_one, hexDigitsVal, List.foldl_cons, List.foldl_nil,
      hexDigit_val _ (Nat.mod_lt m (by norm_num : 16 > 0)), Option.getD_some]
    omega

theorem pyReplace_none (s : List Char) (h : 'p' ∉ s) :
    pyReplace "0000000p".toList ['p'] s = s := by
  induction s with
  | nil => rw [pyReplace]
  | cons c s ih =>
    rw [pyReplace, if_neg]
    · rw [ih (fun hc => h (List.mem_cons_of_mem _ hc))]
    · rintro ⟨hp, -⟩
      have hpre : "0000000p".toList <+: c :: s := List.isPrefixOf_iff_prefix.mp hp
      exact h (hpre.subset (by decide))

/-- `replace("0000000p", "p")` on a text with a single `p`: the seven zeros before it are removed if
they are there, nothing else changes. -/
theorem pyReplace_single (pre tail : List Char) (h1 : 'p' ∉ pre) (h2 : 'p' ∉ tail) :
    ∃ pre', pyReplace "0000000p".toList ['p'] (pre ++ 'p' :: tail) = pre' ++ 'p' :: tail ∧
      (pre' = pre ∨ pre = pre' ++ List.replicate 7 '0') := by
  induction pre with
  | nil =>
    refine ⟨[], ?_, Or.inl rfl⟩
    rw [List.nil_append, pyReplace, if_neg]
    · rw [pyReplace_none _ h2]
    · rintro ⟨hp, -⟩
      have hpre : "0000000p".toList <+: 'p' :: tail := List.isPrefixOf_iff_prefix.mp hp
      obtain ⟨t, ht⟩ := hpre
      have := congrArg List.head? ht
      revert this
      simp
  | cons c pre ih =>
    rw [List.cons_append, pyReplace]
    split
    · rename_i hp
      have hpre : "0000000p".toList <+: c :: (pre ++ 'p' :: tail) :=
        List.isPrefixOf_iff_prefix.mp hp.1
      obtain ⟨t, ht⟩ := hpre
      have e1 : "0000000p".toList = List.replicate 7 '0' ++ ['p'] := by decide
      have ht' : List.replicate 7 '0' ++ 'p' :: t = (c :: pre) ++ 'p' :: tail := by
        rw [e1, List.append_assoc] at ht; exact ht
      have hz : 'p' ∉ List.replicate 7 '0' := by decide
      have hsplit : List.replicate 7 '0' = c :: pre ∧ t = tail := by
        rcases List.append_eq_append_iff.mp ht' with ⟨a, ha, hb⟩ | ⟨a, ha, hb⟩
        · cases a with
          | nil =>
            simp only [List.append_nil, List.nil_append, List.cons.injEq, true_and] at ha hb
            exact ⟨ha.symm, hb⟩
          | cons x a =>
            exfalso
            simp only [List.cons_append, List.cons.injEq] at hb
            apply h1
            rw [ha, ← hb.1]; simp
        · cases a with
          | nil =>
            simp only [List.append_nil, List.nil_append, List.cons.injEq, true_and] at ha hb
            exact ⟨ha, hb.symm⟩
          | cons x a =>
            exfalso
            simp only [List.cons_append, List.cons.injEq] at hb
            apply hz
            rw [ha, ← hb.1]; simp
      refine ⟨[], ?_, Or.inr ?_⟩
      · have hd : (c :: (pre ++ 'p' :: tail)).drop "0000000p".toList.length = tail := by
          rw [← ht, List.drop_left, hsplit.2]
        rw [hd, pyReplace_none _ h2]; rfl
      · rw [List.nil_append]; exact hsplit.1.symm
    · obtain ⟨pre', h3, h4⟩ := ih (fun hc => h1 (List.mem_cons_of_mem _ hc))
      refine ⟨c :: pre', by rw [h3]; rfl, ?_⟩
      rcases h4 with h4 | h4
      · left; rw [h4]
      · right; rw [List.cons_append, ← h4]

/-- Reading back a constant `[-]0x d . ds p exponent`. -/
theorem hexConstant_read (neg : Bool) (d : Char) (ds : List Char) (e : Int)
    (hd : (hexDigitVal d).isSome) (hds : ∀ c ∈ ds, (hexDigitVal c).isSome) :
    hexConstant ((if neg then ['-'] else []) ++ '0' :: 'x' :: d :: '.' :: (ds ++ 'p' :: expText e)) =
      some ((if neg then -1 else 1) * (hexDigitsVal (d :: ds) : ℚ) *
        (2 : ℚ) ^ (e - 4 * ds.length)) := by
  have hx : ∀ c, (hexDigitVal c).isSome = false → c = '.' ∨ c = 'p' →
      (hexDigitVal c).isSome = false := fun c h _ => h
  have hdot : (hexDigitVal '.').isSome = false := by decide +kernel
  have hp : (hexDigitVal 'p').isSome = false := by decide +kernel
  have htw : ∀ l rest, (∀ c ∈ l, (hexDigitVal c).isSome) →
      (l ++ 'p' :: rest).takeWhile (fun c => (hexDigitVal c).isSome) = l := by
    intro l rest hl
    rw [List.takeWhile_append_of_pos (by simpa using hl)]
    simp [List.takeWhile_cons, hp]
  have hdw : ∀ l rest, (∀ c ∈ l, (hexDigitVal c).isSome) →
      (l ++ 'p' :: rest).dropWhile (fun c => (hexDigitVal c).isSome) = 'p' :: rest := by
    intro l rest hl
    rw [List.dropWhile_append_of_pos (by simpa using hl)]
    simp [List.dropWhile_cons, hp]
  have hsign : hexConstant ((if neg then ['-'] else []) ++ '0' :: 'x' :: d :: '.' ::
      (ds ++ 'p' :: expText e)) =
      (if [d] ++ ds ≠ [] ∧ Nat.toDigits 10 e.natAbs ≠ [] ∧
          (Nat.toDigits 10 e.natAbs).all Char.isDigit ∧
          ((if e < 0 then '-' else '+') = '+' ∨ (if e < 0 then '-' else '+') = '-') then
        some ((if neg then -1 else 1) * (hexDigitsVal ([d] ++ ds) : ℚ) *
          (2 : ℚ) ^ ((if (if e < 0 then '-' else '+') = '-' then
              -(Nat.ofDigitChars 10 (Nat.toDigits 10 e.natAbs) 0 : Int)
            else Nat.ofDigitChars 10 (Nat.toDigits 10 e.natAbs) 0) - 4 * ds.length))
      else none) := by
    unfold hexConstant
    cases neg
    · simp [List.takeWhile_cons, List.dropWhile_cons, hd, hdot, htw ds _ hds, hdw ds _ hds, expText]
    · simp [List.takeWhile_cons, List.dropWhile_cons, hd, hdot, htw ds _ hds, hdw ds _ hds, expText]
  rw [hsign, if_pos]
  · congr 3
    rw [Nat.ofDigitChars_ten_toDigits]
    by_cases he : e < 0
    · simp only [he, if_true]
      omega
    · simp only [he, if_false]
      rw [if_neg (by decide)]
      omega
  · refine ⟨by simp, Nat.toDigits_ne_nil, ?_, ?_⟩
    · rw [List.all_eq_true]
      intro c hc
      exact Nat.isDigit_of_mem_toDigits (by norm_num) (by norm_num) hc
    · by_cases he : e < 0 <;> simp [he]

theorem p_not_hex (ds : List Char) (h : ∀ c ∈ ds, (hexDigitVal c).isSome) : 'p' ∉ ds := by
  intro hc
  have := h _ hc
  revert this
  decide +kernel

theorem p_not_exp (e : Int) : 'p' ∉ expText e := by
  intro hc
  rcases List.mem_cons.mp hc with h | h
  · by_cases he : e < 0
    · rw [if_pos he] at h; revert h; decide
    · rw [if_neg he] at h; revert h; decide
  · have := Nat.isDigit_of_mem_toDigits (by norm_num) (by norm_num) h
    revert this; decide

theorem hexVal_zeros (ds : List Char) (k : Nat) :
    hexDigitsVal (ds ++ List.replicate k '0') = 16 ^ k * hexDigitsVal ds := by
  rw [hexDigitsVal_append, List.length_replicate]
  have : hexDigitsVal (List.replicate k '0') = 0 := by
    induction k with
    | zero => rfl
    | succ k ih =>
      rw [List.replicate_succ', hexDigitsVal_append, ih]
      decide +kernel
  rw [this, Nat.add_zero]

/-- C42, shortening.  For every digit string, exponent and sign, the shortened text denotes the same
number as the original one. -/
theorem C42_shortened (neg : Bool) (d : Char) (ds : List Char) (e : Int)
    (hd : (hexDigitVal d).isSome) (hds : ∀ c ∈ ds, (hexDigitVal c).isSome) (hlen : 7 ≤ ds.length) :
    let s := (if neg then ['-'] else []) ++ '0' :: 'x' :: d :: '.' :: (ds ++ 'p' :: expText e)
    hexConstant (pyReplace "0000000p".toList ['p'] s) = hexConstant s ∧
      (hexConstant s).isSome := by
  intro s
  have hs : s = ((if neg then ['-'] else []) ++ '0' :: 'x' :: d :: '.' :: ds) ++ 'p' :: expText e := by
    simp [s]
  have hnp : 'p' ∉ (if neg then ['-'] else []) ++ '0' :: 'x' :: d :: '.' :: ds := by
    have h1 := p_not_hex ds hds
    have h2 : d ≠ 'p' := by
      intro h; rw [h] at hd; revert hd; decide +kernel
    cases neg <;> simp [h1, h2.symm]
  obtain ⟨pre', h3, h4⟩ := pyReplace_single _ (expText e) hnp (p_not_exp e)
  have hread := hexConstant_read neg d ds e hd hds
  refine ⟨?_, by rw [show s = _ from rfl, hread]; rfl⟩
  rw [hs, h3]
  rcases h4 with h4 | h4
  · rw [h4]
  · obtain ⟨ds', hds', hpre⟩ : ∃ ds', ds = ds' ++ List.replicate 7 '0' ∧
        pre' = (if neg then ['-'] else []) ++ '0' :: 'x' :: d :: '.' :: ds' := by
      have hA : (if neg then ['-'] else []) ++ '0' :: 'x' :: d :: '.' :: ds =
          ((if neg then ['-'] else []) ++ ['0', 'x', d, '.']) ++ ds := by simp
      rw [hA] at h4
      rcases List.append_eq_append_iff.mp h4 with ⟨a, ha, hb⟩ | ⟨a, ha, hb⟩
      · exact ⟨a, hb, by rw [ha]; simp⟩
      · have hl := congrArg List.length hb
        simp only [List.length_append, List.length_replicate] at hl
        have ha0 : a = [] := List.length_eq_zero_iff.mp (by omega)
        subst ha0
        simp only [List.append_nil, List.nil_append] at ha hb
        exact ⟨[], by rw [← hb, List.nil_append], by rw [← ha]⟩
    rw [hpre]
    have hds2 : ∀ c ∈ ds', (hexDigitVal c).isSome := fun c hc =>
      hds c (by rw [hds']; exact List.mem_append_left _ hc)
    have hr' := hexConstant_read neg d ds' e hd hds2
    have eq1 : ((if neg then ['-'] else []) ++ '0' :: 'x' :: d :: '.' :: ds') ++ 'p' :: expText e =
        (if neg then ['-'] else []) ++ '0' :: 'x' :: d :: '.' :: (ds' ++ 'p' :: expText e) := by
      simp
    have eq2 : ((if neg then ['-'] else []) ++ '0' :: 'x' :: d :: '.' :: ds) ++ 'p' :: expText e =
        (if neg then ['-'] else []) ++ '0' :: 'x' :: d :: '.' :: (ds ++ 'p' :: expText e) := by
      simp
    rw [eq1, hr', eq2, hread]
    congr 1
    have hv : hexDigitsVal (d :: ds) = 16 ^ 7 * hexDigitsVal (d :: ds') := by
      rw [hds', ← List.cons_append, hexVal_zeros]
    have hl : ds.length = ds'.length + 7 := by rw [hds']; simp
    rw [hv, hl]
    push_cast
    have h28 : (2 : ℚ) ^ (e - 4 * ((ds'.length : Int) + 7)) =
        (2 : ℚ) ^ (e - 4 * (ds'.length : Int)) * ((16 : ℚ) ^ 7)⁻¹ := by
      rw [show e - 4 * ((ds'.length : Int) + 7) = (e - 4 * (ds'.length : Int)) - 28 by ring,
        zpow_sub₀ (by norm_num)]
      norm_num
      ring
    rw [h28]
    rw [show ((16 : ℚ) ^ 7) = 268435456 by norm_num]
    ring

/-- C42.  The constant written in the C code for a finite parameter denotes exactly that parameter. -/
theorem C42_exact (d : Dbl) (v : ℚ) (hv : d.value = some v)
    (hm : ∀ neg lead mant exp, d = .fin neg lead mant exp → mant < 2 ^ 52) :
    hexConstant (data2c d) = some v := by
  cases d with
  | inf neg => simp [Dbl.value] at hv
  | nan => simp [Dbl.value] at hv
  | zero neg =>
    simp only [Dbl.value, Option.some.injEq] at hv
    subst hv
    have h0 : data2c (.zero neg) = floatHex (.zero neg) := by
      cases neg
      · simp [data2c, floatHex, pyReplace, List.isPrefixOf]
      · simp [data2c, floatHex, pyReplace, List.isPrefixOf]
    rw [h0]
    have := hexConstant_read neg '0' ['0'] 0 (by decide +kernel) (by decide +kernel)
    have e1 : floatHex (.zero neg) = (if neg then ['-'] else []) ++ '0' :: 'x' :: '0' :: '.' ::
        (['0'] ++ 'p' :: expText 0) := by
      cases neg <;> decide +kernel
    rw [e1, this]
    have hz : hexDigitsVal ['0', '0'] = 0 := by decide +kernel
    rw [hz]; simp
  | fin neg lead mant exp =>
    have hmant := hm neg lead mant exp rfl
    simp only [Dbl.value, Option.some.injEq] at hv
    subst hv
    have hd : (hexDigitVal (if lead then '1' else '0')).isSome := by
      cases lead <;> decide +kernel
    have hds := hexPad_hex 13 mant
    have h := C42_shortened neg (if lead then '1' else '0') (hexPad 13 mant) exp hd hds
      (by rw [hexPad_length]; norm_num)
    have hr := hexConstant_read neg (if lead then '1' else '0') (hexPad 13 mant) exp hd hds
    have e1 : hexConstant (data2c (.fin neg lead mant exp)) = hexConstant ((if neg then ['-'] else []) ++
        '0' :: 'x' :: (if lead then '1' else '0') :: '.' :: (hexPad 13 mant ++ 'p' :: expText exp)) := h.1
    rw [e1, hr]
    congr 1
    have hval : hexDigitsVal ((if lead then '1' else '0') :: hexPad 13 mant) =
        16 ^ 13 * (if lead then 1 else 0) + mant := by
      have : (if lead then '1' else '0') :: hexPad 13 mant =
          [if lead then '1' else '0'] ++ hexPad 13 mant := rfl
      rw [this, hexDigitsVal_append, hexPad_length, hexPad_val 13 mant (by norm_num at hmant ⊢; omega)]
      cases lead
      · have : hexDigitsVal [if false = true then '1' else '0'] = 0 := by decide +kernel
        rw [this]; simp
      · have : hexDigitsVal [if true = true then '1' else '0'] = 1 := by decide +kernel
        rw [this]; simp
    rw [hval, hexPad_length]
    have h52 : (2 : ℚ) ^ (exp - 4 * ((13 : Nat) : Int)) = (2 : ℚ) ^ exp * ((2 : ℚ) ^ 52)⁻¹ := by
      rw [zpow_sub₀ (by norm_num)]
      norm_num
      ring_nf
    rw [h52]
    cases lead
    · simp; ring_nf
    · simp
      norm_num
      ring_nf

/-- C42 fails for non-finite parameters: the text written is no constant. -/
theorem C42_fails_inf : hexConstant (data2c (.inf false)) = none := by
  simp [data2c, floatHex, pyReplace, List.isPrefixOf, hexConstant]

/-- Non-vacuity: `1.5f`, `-0.1f` and the text that is written for them. -/
example : data2c (.fin false true 0x8000000000000 0) = "0x1.800000p+0".toList ∧
    data2c (.fin true true 0x99999a0000000 (-4)) = "-0x1.99999ap-4".toList := by
  constructor <;> simp [data2c, floatHex, pyReplace, List.isPrefixOf, hexPad, hexDigit, expText,
    Nat.toDigits, Nat.toDigitsCore, Nat.digitChar]

/-! ## C43 -/

/-- The ASCII decimal digits. -/
def asciiDigit (c : Char) : Prop := '0' ≤ c ∧ c ≤ '9'

/-- A digit table as Python's: the ASCII digits have their value, and the ASCII characters that are
not digits are not in it. -/
structure DigitTable.Valid (tab : DigitTable) : Prop where
  ascii : ∀ c : Char, asciiDigit c → tab c = some (c.toNat - 48)
  other : ∀ c : Char, c.toNat < 128 → ¬ asciiDigit c → tab c = none

/-- `s` is a text of the form `Q[-]digits.digits` (ASCII digits) standing for `(x, y)`. -/
def QText (s : List Char) (x : Int) (y : Nat) : Prop :=
  ∃ (neg : Bool) (ds es : List Char), ds ≠ [] ∧ es ≠ [] ∧ (∀ c ∈ ds ++ es, asciiDigit c) ∧
    s = 'Q' :: ((if neg then ['-'] else []) ++ ds ++ '.' :: es) ∧
    x = (if neg then -(Nat.ofDigitChars 10 ds 0 : Int) else Nat.ofDigitChars 10 ds 0) ∧
    y = Nat.ofDigitChars 10 es 0

theorem digitsVal_ascii (tab : DigitTable) (ht : tab.Valid) (ds : List Char)
    (h : ∀ c ∈ ds, asciiDigit c) : digitsVal tab ds = Nat.ofDigitChars 10 ds 0 := by
  unfold digitsVal
  have : ∀ i, ds.foldl (fun acc c => 10 * acc + (tab c).getD 0) i = Nat.ofDigitChars 10 ds i := by
    induction ds with
    | nil => intro i; simp
    | cons c ds ih =>
      intro i
      rw [List.foldl_cons, Nat.ofDigitChars_cons,
        ih (fun c hc => h c (List.mem_cons_of_mem _ hc)), ht.ascii c (h c (List.mem_cons_self ..))]
      simp
  exact this 0

theorem qtext_parse (tab : DigitTable) (ht : tab.Valid) (s : List Char) (x : Int) (y : Nat)
    (h : QText s x y) : parseQFormat tab s = some (x, y) := by
  obtain ⟨neg, ds, es, hds, hes, hdig, rfl, rfl, rfl⟩ := h
  have h1 : ∀ c ∈ ds, asciiDigit c := fun c hc => hdig c (List.mem_append_left _ hc)
  have h2 : ∀ c ∈ es, asciiDigit c := fun c hc => hdig c (List.mem_append_right _ hc)
  have t1 : ∀ c ∈ ds, (tab c).isSome = true := fun c hc => by rw [ht.ascii c (h1 c hc)]; rfl
  have t2 : ∀ c ∈ es, (tab c).isSome = true := fun c hc => by rw [ht.ascii c (h2 c hc)]; rfl
  have hdot : (tab '.').isSome = false := by
    rw [ht.other '.' (by decide) (by simp [asciiDigit])]; rfl
  have a1 : (ds ++ '.' :: es).takeWhile (fun c => (tab c).isSome) = ds := by
    rw [List.takeWhile_append_of_pos t1]; simp [List.takeWhile_cons, hdot]
  have a2 : (ds ++ '.' :: es).dropWhile (fun c => (tab c).isSome) = '.' :: es := by
    rw [List.dropWhile_append_of_pos t1]; simp [List.dropWhile_cons, hdot]
  have a3 : es.takeWhile (fun c => (tab c).isSome) = es := List.takeWhile_eq_self_iff.mpr t2
  have a4 : es.dropWhile (fun c => (tab c).isSome) = [] := List.dropWhile_eq_nil_iff.mpr t2
  have hhead : neg = false → (ds ++ '.' :: es).head? ≠ some '-' := by
    intro _
    cases ds with
    | nil => exact absurd rfl hds
    | cons c ds =>
      simp only [List.cons_append, List.head?_cons, ne_eq, Option.some.injEq]
      intro hc
      have := h1 c (List.mem_cons_self ..)
      rw [hc] at this
      revert this; simp [asciiDigit]
  unfold parseQFormat
  cases neg
  · have hh := hhead rfl
    simp only [Bool.false_eq_true, if_false, List.nil_append, hh, a1, a2, a3, a4, ne_eq, hds, hes,
      not_false_eq_true, true_or, and_self, if_true, digitsVal_ascii tab ht ds h1,
      digitsVal_ascii tab ht es h2]
  · simp only [if_true, List.cons_append, List.nil_append, List.head?_cons, List.drop_succ_cons,
      List.drop_zero, a1, a2, a3, a4, ne_eq, hds, hes, not_false_eq_true, true_or, and_self,
      digitsVal_ascii tab ht ds h1, digitsVal_ascii tab ht es h2]

theorem ascii_of_tab (tab : DigitTable) (ht : tab.Valid) (c : Char) (hc : c.toNat < 128)
    (h : (tab c).isSome) : asciiDigit c := by
  by_contra hn
  rw [ht.other c hc hn] at h
  simp at h

/-- C43.  For every ASCII text without a line break, `parse_q_format` returns `(x, y)` exactly when
the text is `Qx.y` (optional minus sign, decimal digits), and `None` otherwise.
Partial: for texts with a final line break or with non-ASCII digits the claim is false, see
`C43_fails_newline` and `C43_fails_unicode`. -/
theorem C43_parse_partial (tab : DigitTable) (ht : tab.Valid) (s : List Char)
    (hs : ∀ c ∈ s, c.toNat < 128 ∧ c ≠ '\n') (x : Int) (y : Nat) :
    parseQFormat tab s = some (x, y) ↔ QText s x y := by
  refine ⟨fun h => ?_, qtext_parse tab ht s x y⟩
  unfold parseQFormat at h
  split at h
  · rename_i s'
    dsimp only at h
    have hs' : ∀ c ∈ s', c.toNat < 128 ∧ c ≠ '\n' := fun c hc => hs c (List.mem_cons_of_mem _ hc)
    obtain ⟨neg, t, hst, hneg, ht'⟩ : ∃ (neg : Bool) (t : List Char),
        s' = (if neg then ['-'] else []) ++ t ∧ (s'.head? = some '-' ↔ neg = true) ∧
        t = (if s'.head? = some '-' then s'.drop 1 else s') := by
      by_cases hh : s'.head? = some '-'
      · cases s' with
        | nil => simp at hh
        | cons c t =>
          simp only [List.head?_cons, Option.some.injEq] at hh
          exact ⟨true, t, by simp [hh], by simp [hh], by simp [hh]⟩
      · exact ⟨false, s', by simp, by simp [hh], by simp [hh]⟩
    rw [← ht'] at h
    have htm : ∀ c ∈ t, c.toNat < 128 ∧ c ≠ '\n' := fun c hc => hs' c (by rw [hst]; simp [hc])
    have hsplit := List.takeWhile_append_dropWhile (p := fun c => (tab c).isSome) (l := t)
    split at h
    · rename_i u hu
      split at h
      · rename_i hcond
        obtain ⟨hds, hes, hrest⟩ := hcond
        simp only [Option.some.injEq, Prod.mk.injEq] at h
        rw [hu] at hsplit
        have hum : ∀ c ∈ u, c.toNat < 128 ∧ c ≠ '\n' := fun c hc =>
          htm c (by rw [← hsplit]; simp [hc])
        have hsplit2 := List.takeWhile_append_dropWhile (p := fun c => (tab c).isSome) (l := u)
        have hrest' : u.dropWhile (fun c => (tab c).isSome) = [] := by
          rcases hrest with h | h
          · exact h
          · exfalso
            have : '\n' ∈ u := by rw [← hsplit2, h]; simp
            exact (hum _ this).2 rfl
        rw [hrest', List.append_nil] at hsplit2
        have hd1 : ∀ c ∈ t.takeWhile (fun c => (tab c).isSome), asciiDigit c := fun c hc =>
          ascii_of_tab tab ht c (htm c ((List.takeWhile_prefix _).subset hc)).1
            (List.mem_takeWhile_imp (p := fun c => (tab c).isSome) hc)
        have hd2 : ∀ c ∈ u.takeWhile (fun c => (tab c).isSome), asciiDigit c := fun c hc =>
          ascii_of_tab tab ht c (hum c ((List.takeWhile_prefix _).subset hc)).1
            (List.mem_takeWhile_imp (p := fun c => (tab c).isSome) hc)
        refine ⟨neg, t.takeWhile (fun c => (tab c).isSome), u.takeWhile (fun c => (tab c).isSome),
          hds, hes, ?_, ?_, ?_, ?_⟩
        · intro c hc
          rcases List.mem_append.mp hc with hc | hc
          · exact hd1 c hc
          · exact hd2 c hc
        · rw [hsplit2, List.append_assoc, hsplit, ← hst]
        · rw [← h.1, ← digitsVal_ascii tab ht _ hd1]
          cases neg
          · rw [if_neg (by rw [hneg]; simp)]; simp
          · rw [if_pos (hneg.mpr rfl)]; simp
        · rw [← h.2, digitsVal_ascii tab ht _ hd2]
      · simp at h
    · simp at h
  · simp at h

/-- C43.  The text written for a format reads back as that format. -/
theorem C43_roundtrip (tab : DigitTable) (ht : tab.Valid) (m : Int) (n : Nat) :
    parseQFormat tab ('Q' :: ((if m < 0 then ['-'] else []) ++ Nat.toDigits 10 m.natAbs ++
      '.' :: Nat.toDigits 10 n)) = some (m, n) := by
  apply qtext_parse tab ht
  refine ⟨decide (m < 0), Nat.toDigits 10 m.natAbs, Nat.toDigits 10 n, Nat.toDigits_ne_nil,
    Nat.toDigits_ne_nil, ?_, by simp, ?_, ?_⟩
  · intro c hc
    have : c.isDigit := by
      rcases List.mem_append.mp hc with h | h <;>
        exact Nat.isDigit_of_mem_toDigits (by norm_num) (by norm_num) h
    have h2 := this
    simp only [Char.isDigit, Bool.and_eq_true, decide_eq_true_eq] at h2
    exact ⟨h2.1, h2.2⟩
  · rw [Nat.ofDigitChars_ten_toDigits]
    by_cases h : m < 0
    · simp only [h, decide_true, if_true]; omega
    · simp only [h, decide_false, Bool.false_eq_true, if_false]; omega
  · rw [Nat.ofDigitChars_ten_toDigits]

/-- ASCII and Arabic-Indic digits (a part of Python's table). -/
def exTable : DigitTable := fun c =>
  if '0' ≤ c ∧ c ≤ '9' then some (c.toNat - 48)
  else if 0x660 ≤ c.toNat ∧ c.toNat ≤ 0x669 then some (c.toNat - 0x660)
  else none

theorem exTable_valid : exTable.Valid := by
  refine ⟨fun c hc => ?_, fun c hc hn => ?_⟩
  · unfold exTable asciiDigit at *; rw [if_pos hc]
  · unfold exTable asciiDigit at *
    rw [if_neg hn, if_neg (by omega)]

/-- C43 fails: `$` also matches before a final line break. -/
theorem C43_fails_newline :
    parseQFormat exTable "Q3.4\n".toList = some (3, 4) ∧ ¬ QText "Q3.4\n".toList 3 4 := by
  refine ⟨by decide +kernel, ?_⟩
  rintro ⟨neg, ds, es, hds, hes, hdig, hs, -, -⟩
  have hl : "Q3.4\n".toList.getLast? = some '\n' := by decide
  rw [hs] at hl
  have hlast : es.getLast? = some '\n' := by
    cases es with
    | nil => exact absurd rfl hes
    | cons e es => simpa [List.getLast?_cons, List.getLast?_append] using hl
  have hm := List.mem_of_getLast? hlast
  have := hdig '\n' (List.mem_append_right _ hm)
  revert this
  simp [asciiDigit]

/-- C43 fails: `\d` accepts non-ASCII digits. -/
theorem C43_fails_unicode : parseQFormat exTable ['Q', '\u0663', '.', '4'] = some (3, 4) := by
  decide +kernel

/-- Non-vacuity. -/
example : parseQFormat exTable "Q-3.12".toList = some (-3, 12) ∧ QText "Q-3.12".toList (-3) 12 ∧
    parseQFormat exTable "Q3.".toList = none ∧ parseQFormat exTable "q3.4".toList = none ∧
    parseQFormat exTable "Q3.4x".toList = none := by
  refine ⟨by decide +kernel, ?_, by decide +kernel, by decide +kernel, by decide +kernel⟩
  refine ⟨true, "3".toList, "12".toList, by decide, by decide, ?_, by decide, by decide, by decide⟩
  intro c hc
  fin_cases hc <;> (unfold asciiDigit; decide)

/-! ## C49 -/

theorem contains_iff (s sub : List Char) : contains s sub = true ↔ sub <:+: s := by
  unfold contains
  rw [List.any_eq_true]
  constructor
  · rintro ⟨t, ht, hp⟩
    rw [List.mem_tails] at ht
    exact (List.isPrefixOf_iff_prefix.mp hp).isInfix.trans ht.isInfix
  · intro h
    obtain ⟨t, h1, h2⟩ := List.infix_iff_prefix_suffix.mp h
    exact ⟨t, by rw [List.mem_tails]; exact h2, List.isPrefixOf_iff_prefix.mpr h1⟩

theorem last4_suffix (s : List Char) : last4 s <:+ s := List.drop_suffix _ _

theorem last4_length (s : List Char) : (last4 s).length ≤ 4 := by
  unfold last4; rw [List.length_drop]; omega

theorem contains_last4 (s sub : List Char) (h : sub.length = 4) :
    contains (last4 s) sub = true ↔ sub <:+ s := by
  rw [contains_iff]
  constructor
  · intro hi
    have : sub = last4 s := hi.eq_of_length_le (by rw [h]; exact last4_length s)
    rw [this]; exact last4_suffix s
  · intro hs
    obtain ⟨t, ht⟩ := hs
    have : last4 s = sub := by
      unfold last4
      rw [← ht, List.length_append, h, Nat.add_sub_cancel, List.drop_left]
    rw [this]

/-- C49, exact behaviour on every text: `parser` looks at the last four characters only. -/
theorem C49_text (keras : Bool) (s : List Char) :
    (dispatch keras s = some .json ↔ "json".toList <:+ s) ∧
    (dispatch keras s = some .onnx ↔ "onnx".toList <:+ s) ∧
    (dispatch keras s = some .nnet ↔ "nnet".toList <:+ s) ∧
    (dispatch keras s = some .h5 ↔ keras = true ∧ "h5".toList <:+: last4 s) := by
  have hj := contains_last4 s "json".toList (by decide)
  have ho := contains_last4 s "onnx".toList (by decide)
  have hn := contains_last4 s "nnet".toList (by decide)
  have hh := contains_iff (last4 s) "h5".toList
  have huniq : ∀ a b : List Char, a.length = 4 → b.length = 4 → a <:+ s → b <:+ s → a = b := by
    intro a b ha hb h1 h2
    have := List.suffix_of_suffix_length_le h1 h2 (by omega)
    exact this.eq_of_length (by omega)
  have hl4 : ∀ a : List Char, a.length = 4 → a <:+ s → last4 s = a := by
    intro a ha h1
    obtain ⟨t, ht⟩ := h1
    unfold last4
    rw [← ht, List.length_append, ha, Nat.add_sub_cancel, List.drop_left]
  have noh5 : ∀ a : List Char, a.length = 4 → a <:+ s → contains a "h5".toList = false →
      ¬ ("h5".toList <:+: last4 s) := by
    intro a ha h1 h2 h3
    rw [hl4 a ha h1, ← contains_iff] at h3
    rw [h2] at h3
    simp at h3
  unfold dispatch
  by_cases cj : "json".toList <:+ s
  · have co : ¬ "onnx".toList <:+ s := fun h => by
      have := huniq _ _ (by decide) (by decide) cj h; revert this; decide
    have cn : ¬ "nnet".toList <:+ s := fun h => by
      have := huniq _ _ (by decide) (by decide) cj h; revert this; decide
    have ch := noh5 _ (by decide) cj (by decide +kernel)
    rw [if_pos (hj.mpr cj)]
    exact ⟨iff_of_true rfl cj, iff_of_false (by decide) co, iff_of_false (by decide) cn,
      iff_of_false (by decide) (fun h => ch h.2)⟩
  · rw [if_neg (fun h => cj (hj.mp h))]
    by_cases co : "onnx".toList <:+ s
    · have cn : ¬ "nnet".toList <:+ s := fun h => by
        have := huniq _ _ (by decide) (by decide) co h; revert this; decide
      have ch := noh5 _ (by decide) co (by decide +kernel)
      rw [if_pos (ho.mpr co)]
      exact ⟨iff_of_false (by decide) cj, iff_of_true rfl co, iff_of_false (by decide) cn,
        iff_of_false (by decide) (fun h => ch h.2)⟩
    · rw [if_neg (fun h => co (ho.mp h))]
      have hcond : (keras && contains (last4 s) "h5".toList) = true ↔
          keras = true ∧ "h5".toList <:+: last4 s := by
        rw [Bool.and_eq_true, hh]
      by_cases cn : "nnet".toList <:+ s
      · have ch := noh5 _ (by decide) cn (by decide +kernel)
        rw [if_neg (fun h => ch (hcond.mp h).2), if_pos (hn.mpr cn)]
        exact ⟨iff_of_false (by decide) cj, iff_of_false (by decide) co, iff_of_true rfl cn,
          iff_of_false (by decide) (fun h => ch h.2)⟩
      · by_cases ch : keras = true ∧ "h5".toList <:+: last4 s
        · rw [if_pos (hcond.mpr ch)]
          exact ⟨iff_of_false (by decide) cj, iff_of_false (by decide) co,
            iff_of_false (by decide) cn, iff_of_true rfl ch⟩
        · rw [if_neg (fun h => ch (hcond.mp h)), if_neg (fun h => cn (hn.mp h))]
          exact ⟨iff_of_false (by decide) cj, iff_of_false (by decide) co,
            iff_of_false (by decide) cn, iff_of_false (by decide) ch⟩

theorem pathSuffix_dot (stem ext : List Char) (h1 : stem ≠ []) (h2 : ext ≠ []) (h3 : '.' ∉ ext) :
    pathSuffix (stem ++ '.' :: ext) = '.' :: ext := by
  unfold pathSuffix
  have htw : (stem ++ '.' :: ext).reverse.takeWhile (· ≠ '.') = ext.reverse := by
    rw [List.reverse_append, List.reverse_cons, List.append_assoc,
      List.takeWhile_append_of_pos (by
        intro c hc
        have : c ≠ '.' := fun h => h3 (h ▸ List.mem_reverse.mp hc)
        simpa using this)]
    simp
  dsimp only
  rw [htw]
  have : 0 < stem.length := List.length_pos_iff.mpr h1
  rw [if_pos]
  · simp
  · refine ⟨by simp; omega, by simpa using h2⟩

/-- C49, documented files: a model file named `<stem>.json`, `.onnx`, `.nnet` or (Python 3.10 and
3.11) `.h5` goes to the importer of that format, as a text and as a `Path`. -/
theorem C49_documented (keras : Bool) (stem : List Char) (hstem : stem ≠ []) (ext : List Char)
    (imp : Importer)
    (h : (ext, imp) ∈ [("json".toList, Importer.json), ("onnx".toList, .onnx),
      ("nnet".toList, .nnet), ("h5".toList, .h5)]) (hk : imp = .h5 → keras = true) :
    parserFor keras (.text (stem ++ '.' :: ext)) = some imp ∧
    parserFor keras (.path (stem ++ '.' :: ext)) = some imp := by
  have hnd : '.' ∉ ext ∧ ext ≠ [] := by
    simp only [List.mem_cons, Prod.mk.injEq, List.not_mem_nil, or_false] at h
    rcases h with ⟨rfl, -⟩ | ⟨rfl, -⟩ | ⟨rfl, -⟩ | ⟨rfl, -⟩ <;> exact ⟨by decide, by decide⟩
  have key : ∀ pre : List Char, dispatch keras (pre ++ '.' :: ext) = some imp := by
    intro pre
    have hsuf : ext <:+ pre ++ '.' :: ext := ⟨pre ++ ['.'], by simp⟩
    have hx := C49_text keras (pre ++ '.' :: ext)
    simp only [List.mem_cons, Prod.mk.injEq, List.not_mem_nil, or_false] at h
    rcases h with ⟨rfl, rfl⟩ | ⟨rfl, rfl⟩ | ⟨rfl, rfl⟩ | ⟨rfl, rfl⟩
    · exact hx.1.mpr hsuf
    · exact hx.2.1.mpr hsuf
    · exact hx.2.2.1.mpr hsuf
    · refine hx.2.2.2.mpr ⟨hk rfl, ?_⟩
      have hl : ".h5".toList <:+ last4 (pre ++ '.' :: "h5".toList) := by
        have hs1 : ".h5".toList <:+ pre ++ '.' :: "h5".toList := ⟨pre, rfl⟩
        refine List.suffix_of_suffix_length_le hs1 (last4_suffix _) ?_
        unfold last4
        simp only [List.length_drop, List.length_append]
        have : ('.' :: "h5".toList).length = 3 := by decide
        have h' : ".h5".toList.length = 3 := by decide
        omega
      exact (show "h5".toList <:+: ".h5".toList from ⟨['.'], [], by decide⟩).trans hl.isInfix
  refine ⟨key stem, ?_⟩
  unfold parserFor
  dsimp only
  rw [pathSuffix_dot stem ext hstem hnd.2 hnd.1]
  exact key []

/-- C49 is false as stated: texts without any extension, and other extensions, are accepted; and on
Python 3.12 an `.h5` file is rejected. -/
theorem C49_fails :
    parserFor true (.text "modeljson".toList) = some .json ∧
    parserFor true (.path "net.xjson".toList) = some .json ∧
    parserFor true (.text "h5/a".toList) = some .h5 ∧
    parserFor true (.path "net.h5x".toList) = some .h5 ∧
    parserFor false (.path "net.h5".toList) = none ∧
    parserFor true (.path "net.keras".toList) = none := by
  decide +kernel

end Verif.Gen

import Verif.Export.Export

/-!
# The names of the exported tensors

`f"{layer.name}_{layer.idx}"` followed by a suffix determines the index: no name of a layer contains an underscore followed by a digit.
-/

namespace Verif.Export
open Net Layers

/-- the digits after the first underscore that is followed by a digit -/
def scan : List Char → List Char
  | [] => []
  | [_] => []
  | a :: b :: r => if a = '_' ∧ b.isDigit = true then (b :: r).takeWhile Char.isDigit else scan (b :: r)

/-- no underscore is followed by a digit -/
def clean : List Char → Bool
  | [] => true
  | [_] => true
  | a :: b :: r => !(a = '_' ∧ b.isDigit = true) && clean (b :: r)

theorem scan_clean {l : List Char} (h : clean l = true) {d : Char} (hd : d.isDigit = true) (r : List Char) :
    scan (l ++ '_' :: d :: r) = (d :: r).takeWhile Char.isDigit := by
  induction l with
  | nil => simp [scan, hd]
  | cons a l ih =>
    cases l with
    | nil =>
      show scan (a :: '_' :: d :: r) = _
      rw [scan, if_neg (fun h => by revert h; simp), scan, if_pos ⟨rfl, hd⟩]
    | cons b l =>
      simp only [clean, Bool.and_eq_true, Bool.not_eq_true', decide_eq_false_iff_not] at h
      show scan (a :: b :: (l ++ '_' :: d :: r)) = _
      rw [scan, if_neg h.1]
      exact ih h.2

theorem takeWhile_digits (i : Nat) {s : List Char} (hs : ∀ c ∈ s.head?, c.isDigit = false) : (Nat.toDigits 10 i ++ s).takeWhile Char.isDigit = Nat.toDigits 10 i := by
  have hd : ∀ c ∈ Nat.toDigits 10 i, c.isDigit = true := fun c hc => Nat.isDigit_of_mem_toDigits (by decide) (by decide) hc
  rw [List.takeWhile_append_of_pos hd]
  cases s with
  | nil => simp
  | cons c s => simp [hs c rfl]

theorem name_clean (L : XLayer) : clean L.name.toList = true := by
  obtain ⟨op, act⟩ := L
  cases op with
  | broadcast b => cases b <;> simp only [XLayer.name, actName] <;> decide
  | activation => cases act <;> simp only [XLayer.name, actName] <;> decide
  | pad m => cases m <;> simp only [XLayer.name, actName] <;> decide
  | reduce f => cases f <;> simp only [XLayer.name, actName] <;> decide
  | resize i => cases i <;> simp only [XLayer.name, actName] <;> decide
  | _ => simp only [XLayer.name]; decide

theorem tensor_toList (L : XLayer) (i : Nat) (s : String) : (L.tensor i s).toList = L.name.toList ++ '_' :: (Nat.toDigits 10 i ++ s.toList) := by
  simp [XLayer.tensor, String.toList_append, Nat.toString_eq_repr, Nat.toList_repr]

theorem scan_tensor (L : XLayer) (i : Nat) {s : String} (hs : ∀ c ∈ s.toList.head?, c.isDigit = false) : scan (L.tensor i s).toList = Nat.toDigits 10 i := by
  rw [tensor_toList]
  cases hd : Nat.toDigits 10 i with
  | nil => exact absurd hd Nat.toDigits_ne_nil
  | cons d ds =>
    have hdd : d.isDigit = true := Nat.isDigit_of_mem_toDigits (b := 10) (n := i) (by decide) (by decide) (by rw [hd]; simp)
    rw [List.cons_append, scan_clean (name_clean L) hdd, ← List.cons_append, ← hd, takeWhile_digits i hs, hd]

/-- the suffixes used -/
def Suffix (s : String) : Prop := ∀ c ∈ s.toList.head?, c.isDigit = false

theorem toDigits_inj {i j : Nat} (h : Nat.toDigits 10 i = Nat.toDigits 10 j) : i = j := by
  rw [← Nat.ofDigitChars_ten_toDigits (n := i), h, Nat.ofDigitChars_ten_toDigits]

/-- the name of a tensor determines the index of the layer -/
theorem tensor_index {L L' : XLayer} {i j : Nat} {s s' : String} (hs : Suffix s) (hs' : Suffix s') (h : L.tensor i s = L'.tensor j s') : i = j := by
  apply toDigits_inj
  rw [← scan_tensor L i hs, ← scan_tensor L' j hs', h]

/-- for the same layer, the name determines the suffix -/
theorem tensor_suffix {L : XLayer} {i : Nat} {s s' : String} (h : L.tensor i s = L.tensor i s') : s = s' := by
  have := congrArg String.toList h
  rw [tensor_toList, tensor_toList] at this
  exact String.toList_inj.mp (by simpa using this)

theorem tensor_ne_empty (L : XLayer) (i : Nat) (s : String) : L.tensor i s ≠ "" := by
  intro h
  have := congrArg String.toList h
  rw [tensor_toList] at this
  simp at this

end Verif.Export

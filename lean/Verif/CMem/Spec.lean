import Verif.CMem.Lemmas

/-!
# Specification vocabulary for pieces of generated code
-/

namespace Verif

/-- Array `b` of memory `m` is large enough for the flat tensor `t` and its first cells hold `t`. -/
def Holds {α : Type} (m : Mem α) (b : Buf) (t : List α) : Prop :=
  t.length ≤ m.size b ∧ ∀ a (h : a < t.length), m.val b a = t[a]

/-- `m'` has the same arrays as `m`, and the arrays in `bs` are the only ones whose content may
differ. -/
def OnlyChanges {α : Type} (bs : List Buf) (m m' : Mem α) : Prop :=
  m'.size = m.size ∧ ∀ b, b ∉ bs → m'.val b = m.val b

/-- The code `c` computes the tensor `t` into the array `dst` from the memory `m`: it runs without
out-of-bounds access, leaves `t` in `dst`, and changes no other array than `dst` and the scratch
array `tensor_temp`. -/
def Computes {α : Type} (c : Prog α Unit) (m : Mem α) (dst : Buf) (t : List α) : Prop :=
  ∃ m', c m = some ((), m') ∧ Holds m' dst t ∧ OnlyChanges [dst, .temp] m m'

/-- The flat tensor of `n` elements whose `a`-th element is `v a`. -/
def tensor {α : Type} (n : Nat) (v : Nat → α) : List α := (List.range n).map v

@[simp] theorem tensor_length {α : Type} (n : Nat) (v : Nat → α) : (tensor n v).length = n := by
  simp [tensor]

@[simp] theorem tensor_get {α : Type} (n : Nat) (v : Nat → α) (a : Nat) (h : a < (tensor n v).length) :
    (tensor n v)[a] = v a := by simp [tensor]

theorem tensor_congr {α : Type} {n : Nat} {v w : Nat → α} (h : ∀ a, a < n → v a = w a) :
    tensor n v = tensor n w := by
  apply List.map_congr_left; intro a ha; exact h a (by simpa using ha)

theorem holds_tensor {α : Type} {m : Mem α} {b : Buf} {n : Nat} {v : Nat → α} :
    Holds m b (tensor n v) ↔ n ≤ m.size b ∧ ∀ a, a < n → m.val b a = v a := by
  simp [Holds]

theorem Holds.congr {α : Type} {m m' : Mem α} {b : Buf} {t : List α} (h : Holds m b t)
    (hs : m'.size = m.size) (hv : m'.val b = m.val b) : Holds m' b t := by
  refine ⟨by rw [hs]; exact h.1, ?_⟩
  intro a ha; rw [hv]; exact h.2 a ha

theorem OnlyChanges.refl {α : Type} (bs : List Buf) (m : Mem α) : OnlyChanges bs m m :=
  ⟨rfl, fun _ _ => rfl⟩

theorem OnlyChanges.trans {α : Type} {bs : List Buf} {m m' m'' : Mem α}
    (h1 : OnlyChanges bs m m') (h2 : OnlyChanges bs m' m'') : OnlyChanges bs m m'' :=
  ⟨by rw [h2.1, h1.1], fun b hb => by rw [h2.2 b hb, h1.2 b hb]⟩

theorem OnlyChanges.upd {α : Type} {bs : List Buf} (m : Mem α) {b : Buf} (hb : b ∈ bs)
    (w : Nat → Option α) : OnlyChanges bs m (m.upd b w) :=
  ⟨rfl, fun _ hb' => Mem.upd_val_ne m (fun h => hb' (by rw [h]; exact hb)) w⟩

/-- A copy loop computes the (element-wise transformed) source tensor. -/
theorem copy_holds {α : Type} {m : Mem α} {src dst : Buf} {t : List α} (f : Nat → α → α)
    (hs : Holds m src t) (hd : t.length ≤ m.size dst) :
    ∃ m', Prog.forN t.length (fun k => Prog.andThen (Prog.load src (k : Int)) fun v =>
        Prog.store dst (k : Int) (f k v)) m = some ((), m') ∧
      Holds m' dst (t.mapIdx f) ∧ OnlyChanges [dst] m m' := by
  refine ⟨_, copy_loop t.length src dst f m hs.1 hd, ⟨by simpa using hd, ?_⟩,
    OnlyChanges.upd m (by simp) _⟩
  intro a ha
  simp only [List.length_mapIdx] at ha
  simp [Mem.upd_val_same, ha, hs.2 a ha]

end Verif

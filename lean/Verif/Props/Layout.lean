import Verif.Layers.Layout
import Verif.Props.Pad
import Verif.Props.Graph

/-!
# C22, C23: Flatten, layout conversions, constants
-/

namespace Verif.Layers
open Prog
variable {α : Type}

/-! ## Specification -/

/-- the flat tensor in a given layout -/
def inLayout (fmt : DataFormat) (C H W : Nat) (x : Nat → Nat → Nat → α) : List α :=
  match fmt with
  | .first => tensor3 C H W x
  | .last => tensor3 H W C fun i j f => x f i j

theorem inLayout_length (fmt : DataFormat) (C H W : Nat) (x : Nat → Nat → Nat → α) :
    (inLayout fmt C H W x).length = C * H * W := by
  cases fmt <;> simp only [inLayout, tensor3_length]
  ring

/-- every flat array of the right length is a tensor in the given layout -/
theorem exists_inLayout [Inhabited α] (fmt : DataFormat) (C H W : Nat) (t : List α) (h : t.length = C * H * W) :
    ∃ x : Nat → Nat → Nat → α, t = inLayout fmt C H W x := by
  cases fmt with
  | first =>
    refine ⟨fun f i j => t.getD (at3 H W f i j) default, List.ext_getElem (by rw [inLayout_length, h]) ?_⟩
    intro a h1 h2
    obtain ⟨f, i, j, hf, hi, hj, rfl⟩ := at3_surj (h ▸ h1)
    simp only [inLayout]
    rw [tensor3_get C H W _ hf hi hj]; simp [List.getD, h1]
  | last =>
    refine ⟨fun f i j => t.getD (at3 W C i j f) default, List.ext_getElem (by rw [inLayout_length, h]) ?_⟩
    intro a h1 h2
    have h3 : a < H * W * C := by
      have := h ▸ h1
      calc a < C * H * W := this
        _ = H * W * C := by ring
    obtain ⟨i, j, f, hi, hj, hf, rfl⟩ := at3_surj h3
    simp only [inLayout]
    rw [tensor3_get H W C _ hi hj hf]; simp [List.getD, h1]

/-! ## C23 -/

theorem Evals.load3t {b b' : Buf} {m : Mem α} {C H W f i j : Nat} {v : Nat → Nat → Nat → α} {a : Nat}
    (hne : b' ≠ b) (h : Holds m b' (tensor3 C H W v)) (hf : f < C) (hi : i < H) (hj : j < W)
    (hz : a = at3 H W f i j) : Evals b m (Prog.load b' (a : Int)) (v f i j) :=
  Evals.load3 hne h hf hi hj (by rw [hz])

theorem copyMap_id_holds {m : Mem α} {src dst : Buf} {t : List α} {n : Nat} (hn : t.length = n)
    (hs : Holds m src t) (hd : n ≤ m.size dst) :
    ∃ m', copyMap n src dst id m = some ((), m') ∧ Holds m' dst t ∧ OnlyChanges [dst] m m' := by
  subst hn
  obtain ⟨m', e, h, c⟩ := copy_holds (fun _ => id) hs hd
  refine ⟨m', e, ?_, c⟩
  have : t.mapIdx (fun _ => id) = t := by apply List.ext_getElem <;> simp
  rwa [this] at h

/-- **C23, input.** The generated input code converts the network input from the model's layout to the layout of
the working arrays, for every layout combination. -/
theorem C23_input (fmt gen : DataFormat) (C H W road : Nat) (x : Nat → Nat → Nat → α) (m : Mem α)
    (hx : Holds m .input (inLayout fmt C H W x)) (ho : C * H * W ≤ m.size (.out road)) :
    Computes (inputCode fmt gen true C H W (C * H * W) road) m (.out road) (inLayout gen C H W x) := by
  have fin : ∀ {c : Prog α Unit} {t : List α}, (∃ m', c m = some ((), m') ∧ Holds m' (.out road) t ∧
      OnlyChanges [.out road] m m') → Computes c m (.out road) t := by
    rintro c t ⟨m', e, h, k⟩
    exact ⟨m', e, h, k.mono (by simp)⟩
  cases fmt <;> cases gen
  · exact fin (copyMap_id_holds (inLayout_length _ _ _ _ _) hx ho)
  · simp only [inputCode, and_self, if_true]
    refine fin (loop3_hwc _ _ _ _ _ _ ho fun f i j hf hi hj ha => ?_)
    refine Stores.bind (Evals.load3t (by simp) hx hf hi hj ?_) (Stores.store ?_ ha rfl)
    · unfold at3; ring
    · unfold at3; push_cast; ring
  · simp only [inputCode, and_self, if_true, reduceCtorEq, and_false, if_false]
    refine fin (loop3_chw _ _ _ _ _ _ ho fun f i j hf hi hj ha => ?_)
    refine Stores.bind (Evals.load3t (by simp) hx hi hj hf ?_) (Stores.store ?_ ha rfl)
    · unfold at3; ring
    · unfold at3; push_cast; ring
  · exact fin (copyMap_id_holds (inLayout_length _ _ _ _ _) hx ho)

/-- **C23, output.** The generated output code converts the last tensor from the layout of the working arrays to
the model's layout. -/
theorem C23_output (fmt gen : DataFormat) (C H W path : Nat) (x : Nat → Nat → Nat → α) (m : Mem α)
    (hx : Holds m (.out path) (inLayout gen C H W x)) (ho : C * H * W ≤ m.size .pred) :
    Computes (outputCode fmt gen true C H W (C * H * W) path) m .pred (inLayout fmt C H W x) := by
  have fin : ∀ {c : Prog α Unit} {t : List α}, (∃ m', c m = some ((), m') ∧ Holds m' .pred t ∧
      OnlyChanges [.pred] m m') → Computes c m .pred t := by
    rintro c t ⟨m', e, h, k⟩
    exact ⟨m', e, h, k.mono (by simp)⟩
  cases fmt <;> cases gen
  · exact fin (copyMap_id_holds (inLayout_length _ _ _ _ _) hx ho)
  · simp only [outputCode, and_self, if_true]
    refine fin (loop3_chw _ _ _ _ _ _ ho fun f i j hf hi hj ha => ?_)
    refine Stores.bind (Evals.load3t (by simp) hx hi hj hf ?_) (Stores.store ?_ ha rfl)
    · unfold at3; ring
    · unfold at3; push_cast; ring
  · simp only [outputCode, and_self, if_true, reduceCtorEq, and_false, if_false]
    refine fin (loop3_hwc _ _ _ _ _ _ ho fun f i j hf hi hj ha => ?_)
    refine Stores.bind (Evals.load3t (by simp) hx hf hi hj ?_) (Stores.store ?_ ha rfl)
    · unfold at3; ring
    · unfold at3; push_cast; ring
  · exact fin (copyMap_id_holds (inLayout_length _ _ _ _ _) hx ho)

/-- **C23, vectors.** Inputs and outputs that are not 4-dimensional are copied. -/
theorem C23_vector (fmt gen : DataFormat) (C H W size road : Nat) (t : List α) (m : Mem α) (hs : t.length = size) :
    (Holds m .input t → size ≤ m.size (.out road) →
      Computes (inputCode fmt gen false C H W size road) m (.out road) t) ∧
    (Holds m (.out road) t → size ≤ m.size .pred →
      Computes (outputCode fmt gen false C H W size road) m .pred t) := by
  constructor
  · intro h ho
    obtain ⟨m', e, h, k⟩ := copyMap_id_holds hs h ho
    exact ⟨m', by simpa [inputCode] using e, h, k.mono (by simp)⟩
  · intro h ho
    obtain ⟨m', e, h, k⟩ := copyMap_id_holds hs h ho
    exact ⟨m', by simpa [outputCode] using e, h, k.mono (by simp)⟩

/-- **C23, round trip.** Running the input conversion and then the output conversion restores every element of
the network input, whatever it is, for every pair of layouts. -/
theorem C23_roundtrip [Inhabited α] (fmt gen : DataFormat) (C H W road : Nat) (t : List α) (m : Mem α)
    (ht : t.length = C * H * W) (hx : Holds m .input t)
    (ho : C * H * W ≤ m.size (.out road)) (hp : C * H * W ≤ m.size .pred) :
    ∃ m', (andThen (inputCode fmt gen true C H W (C * H * W) road) fun _ =>
        outputCode fmt gen true C H W (C * H * W) road) m = some ((), m') ∧ Holds m' .pred t := by
  obtain ⟨x, rfl⟩ := exists_inLayout fmt C H W t ht
  obtain ⟨m1, e1, h1, c1⟩ := C23_input fmt gen C H W road x m hx ho
  obtain ⟨m2, e2, h2, _⟩ := C23_output fmt gen C H W road x m1 h1 (by rw [c1.1]; exact hp)
  exact ⟨m2, by rw [andThen_run e1, e2], h2⟩

/-- **C23, each destination cell is written exactly once**: both addressing schemes of the conversion loops are
bijections between the loop positions and the cells. -/
theorem C23_each_cell_once (C H W a : Nat) (h : a < C * H * W) :
    (∃! p : Nat × Nat × Nat, (p.1 < C ∧ p.2.1 < H ∧ p.2.2 < W) ∧ (p.2.1 * W + p.2.2) * C + p.1 = a) ∧
    (∃! p : Nat × Nat × Nat, (p.1 < C ∧ p.2.1 < H ∧ p.2.2 < W) ∧ (p.1 * H + p.2.1) * W + p.2.2 = a) := by
  have e1 : ∀ f i j, (i * W + j) * C + f = at3 W C i j f := fun f i j => by unfold at3; ring
  have e2 : ∀ f i j, (f * H + i) * W + j = at3 H W f i j := fun f i j => by unfold at3; ring
  simp only [e1, e2]
  constructor
  · have h3 : a < H * W * C := by
      calc a < C * H * W := h
        _ = H * W * C := by ring
    obtain ⟨i, j, f, hi, hj, hf, rfl⟩ := at3_surj h3
    refine ⟨(f, i, j), ⟨⟨hf, hi, hj⟩, rfl⟩, ?_⟩
    rintro ⟨f', i', j'⟩ ⟨⟨hf', hi', hj'⟩, he⟩
    obtain ⟨a, b, c⟩ := at3_inj hj' hf' hj hf he
    dsimp only at a b c
    subst a; subst b; subst c; rfl
  · obtain ⟨f, i, j, hf, hi, hj, rfl⟩ := at3_surj h
    refine ⟨(f, i, j), ⟨⟨hf, hi, hj⟩, rfl⟩, ?_⟩
    rintro ⟨f', i', j'⟩ ⟨⟨hf', hi', hj'⟩, he⟩
    obtain ⟨a, b, c⟩ := at3_inj hi' hj' hi hj he
    dsimp only at a b c
    subst a; subst b; subst c; rfl

/-- a 2-channel 1×2 image read in channels-last order -/
example : Computes (inputCode .last .first true 2 1 2 4 0) ⟨fun _ => 4, fun _ a => a⟩ (.out 0) [0, 2, 1, 3] :=
  C23_input .last .first 2 1 2 0 (fun f _ j => 2 * j + f) _
    ⟨by decide, fun a h => by
      have : a < 4 := h
      rcases a with _ | _ | _ | _ | a <;> first | rfl | omega⟩ (by decide)

/-! ## C22 Flatten -/

/-- **C22** (partial: the producer's tensor is in the buffer of the Flatten layer itself, as it is when Flatten is
the only consumer of its producer, see `C22_in_place`).  The generated code leaves the result of the Python
reference. -/
theorem C22_flatten_partial (fmt : DataFormat) (C H W size path : Nat) (x : Nat → Nat → Nat → α) (m : Mem α)
    (hx : Holds m (.out path) (tensor3 C H W x)) (hsize : size = C * H * W) (ht : size ≤ m.size .temp) :
    Computes (flattenCode fmt C H W size path) m (.out path) (flattenForward fmt C H W x) := by
  subst hsize
  cases fmt with
  | first => exact ⟨m, rfl, hx, OnlyChanges.refl _ _⟩
  | last =>
    have ho : C * H * W ≤ m.size (.out path) := by have := hx.1; rwa [tensor3_length] at this
    have := computes_of_temp (k := path) (n := C * H * W) id
      (t := tensor3 H W C fun i j f => x f i j) (by rw [tensor3_length]; ring) ho
      (loop3_hwc (m := m) .temp C H W (fun f i j => do
        let x ← load (.out path) (((f * H + i) * W + j : Nat) : Int)
        store .temp (((i * W + j) * C + f : Nat) : Int) x) x ht fun f i j hf hi hj ha => ?_)
    · rw [List.map_id] at this; exact this
    · refine Stores.bind (Evals.load3t (by simp) hx hf hi hj ?_) (Stores.store ?_ ha rfl)
      · unfold at3; ring
      · unfold at3; push_cast; ring

/-- In a loaded network a Flatten layer that is the only consumer of its only producer finds the producer's
tensor in its own buffer, so its code is correct. -/
theorem C22_in_place {dnn : Graph.Dnn} {plan : Graph.Plan} (hu : Graph.UniqueIdx dnn) (hc : Graph.Consistent dnn)
    (h : Graph.triTopo dnn = some plan) {l p : Graph.Layer} (hl : l ∈ dnn) (hp : p ∈ dnn)
    (h1 : l.prev = [p.idx]) (h2 : p.next = [l.idx])
    (fmt : DataFormat) (C H W size : Nat) (x : Nat → Nat → Nat → α) (m : Mem α)
    (hx : Holds m (Graph.outStr plan p.idx) (tensor3 C H W x)) (hsize : size = C * H * W)
    (ht : size ≤ m.size .temp) :
    Computes (flattenCode fmt C H W size (plan.path l.idx)) m (.out (plan.path l.idx))
      (flattenForward fmt C H W x) := by
  have hin := Graph.C07_in_place hu hc h hl hp h1 h2
  rw [hin.2] at hx
  exact C22_flatten_partial fmt C H W size (plan.path l.idx) x m hx hsize ht

/-- **C22 fails** whenever the producer's tensor is kept anywhere else (its saved copy, or another buffer): the
generated code never looks there.  For every shape with at least one element and both layouts there is a memory
where the producer's tensor is in place and the code does not compute its flattening. -/
theorem C22_fails_other_buffer (fmt : DataFormat) (C H W path : Nat) (src : Buf) (hpos : 0 < C * H * W)
    (h1 : src ≠ .out path) :
    ∃ (m : Mem Nat) (x : Nat → Nat → Nat → Nat), Holds m src (tensor3 C H W x) ∧
      (∀ b, m.size b = C * H * W) ∧
      ¬ Computes (flattenCode fmt C H W (C * H * W) path) m (.out path) (flattenForward fmt C H W x) := by
  refine ⟨⟨fun _ => C * H * W, fun b _ => if b = src then 1 else 0⟩, fun _ _ _ => 1, ?_, fun _ => rfl, ?_⟩
  · rw [holds_tensor3]; exact ⟨Nat.le_refl _, fun f i j _ _ _ => by simp⟩
  · intro hcon
    have hc := C22_flatten_partial fmt C H W (C * H * W) path (fun _ _ _ => 0)
      ⟨fun _ => C * H * W, fun b _ => if b = src then 1 else 0⟩
      (by rw [holds_tensor3]; exact ⟨Nat.le_refl _, fun f i j _ _ _ => by simp [Ne.symm h1]⟩) rfl (Nat.le_refl _)
    have e := Computes.unique hcon hc (by cases fmt <;> simp [flattenForward, tensor3_length])
    obtain ⟨f, i, j, hf, hi, hj, -⟩ := at3_surj hpos
    cases fmt with
    | first => exact absurd ((tensor3_ext_iff.1 e) f i j hf hi hj) (by simp)
    | last => exact absurd ((tensor3_ext_iff.1 e) i j f hi hj hf) (by simp)

/-- ... and such a situation arises in networks accepted by the loader: here layer 2 (a Flatten) is the second
consumer of the input layer, and the input's tensor is read from neither its own buffer nor from a place where
the Flatten code looks. -/
theorem C22_fails_second_consumer :
    ∃ (dnn : Graph.Dnn) (plan : Graph.Plan), Graph.UniqueIdx dnn ∧ Graph.Consistent dnn ∧
      Graph.SimpleInputs dnn ∧ Graph.triTopo dnn = some plan ∧ dnn.prevOf 2 = [0] ∧
      Graph.outStr plan 0 ≠ .out (plan.path 2) ∧ plan.path 2 ≠ plan.path 0 :=
  ⟨[⟨0, [], [1, 2], false⟩, ⟨1, [0], [3], false⟩, ⟨2, [0], [3], false⟩, ⟨3, [1, 2], [], false⟩], _,
    by decide, by decide, by decide, rfl, by decide, by decide, by decide⟩

/-- a 2-channel 1×2 image flattened in channels-last order -/
example : Computes (flattenCode .last 2 1 2 4 0) (exMem 4) (.out 0) [0, 2, 1, 3] :=
  C22_flatten_partial .last 2 1 2 4 0 (fun f i j => at3 1 2 f i j) (exMem 4)
    (exMem_holds 4 2 1 2 _ (by decide)) rfl (by decide)

/-! ## Constants -/

/-- The code of a constant layer leaves the constant (stored in C order in the weights array) in its buffer. -/
theorem C22_constant (size idx road : Nat) (t : List α) (m : Mem α) (ht : t.length = size)
    (hw : Holds m (.par .weights idx) t) (ho : size ≤ m.size (.out road)) :
    Computes (constantCode size idx road) m (.out road) t := by
  obtain ⟨m', e, h, k⟩ := copyMap_id_holds ht hw ho
  exact ⟨m', e, h, k.mono (by simp)⟩

end Verif.Layers

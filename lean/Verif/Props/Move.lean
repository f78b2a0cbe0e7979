import Verif.Layers.Move
import Verif.Props.Broadcast
import Mathlib.Tactic.IntervalCases
import Mathlib.Tactic.Linarith

/-!
# C15 – C21: Concatenate, Gather, GatherElements, Tile, Transpose, Pad
-/

namespace Verif.Layers
open Prog
variable {α : Type}

theorem Arr.flat_map (x : Arr α) (g : α → α) : (x.map g).flat = x.flat.map g := by
  unfold Arr.flat Arr.map
  rw [tensor3_map]

/-- a memory for the examples: every array has `n` cells, cell `a` holds `a` -/
def exMem (n : Nat) : Mem Nat := ⟨fun _ => n, fun _ a => a⟩

theorem exMem_holds (n C H W : Nat) (b : Buf) (h : C * H * W ≤ n) :
    Holds (exMem n) b (Arr.flat ⟨C, H, W, fun f i j => at3 H W f i j⟩) := by
  unfold Arr.flat
  rw [holds_tensor3]
  exact ⟨h, fun _ _ _ _ _ _ => rfl⟩

/-! ## C18 Tile -/

/-- **C18.** Tile: the generated code leaves the activated `np.tile` of its input (no activation:
exactly the Python reference, which never applies it). -/
theorem C18_tile (rc rh rw size road : Nat) (act : α → α) (src : Buf) (x : Arr α) (m : Mem α)
    (hsrc : src ≠ .temp) (hx : Holds m src x.flat)
    (hsize : size = (rc * x.C) * (rh * x.H) * (rw * x.W))
    (ht : size ≤ m.size .temp) (ho : size ≤ m.size (.out road)) :
    Computes (tileCode x.C x.H x.W (rc * x.C) (rh * x.H) (rw * x.W) size act src road) m (.out road)
      ((Np.tile rc rh rw x).map act).flat := by
  refine kernel3 (h := act) hsize ht ho fun f i j hf hi hj ha => ?_
  have pos : ∀ {r n a : Nat}, a < r * n → a % n < n := by
    intro r n a h
    apply Nat.mod_lt
    rcases Nat.eq_zero_or_pos n with h0 | h0
    · subst h0; simp at h
    · exact h0
  exact Stores.bind (Evals.load3 hsrc hx (pos hf) (pos hi) (pos hj) rfl) (Stores.store rfl ha rfl)

/-- hypotheses satisfiable: a 1×2×2 tensor repeated twice along the width -/
example : Computes (tileCode 1 2 2 1 2 4 8 (fun v => v + 1) (.out 0) 0) (exMem 8) (.out 0)
    [1, 2, 1, 2, 3, 4, 3, 4] :=
  C18_tile 1 1 2 8 0 (fun v => v + 1) (.out 0) ⟨1, 2, 2, fun f i j => at3 2 2 f i j⟩ (exMem 8) (by simp)
    (exMem_holds 8 1 2 2 _ (by decide)) rfl (by decide) (by decide)

/-! ## C19 Transpose -/

/-- the array left by the generated code: element `(f, i, j)` is the input element addressed by the
loop variables -/
def transposed (p : Perm3) (x : Arr α) : Arr α :=
  ⟨Np.dim (p.axis .c) x, Np.dim (p.axis .h) x, Np.dim (p.axis .w) x, fun f i j =>
    x.v (transposeVars p f i j).2.2 (transposeVars p f i j).2.1 (transposeVars p f i j).1⟩

/-- ... which is the numpy transpose. -/
theorem transposed_isTranspose (p : Perm3) (x : Arr α) : IsTranspose p x (transposed p x) := by
  refine ⟨rfl, rfl, rfl, fun ix _ => ?_⟩
  cases p <;> rfl

/-- the numpy transpose is unique (on its index range) -/
theorem isTranspose_unique (p : Perm3) (x z z' : Arr α) (h : IsTranspose p x z) (h' : IsTranspose p x z') :
    z.flat = z'.flat := by
  obtain ⟨h1, h2, h3, hv⟩ := h
  obtain ⟨h1', h2', h3', hv'⟩ := h'
  obtain ⟨C, H, W, v⟩ := z
  obtain ⟨C', H', W', v'⟩ := z'
  simp only at h1 h2 h3 h1' h2' h3' hv hv'
  subst h1 h2 h3 h1' h2' h3'
  apply tensor3_congr
  intro f i j hf hi hj
  have hb : ∀ (ix : Np.Axis → Nat), ix (p.axis .c) = f → ix (p.axis .h) = i → ix (p.axis .w) = j →
      (∀ a, ix a < Np.dim a x) → v f i j = v' f i j := by
    intro ix e1 e2 e3 hr
    have e := hv ix hr; have e' := hv' ix hr
    rw [e1, e2, e3] at e e'
    rw [e, e']
  cases p
  · exact hb (fun a => match a with | .c => f | .h => i | .w => j) rfl rfl rfl (by intro a; cases a <;> assumption)
  · exact hb (fun a => match a with | .c => f | .h => j | .w => i) rfl rfl rfl (by intro a; cases a <;> assumption)
  · exact hb (fun a => match a with | .c => i | .h => f | .w => j) rfl rfl rfl (by intro a; cases a <;> assumption)
  · exact hb (fun a => match a with | .c => j | .h => f | .w => i) rfl rfl rfl (by intro a; cases a <;> assumption)
  · exact hb (fun a => match a with | .c => i | .h => j | .w => f) rfl rfl rfl (by intro a; cases a <;> assumption)
  · exact hb (fun a => match a with | .c => j | .h => i | .w => f) rfl rfl rfl (by intro a; cases a <;> assumption)

/-- **C19.** Transpose: for each of the six permutations the generated code leaves the activated numpy
transpose of its input. -/
theorem C19_transpose (p : Perm3) (size road : Nat) (act : α → α) (src : Buf) (x z : Arr α) (m : Mem α)
    (hsrc : src ≠ .temp) (hx : Holds m src x.flat) (hz : IsTranspose p x z)
    (hsize : size = z.C * z.H * z.W)
    (ht : size ≤ m.size .temp) (ho : size ≤ m.size (.out road)) :
    Computes (transposeCode p x.H x.W z.C z.H z.W size act src road) m (.out road) (z.map act).flat := by
  have hu := isTranspose_unique p x _ _ hz (transposed_isTranspose p x)
  rw [Arr.flat_map, hu, ← Arr.flat_map]
  obtain ⟨h1, h2, h3, -⟩ := hz
  rw [h1, h2, h3] at hsize ⊢
  refine kernel3 (h := act) (v := (transposed p x).v) hsize ht ho fun f i j hf hi hj ha => ?_
  refine Stores.bind (Evals.load3 hsrc hx ?_ ?_ ?_ rfl) (Stores.store rfl ha rfl)
  all_goals cases p <;> assumption

/-- hypotheses satisfiable: a 1×2×3 tensor, channels moved last -/
example : Computes (transposeCode .p231 2 3 2 3 1 6 id (.out 0) 0) (exMem 6) (.out 0)
    [0, 1, 2, 3, 4, 5] :=
  C19_transpose .p231 6 0 id (.out 0) ⟨1, 2, 3, fun f i j => at3 2 3 f i j⟩ (transposed .p231 _) (exMem 6)
    (by simp) (exMem_holds 6 1 2 3 _ (by decide)) (transposed_isTranspose _ _) rfl (by decide) (by decide)

/-- ... and with height and width exchanged -/
example : Computes (transposeCode .p132 2 3 1 3 2 6 id (.out 0) 0) (exMem 6) (.out 0)
    [0, 3, 1, 4, 2, 5] :=
  C19_transpose .p132 6 0 id (.out 0) ⟨1, 2, 3, fun f i j => at3 2 3 f i j⟩ (transposed .p132 _) (exMem 6)
    (by simp) (exMem_holds 6 1 2 3 _ (by decide)) (transposed_isTranspose _ _) rfl (by decide) (by decide)

/-- The transpose rearranges the input: transposing with the inverse permutation restores it. -/
theorem C19_transpose_bijective (p q : Perm3) (hq : ∀ a, q.axis (p.axis a) = a) (x z w : Arr α)
    (hz : IsTranspose p x z) (hw : IsTranspose q z w) : w.flat = x.flat := by
  have hp : ∀ a, p.axis (q.axis a) = a := by
    intro a
    cases p <;> cases q <;> first
      | (cases a <;> rfl)
      | (exfalso; first | exact absurd (hq .c) (by decide) | exact absurd (hq .h) (by decide))
  obtain ⟨h1, h2, h3, hv⟩ := hz
  obtain ⟨g1, g2, g3, gv⟩ := hw
  have hd : ∀ a, Np.dim a z = Np.dim (p.axis a) x := by
    intro a; cases a
    · exact h1
    · exact h2
    · exact h3
  rw [hd, hp] at g1 g2 g3
  obtain ⟨C, H, W, v⟩ := w
  simp only at g1 g2 g3 gv
  subst g1 g2 g3
  apply tensor3_congr
  intro f i j hf hi hj
  have hin : ∀ a, loopVar f i j a < Np.dim a x := by
    intro a; cases a <;> assumption
  have e1 := hv (loopVar f i j) hin
  have e2 := gv (fun a => loopVar f i j (p.axis a)) (fun a => by rw [hd]; exact hin _)
  simp only [hp] at e2
  exact e2.trans e1

/-! ## C17 GatherElements -/

theorem loadIdx_evals {m : Mem α} {b : Buf} {l : List Nat} {k : Nat} (h : k < l.length) :
    Evals b m (loadIdx l k) (l[k]) := by
  intro u; simp [loadIdx, h]

/-- **C17.** GatherElements: for every index tensor the constructor accepts (all indices within the
gathered axis, other dimensions equal), the generated code leaves the activated reference result. -/
theorem C17_gather_elements (a : Np.Axis) (idx : Nat → Nat → Nat → Nat) (Co Ho Wo size road : Nat)
    (act : α → α) (src : Buf) (x : Arr α) (m : Mem α)
    (hsrc : src ≠ .temp) (hx : Holds m src x.flat)
    (hidx : ∀ f i j, f < Co → i < Ho → j < Wo → idx f i j < Np.dim a x)
    (hC : a ≠ .c → Co = x.C) (hH : a ≠ .h → Ho = x.H) (hW : a ≠ .w → Wo = x.W)
    (hsize : size = Co * Ho * Wo)
    (ht : size ≤ m.size .temp) (ho : size ≤ m.size (.out road)) :
    Computes (gatherElementsCode a (tensor3 Co Ho Wo idx) x.W x.H Co Ho Wo size act src road) m (.out road)
      ((gatherElementsForward a idx Co Ho Wo x).map act).flat := by
  refine kernel3 (h := act) (v := (gatherElementsForward a idx Co Ho Wo x).v) hsize ht ho
    fun f i j hf hi hj ha => ?_
  have hk : at3 Ho Wo f i j < (tensor3 Co Ho Wo idx).length := by
    rw [tensor3_length]; exact at3_lt hf hi hj
  have hk2 := hidx f i j hf hi hj
  have he := loadIdx_evals (m := m) (b := .temp) hk
  rw [tensor3_get Co Ho Wo idx hf hi hj hk] at he
  refine Stores.bind he ?_
  cases a
  · have h2 := hH (by simp); have h3 := hW (by simp); subst h2 h3
    exact Stores.bind (Evals.load3 hsrc hx hk2 hi hj rfl) (Stores.store rfl ha rfl)
  · have h2 := hC (by simp); have h3 := hW (by simp); subst h2 h3
    exact Stores.bind (Evals.load3 hsrc hx hf hk2 hj rfl) (Stores.store rfl ha rfl)
  · have h2 := hC (by simp); have h3 := hH (by simp); subst h2 h3
    exact Stores.bind (Evals.load3 hsrc hx hf hi hk2 rfl) (Stores.store rfl ha rfl)

/-- hypotheses satisfiable: a 1×2×2 tensor, indices 1, 0 / 0, 0 along the width -/
example : Computes (gatherElementsCode .w [1, 0, 0, 0] 2 2 1 2 2 4 (fun v => v + 1) (.out 0) 0) (exMem 4)
    (.out 0) [2, 1, 3, 3] :=
  C17_gather_elements .w (fun _ i j => if i = 0 ∧ j = 0 then 1 else 0) 1 2 2 4 0 (fun v => v + 1) (.out 0)
    ⟨1, 2, 2, fun f i j => at3 2 2 f i j⟩ (exMem 4) (by simp)
    (exMem_holds 4 1 2 2 _ (by decide)) (fun f i j _ _ _ => by show (if _ then 1 else 0) < 2; split <;> decide)
    (fun _ => rfl) (fun _ => rfl) (by simp) rfl (by decide) (by decide)

/-! ## C16 Gather -/

/-- the statements of the innermost loop at an explicit address -/
theorem gatherInner_eq (W H : Nat) (act : α → α) (src : Buf) (f i j p : Nat) :
    gatherInner W H act src f i j p = andThen ((do
      (do
        let x ← load src ((j + W * (i + H * f) : Nat) : Int)
        store .temp (p : Int) x)
      let t ← load .temp (p : Int)
      store .temp (p : Int) (act t)) : Prog α Unit) (fun _ => ret (p + 1)) := by
  simp only [gatherInner, bind_eq, pure_eq, andThen_assoc]

/-- **C16.** Gather: for every list of indices the constructor accepts the generated code leaves the
activated `np.take` of its input along the axis. -/
theorem C16_gather (a : Np.Axis) (idx : List Nat) (size road : Nat) (act : α → α) (src : Buf) (x z : Arr α)
    (m : Mem α) (hz : z = Np.take a idx x)
    (hsrc : src ≠ .temp) (hx : Holds m src x.flat) (hidx : ∀ k ∈ idx, k < Np.dim a x)
    (hsize : size = z.C * z.H * z.W)
    (ht : size ≤ m.size .temp) (ho : size ≤ m.size (.out road)) :
    Computes (gatherCode a idx x.W x.H z.C z.H z.W size act src road) m (.out road) (z.map act).flat := by
  have key : ∃ m', gatherLoops a idx x.W x.H z.C z.H z.W act src m = some (size, m') ∧
      Holds m' .temp (z.map act).flat ∧ OnlyChanges [.temp] m m' := by
    have run : ∀ (body : Nat → Nat → Nat → Prog α Unit),
        (∀ f i j, f < z.C → i < z.H → j < z.W → at3 z.H z.W f i j < m.size .temp →
          Stores .temp m (body f i j) (at3 z.H z.W f i j) (act (z.v f i j))) →
        gatherLoops a idx x.W x.H z.C z.H z.W act src
          = andThen (loop3 z.C z.H z.W body) (fun _ => ret size) →
        ∃ m', gatherLoops a idx x.W x.H z.C z.H z.W act src m = some (size, m') ∧
          Holds m' .temp (z.map act).flat ∧ OnlyChanges [.temp] m m' := by
      intro body hb he
      obtain ⟨m', e, h1, h2⟩ := loop3_holds (m := m) .temp z.C z.H z.W body
        (fun f i j => act (z.v f i j)) (by omega) (fun f i j u hf hi hj =>
          hb f i j hf hi hj (Nat.lt_of_lt_of_le (at3_lt hf hi hj) (by omega)) u)
      exact ⟨m', by rw [he, andThen_run e]; rfl, h1, h2⟩
    have hget : ∀ {k}, (h : k < idx.length) → idx.getD k 0 < Np.dim a x := by
      intro k h
      rw [List.getD_eq_getElem?_getD, List.getElem?_eq_getElem h]
      exact hidx _ (List.getElem_mem h)
    have hgetD : ∀ {k}, (h : k < idx.length) → idx.getD k 0 = idx[k] := by
      intro k h; rw [List.getD_eq_getElem?_getD, List.getElem?_eq_getElem h]; rfl
    have hl : ∀ {β : Type} {k : Nat} (h : k < idx.length) (q : Nat → Prog α β),
        andThen (loadIdx idx k) q = q (idx.getD k 0) := by
      intro β k h q; funext m
      rw [hgetD h]
      simp [andThen, loadIdx, h]
    subst hz
    cases a with
    | c =>
      refine run (fun f i j => (do
        (do
          let y ← load src ((j + x.W * (i + x.H * idx.getD f 0) : Nat) : Int)
          store .temp (at3 x.H x.W f i j : Int) y)
        let t ← load .temp (at3 x.H x.W f i j : Int)
        store .temp (at3 x.H x.W f i j : Int) (act t))) ?_ ?_
      · intro f i j hf hi hj ha
        exact Stores.reapply (Stores.bind (Evals.load3 hsrc hx (hget hf) hi hj rfl)
          (Stores.store rfl ha rfl)) rfl rfl ha
      · simp only [gatherLoops, Np.take]
        rw [foldN_pos idx.length 0 (x.H * x.W) _ (fun f => forN x.H fun i => forN x.W fun j => (do
          (do
            let y ← load src ((j + x.W * (i + x.H * idx.getD f 0) : Nat) : Int)
            store .temp (at3 x.H x.W f i j : Int) y)
          let t ← load .temp (at3 x.H x.W f i j : Int)
          store .temp (at3 x.H x.W f i j : Int) (act t)))]
        · congr 1; funext _; congr 1; rw [hsize]; simp [Np.take]; ring
        · intro f hf
          simp only [bind_eq, hl hf]
          rw [foldN_pos x.H (0 + f * (x.H * x.W)) x.W _ (fun i => forN x.W fun j => (do
            (do
              let y ← load src ((j + x.W * (i + x.H * idx.getD f 0) : Nat) : Int)
              store .temp (at3 x.H x.W f i j : Int) y)
            let t ← load .temp (at3 x.H x.W f i j : Int)
            store .temp (at3 x.H x.W f i j : Int) (act t)))]
          · simp only [bind_eq]; congr 1; funext _; congr 1; ring
          · intro i hi
            rw [foldN_pos x.W (0 + f * (x.H * x.W) + i * x.W) 1 _ (fun j => (do
              (do
                let y ← load src ((j + x.W * (i + x.H * idx.getD f 0) : Nat) : Int)
                store .temp (at3 x.H x.W f i j : Int) y)
              let t ← load .temp (at3 x.H x.W f i j : Int)
              store .temp (at3 x.H x.W f i j : Int) (act t)))]
            · congr 1; funext _; congr 1; ring
            · intro j hj
              rw [gatherInner_eq]
              have : 0 + f * (x.H * x.W) + i * x.W + j * 1 = at3 x.H x.W f i j := by unfold at3; ring
              rw [this]
              congr 1; funext _; congr 1
              unfold at3; ring
    | h =>
      refine run (fun f i j => (do
        (do
          let y ← load src ((j + x.W * (idx.getD i 0 + x.H * f) : Nat) : Int)
          store .temp (at3 idx.length x.W f i j : Int) y)
        let t ← load .temp (at3 idx.length x.W f i j : Int)
        store .temp (at3 idx.length x.W f i j : Int) (act t))) ?_ ?_
      · intro f i j hf hi hj ha
        exact Stores.reapply (Stores.bind (Evals.load3 hsrc hx hf (hget hi) hj rfl)
          (Stores.store rfl ha rfl)) rfl rfl ha
      · simp only [gatherLoops, Np.take]
        rw [foldN_pos x.C 0 (idx.length * x.W) _ (fun f => forN idx.length fun i => forN x.W fun j => (do
          (do
            let y ← load src ((j + x.W * (idx.getD i 0 + x.H * f) : Nat) : Int)
            store .temp (at3 idx.length x.W f i j : Int) y)
          let t ← load .temp (at3 idx.length x.W f i j : Int)
          store .temp (at3 idx.length x.W f i j : Int) (act t)))]
        · congr 1; funext _; congr 1; rw [hsize]; simp [Np.take]; ring
        · intro f hf
          rw [foldN_pos idx.length (0 + f * (idx.length * x.W)) x.W _ (fun i => forN x.W fun j => (do
            (do
              let y ← load src ((j + x.W * (idx.getD i 0 + x.H * f) : Nat) : Int)
              store .temp (at3 idx.length x.W f i j : Int) y)
            let t ← load .temp (at3 idx.length x.W f i j : Int)
            store .temp (at3 idx.length x.W f i j : Int) (act t)))]
          · congr 1; funext _; congr 1; ring
          · intro i hi
            simp only [bind_eq, hl hi]
            rw [foldN_pos x.W (0 + f * (idx.length * x.W) + i * x.W) 1 _ (fun j => (do
              (do
                let y ← load src ((j + x.W * (idx.getD i 0 + x.H * f) : Nat) : Int)
                store .temp (at3 idx.length x.W f i j : Int) y)
              let t ← load .temp (at3 idx.length x.W f i j : Int)
              store .temp (at3 idx.length x.W f i j : Int) (act t)))]
            · simp only [bind_eq]; congr 1; funext _; congr 1; ring
            · intro j hj
              rw [gatherInner_eq]
              have : 0 + f * (idx.length * x.W) + i * x.W + j * 1 = at3 idx.length x.W f i j := by
                unfold at3; ring
              rw [this]
              congr 1; funext _; congr 1
              unfold at3; ring
    | w =>
      refine run (fun f i j => (do
        (do
          let y ← load src ((idx.getD j 0 + x.W * (i + x.H * f) : Nat) : Int)
          store .temp (at3 x.H idx.length f i j : Int) y)
        let t ← load .temp (at3 x.H idx.length f i j : Int)
        store .temp (at3 x.H idx.length f i j : Int) (act t))) ?_ ?_
      · intro f i j hf hi hj ha
        exact Stores.reapply (Stores.bind (Evals.load3 hsrc hx hf hi (hget hj) rfl)
          (Stores.store rfl ha rfl)) rfl rfl ha
      · simp only [gatherLoops, Np.take]
        rw [foldN_pos x.C 0 (x.H * idx.length) _ (fun f => forN x.H fun i => forN idx.length fun j => (do
          (do
            let y ← load src ((idx.getD j 0 + x.W * (i + x.H * f) : Nat) : Int)
            store .temp (at3 x.H idx.length f i j : Int) y)
          let t ← load .temp (at3 x.H idx.length f i j : Int)
          store .temp (at3 x.H idx.length f i j : Int) (act t)))]
        · congr 1; funext _; congr 1; rw [hsize]; simp [Np.take]; ring
        · intro f hf
          rw [foldN_pos x.H (0 + f * (x.H * idx.length)) idx.length _ (fun i => forN idx.length fun j => (do
            (do
              let y ← load src ((idx.getD j 0 + x.W * (i + x.H * f) : Nat) : Int)
              store .temp (at3 x.H idx.length f i j : Int) y)
            let t ← load .temp (at3 x.H idx.length f i j : Int)
            store .temp (at3 x.H idx.length f i j : Int) (act t)))]
          · congr 1; funext _; congr 1; ring
          · intro i hi
            rw [foldN_pos idx.length (0 + f * (x.H * idx.length) + i * idx.length) 1 _ (fun j => (do
              (do
                let y ← load src ((idx.getD j 0 + x.W * (i + x.H * f) : Nat) : Int)
                store .temp (at3 x.H idx.length f i j : Int) y)
              let t ← load .temp (at3 x.H idx.length f i j : Int)
              store .temp (at3 x.H idx.length f i j : Int) (act t)))]
            · congr 1; funext _; congr 1; ring
            · intro j hj
              simp only [bind_eq, hl hj]
              rw [gatherInner_eq]
              have : 0 + f * (x.H * idx.length) + i * idx.length + j * 1 = at3 x.H idx.length f i j := by
                unfold at3; ring
              rw [this]
              simp only [bind_eq]
              congr 1; funext _; congr 1
              unfold at3; ring
  obtain ⟨m', e, h1, h2⟩ := key
  have hlen : (z.map act).flat.length = size := by
    unfold Arr.flat; rw [tensor3_length, hsize]; rfl
  have := computes_of_temp (m := m) (k := road) (id : α → α) (n := size) hlen ho
    (c := andThen (gatherLoops a idx x.W x.H z.C z.H z.W act src) fun _ => ret ())
    ⟨m', by rw [andThen_run e]; rfl, h1, h2⟩
  rw [List.map_id, andThen_assoc] at this
  exact this

/-- hypotheses satisfiable: rows 1, 1, 0 of a 1×2×2 tensor -/
example : Computes (gatherCode .h [1, 1, 0] 2 2 1 3 2 6 (fun v => v + 1) (.out 0) 0) (exMem 6) (.out 0)
    [3, 4, 3, 4, 1, 2] :=
  C16_gather .h [1, 1, 0] 6 0 (fun v => v + 1) (.out 0) ⟨1, 2, 2, fun f i j => at3 2 2 f i j⟩
    (Np.take .h [1, 1, 0] ⟨1, 2, 2, fun f i j => at3 2 2 f i j⟩) (exMem 6) rfl
    (by simp) (exMem_holds 6 1 2 2 _ (by decide)) (by simp [Np.dim]) rfl (by decide) (by decide)

/-! ## C15 Concatenate -/

/-- element of a concatenation: the first array whose range along the axis contains the index -/
def concatAt (a : Np.Axis) (f i j : Nat) : List (Arr α) → Nat → Option α
  | [], _ => none
  | x :: xs, inf =>
    if inf ≤ loopVar f i j a ∧ loopVar f i j a < inf + Np.dim a x then
      some (match a with
        | .c => x.v (f - inf) i j
        | .h => x.v f (i - inf) j
        | .w => x.v f i (j - inf))
    else concatAt a f i j xs (inf + Np.dim a x)

/-- the arrays agree with the output shape on the other axes -/
def SameOther (a : Np.Axis) (C H W : Nat) (x : Arr α) : Prop :=
  (a ≠ .c → x.C = C) ∧ (a ≠ .h → x.H = H) ∧ (a ≠ .w → x.W = W)

theorem concatAt_none (a : Np.Axis) (f i j : Nat) (xs : List (Arr α)) (inf : Nat)
    (h : loopVar f i j a < inf) : concatAt a f i j xs inf = none := by
  induction xs generalizing inf with
  | nil => rfl
  | cons x xs ih =>
    simp only [concatAt]
    rw [if_neg (by omega), ih _ (by omega)]

theorem concatStmts_run {m : Mem α} (a : Np.Axis) (C H W f i j : Nat) {os : List Operand} {xs : List (Arr α)}
    (hx : List.Forall₂ (Feeds m) os xs) (hs : ∀ x ∈ xs, SameOther a C H W x)
    (hf : f < C) (hi : i < H) (hj : j < W) (ha : at3 H W f i j < m.size .temp)
    (inf : Nat) (u : Nat → Option α) :
    concatStmts a H W f i j os inf (m.upd .temp u) = some ((), match concatAt a f i j xs inf with
      | none => m.upd .temp u
      | some v => (m.upd .temp u).upd .temp (single (at3 H W f i j) v)) := by
  induction hx generalizing inf u with
  | nil => rfl
  | @cons o x os xs hox hrest ih =>
    obtain ⟨hne, e1, e2, e3, hh⟩ := hox
    obtain ⟨s1, s2, s3⟩ := hs x (by simp)
    have hdim : o.dim a = Np.dim a x := by cases a <;> simpa [Operand.dim, Np.dim]
    have ih' := ih (fun y hy => hs y (by simp [hy]))
    simp only [concatStmts]
    by_cases hc : inf ≤ loopVar f i j a ∧ loopVar f i j a < inf + Np.dim a x
    · have hnone := concatAt_none a f i j xs (inf + Np.dim a x) hc.2
      have hst : ∃ v, concatAt a f i j (x :: xs) inf = some v ∧
          Stores .temp m (concatOne a H W f i j o inf) (at3 H W f i j) v := by
        simp only [concatAt, if_pos hc]
        refine ⟨_, rfl, ?_⟩
        cases a with
        | c =>
          simp only [loopVar, Np.dim] at hc
          have h2 := s2 (by simp); have h3 := s3 (by simp); subst h2 h3
          simp only [concatOne]
          rw [if_pos (by omega), e2, e3]
          refine Stores.bind (Evals.load3 hne hh (f := f - inf) (by omega) hi hj ?_) (Stores.store rfl ha rfl)
          unfold at3; push_cast [Nat.cast_sub hc.1]; ring
        | h =>
          simp only [loopVar, Np.dim] at hc
          have h2 := s1 (by simp); have h3 := s3 (by simp); subst h2 h3
          simp only [concatOne]
          rw [if_pos (by omega), e2, e3]
          refine Stores.bind (Evals.load3 hne hh (i := i - inf) hf (by omega) hj ?_) (Stores.store rfl ha rfl)
          unfold at3; push_cast [Nat.cast_sub hc.1]; ring
        | w =>
          simp only [loopVar, Np.dim] at hc
          have h2 := s1 (by simp); have h3 := s2 (by simp); subst h2 h3
          simp only [concatOne]
          rw [if_pos (by omega), e2, e3]
          refine Stores.bind (Evals.load3 hne hh (j := j - inf) hf hi (by omega) ?_) (Stores.store rfl ha rfl)
          unfold at3; push_cast [Nat.cast_sub hc.1]; ring
      obtain ⟨v, hv, hst⟩ := hst
      rw [hv]
      refine (andThen_run (hst u)).trans ?_
      rw [Mem.upd_upd, hdim, ih', hnone]
      simp only [Mem.upd_upd]
    · have hone : concatOne a H W f i j o inf = (ret () : Prog α Unit) := by
        cases a <;> simp only [loopVar, Np.dim] at hc <;> simp only [concatOne] <;>
          rw [if_neg (by omega)] <;> rfl
      rw [hone]
      refine (andThen_run (ret_run () _)).trans ?_
      rw [hdim, ih']
      simp only [concatAt, if_neg hc]

theorem sameOther_concat2 {a : Np.Axis} {C H W : Nat} {x y : Arr α} (hx : SameOther a C H W x) :
    SameOther a C H W (Np.concat2 a x y) := by
  obtain ⟨h1, h2, h3⟩ := hx
  cases a
  · exact ⟨fun h => absurd rfl h, h2, h3⟩
  · exact ⟨h1, fun h => absurd rfl h, h3⟩
  · exact ⟨h1, h2, fun h => absurd rfl h⟩

theorem dim_concat2 (a : Np.Axis) (x y : Arr α) :
    Np.dim a (Np.concat2 a x y) = Np.dim a x + Np.dim a y := by cases a <;> rfl

theorem concat_foldl (a : Np.Axis) (f i j : Nat) (xs : List (Arr α)) (x : Arr α)
    (h : loopVar f i j a < Np.dim a (xs.foldl (Np.concat2 a) x)) :
    concatAt a f i j (x :: xs) 0 = some ((xs.foldl (Np.concat2 a) x).v f i j) := by
  induction xs generalizing x with
  | nil =>
    simp only [concatAt]
    rw [if_pos ⟨by omega, by simpa using h⟩]
    cases a <;> rfl
  | cons y ys ih =>
    simp only [List.foldl_cons] at h ⊢
    rw [← ih _ h]
    simp only [concatAt, dim_concat2, Nat.zero_add, Nat.zero_le, true_and]
    by_cases h1 : loopVar f i j a < Np.dim a x
    · rw [if_pos h1, if_pos (by omega)]
      cases a <;> simp only [loopVar, Np.dim] at h1 <;> simp [Np.concat2, h1]
    · rw [if_neg h1]
      by_cases h2 : loopVar f i j a < Np.dim a x + Np.dim a y
      · rw [if_pos h2, if_pos (by omega)]
        cases a <;> simp only [loopVar, Np.dim] at h1 <;> simp [Np.concat2, Np.dim, h1]
      · rw [if_neg h2, if_neg (by omega)]

/-- **C15, placement.** In the reference result the producers occupy consecutive ranges of the axis, in
order: the element with index `t` along the axis of the `k`-th producer is found at
`t + (sum of the sizes of the producers before it)`, everything else about its index unchanged. -/
theorem C15_placement (a : Np.Axis) (act : α → α) (x : Arr α) (xs : List (Arr α)) (k : Nat) (y : Arr α)
    (hk : (x :: xs)[k]? = some y) (ix : Np.Axis → Nat) (hix : ix a < Np.dim a y) :
    let r := concatForward a act x xs
    let off := (((x :: xs).take k).map (Np.dim a)).sum
    let pos := fun b => if b = a then ix b + off else ix b
    off + Np.dim a y ≤ Np.dim a r ∧ r.v (pos .c) (pos .h) (pos .w) = act (y.v (ix .c) (ix .h) (ix .w)) := by
  intro r off pos
  have hdimfold : ∀ (zs : List (Arr α)) (z : Arr α),
      Np.dim a (zs.foldl (Np.concat2 a) z) = Np.dim a z + (zs.map (Np.dim a)).sum := by
    intro zs
    induction zs with
    | nil => intro z; simp
    | cons w ws ih => intro z; simp [ih, dim_concat2, Nat.add_assoc]
  have hrd : Np.dim a r = Np.dim a (xs.foldl (Np.concat2 a) x) := by cases a <;> rfl
  have hsplit : (((x :: xs).map (Np.dim a)).sum) ≥ off + Np.dim a y := by
    have hlt : k < (x :: xs).length := by
      rw [List.getElem?_eq_some_iff] at hk; exact hk.1
    have hd : (x :: xs).drop k = y :: (x :: xs).drop (k + 1) := by
      rw [List.drop_eq_getElem_cons hlt]
      congr 1
      rw [List.getElem?_eq_getElem hlt] at hk
      simpa using hk
    have := List.take_append_drop k (x :: xs)
    rw [← this, List.map_append, List.sum_append, hd]
    simp [off]
  have hle : off + Np.dim a y ≤ Np.dim a r := by
    rw [hrd, hdimfold]; simpa using hsplit
  refine ⟨hle, ?_⟩
  have hat : ∀ (ys : List (Arr α)) (k : Nat) (inf : Nat), ys[k]? = some y →
      ∀ f i j, loopVar f i j a = ix a + (inf + ((ys.take k).map (Np.dim a)).sum) →
        (∀ b, b ≠ a → loopVar f i j b = ix b) →
      concatAt a f i j ys inf = some (y.v (ix .c) (ix .h) (ix .w)) := by
    intro ys
    induction ys with
    | nil => intro k inf h; simp at h
    | cons z zs ih =>
      intro k inf h f i j hp ho
      cases k with
      | zero =>
        simp only [List.getElem?_cons_zero, Option.some.injEq] at h
        subst h
        simp only [concatAt]
        simp only [List.take_zero, List.map_nil, List.sum_nil, Nat.add_zero] at hp
        rw [if_pos (by omega)]
        cases a
        · have h1 := ho .h (by simp); have h2 := ho .w (by simp)
          simp only [loopVar] at hp h1 h2; subst h1 h2; simp [hp]
        · have h1 := ho .c (by simp); have h2 := ho .w (by simp)
          simp only [loopVar] at hp h1 h2; subst h1 h2; simp [hp]
        · have h1 := ho .c (by simp); have h2 := ho .h (by simp)
          simp only [loopVar] at hp h1 h2; subst h1 h2; simp [hp]
      | succ k =>
        simp only [List.getElem?_cons_succ] at h
        simp only [List.take_succ_cons, List.map_cons, List.sum_cons] at hp
        simp only [concatAt]
        rw [if_neg (by omega)]
        exact ih k _ h f i j (by omega) ho
  have hpos : loopVar (pos .c) (pos .h) (pos .w) a = ix a + off := by
    cases a <;> simp [loopVar, pos]
  have h1 := hat (x :: xs) k 0 hk (pos .c) (pos .h) (pos .w)
    (by rw [hpos, Nat.zero_add]) (by
      intro b hb
      cases b <;> simp [loopVar, pos, hb])
  have h2 := concat_foldl a (pos .c) (pos .h) (pos .w) xs x (by rw [hpos, ← hrd]; omega)
  rw [h1] at h2
  show act _ = _
  rw [← Option.some.inj h2]

/-- **C15.** Concatenate: for any number of producers equal outside the axis, the generated code leaves
the result of the Python reference. -/
theorem C15_concatenate (a : Np.Axis) (size road : Nat) (act : α → α) (o : Operand) (os : List Operand)
    (x : Arr α) (xs : List (Arr α)) (r : Arr α) (m : Mem α)
    (hr : r = concatForward a act x xs)
    (hx : Feeds m o x) (hxs : List.Forall₂ (Feeds m) os xs)
    (hs : ∀ y ∈ xs, SameOther a x.C x.H x.W y)
    (hsize : size = r.C * r.H * r.W)
    (ht : size ≤ m.size .temp) (ho : size ≤ m.size (.out road)) :
    Computes (concatCode a r.C r.H r.W size act (o :: os) road) m (.out road) r.flat := by
  have hso : SameOther a x.C x.H x.W (xs.foldl (Np.concat2 a) x) := by
    have : ∀ (ys : List (Arr α)) (z : Arr α), SameOther a x.C x.H x.W z →
        SameOther a x.C x.H x.W (ys.foldl (Np.concat2 a) z) := by
      intro ys
      induction ys with
      | nil => intro z h; exact h
      | cons w ws ih => intro z h; exact ih _ (sameOther_concat2 h)
    exact this xs x ⟨fun _ => rfl, fun _ => rfl, fun _ => rfl⟩
  subst hr
  have hs' : ∀ y ∈ x :: xs, SameOther a (concatForward a act x xs).C (concatForward a act x xs).H
      (concatForward a act x xs).W y := by
    intro y hy
    have hy' : SameOther a x.C x.H x.W y := by
      rcases List.mem_cons.mp hy with h | h
      · subst h; exact ⟨fun _ => rfl, fun _ => rfl, fun _ => rfl⟩
      · exact hs y h
    exact ⟨fun h => (hy'.1 h).trans (hso.1 h).symm, fun h => (hy'.2.1 h).trans (hso.2.1 h).symm,
      fun h => (hy'.2.2 h).trans (hso.2.2 h).symm⟩
  refine kernel3 (h := act) (v := (xs.foldl (Np.concat2 a) x).v) hsize ht ho
    fun f i j hf hi hj ha => ?_
  intro u
  rw [concatStmts_run a _ _ _ f i j (List.Forall₂.cons hx hxs) hs' hf hi hj ha 0 u,
    concat_foldl a f i j xs x (by cases a <;> assumption)]

/-- the hypotheses of `C15_concatenate` are satisfiable: a 1×1×2 and a 1×1×1 tensor along the width -/
example : Computes (concatCode .w 1 1 3 3 (fun v => v * 10) [⟨.out 0, 1, 1, 2⟩, ⟨.cst 0, 1, 1, 1⟩] 0)
    ⟨fun _ => 3, fun b a => match b with | .out 0 => a + 1 | .cst 0 => 7 | _ => 0⟩ (.out 0) [10, 20, 70] := by
  refine C15_concatenate .w 3 0 (fun v => v * 10) ⟨.out 0, 1, 1, 2⟩ [⟨.cst 0, 1, 1, 1⟩]
    ⟨1, 1, 2, fun _ _ j => j + 1⟩ [⟨1, 1, 1, fun _ _ _ => 7⟩] _ _ rfl
    ⟨by simp, rfl, rfl, rfl, ?_⟩ (.cons ⟨by simp, rfl, rfl, rfl, ?_⟩ .nil) ?_ rfl (by simp) (by simp)
  · refine ⟨by decide, ?_⟩
    intro a h
    simp only [Arr.flat, tensor3_length] at h
    interval_cases a <;> rfl
  · refine ⟨by decide, ?_⟩
    intro a h
    simp only [Arr.flat, tensor3_length] at h
    interval_cases a; rfl
  · simp [SameOther]

end Verif.Layers

import Verif.Onnx.LocalMove

/-!
# Pad layers made by the importer
-/

namespace Verif.Onnx
open Net Layers Gen
open scoped Classical

/-! ## Pad -/

theorem pad_edge {n : Nat} (hn : 0 < n) (z : Int) : Spec.padIndex "edge" n z = some (some (Np.edge n z)) ∧ Np.edge n z < n := by
  unfold Spec.padIndex Np.edge
  split
  · rw [if_neg (by omega), if_neg (by omega)]; exact ⟨rfl, by omega⟩
  · by_cases h : z < 0
    · simp [h, hn]
    · have : (n : Int) ≤ z := by omega
      simp [h, this]; omega

theorem pad_wrap {n : Nat} (hn : 0 < n) (z : Int) : Spec.padIndex "wrap" n z = some (some (Np.wrap n z)) ∧ Np.wrap n z < n := by
  unfold Spec.padIndex Np.wrap
  have h1 := Int.emod_nonneg z (show (n : Int) ≠ 0 by omega)
  have h2 := Int.emod_lt_of_pos z (show (0 : Int) < n by omega)
  refine ⟨?_, by omega⟩
  split
  · rename_i h; rw [Int.emod_eq_of_lt h.1 h.2]
  · rfl

theorem pad_reflect {n : Nat} (hn : 0 < n) (z : Int) : Spec.padIndex "reflect" n z = some (some (Np.reflect n z)) ∧ Np.reflect n z < n := by
  unfold Spec.padIndex Np.reflect
  rcases Nat.eq_or_lt_of_le hn with h | h
  · subst h
    simp only [Nat.succ_eq_add_one, Nat.zero_add, Nat.cast_one, sub_self, mul_zero, Int.emod_zero, zero_sub]
    refine ⟨?_, by split <;> omega⟩
    split
    · rw [if_pos (by omega)]
    · rfl
  · have h1 := Int.emod_nonneg z (show (2 * ((n : Int) - 1)) ≠ 0 by omega)
    have h2 := Int.emod_lt_of_pos z (show (0 : Int) < 2 * ((n : Int) - 1) by omega)
    refine ⟨?_, by simp only; split <;> omega⟩
    split
    · rename_i h; rw [Int.emod_eq_of_lt h.1 (by omega), if_pos h.2]
    · rfl

theorem pad_constant (n : Nat) (z : Int) : Spec.padIndex "constant" n z = some (if 0 ≤ z ∧ z < n then some z.toNat else none) := by
  unfold Spec.padIndex
  split <;> rfl

theorem pad_in {n b p : Nat} (h1 : b ≤ p) (h2 : p < b + n) : Spec.padIndex "constant" n ((p : Int) - b) = some (some (p - b)) := by
  rw [pad_constant, if_pos (by omega)]
  congr 2; omega

/-- the names and values of three arguments -/
theorem args_pad {E : Spec.Env} {n : Node} {a b : Nd ℝ} {c : Option (Nd ℝ)} {as : List (Option (Nd ℝ))} (h : Spec.args E n = some as)
    (has : as = [some a, some b] ∧ c = none ∨ as = [some a, some b, c]) {x0 x1 x2 : String} (h0 : n.input? 0 = some x0) (h1 : n.input? 1 = some x1)
    (h2 : n.input? 2 = some x2) (hne : x2 ≠ "") : E x0 = some a ∧ E x1 = some b ∧ ∃ k, c = some k ∧ E x2 = some k := by
  have g0 := args_get h h0
  have g1 := args_get h h1
  have g2 := args_get h h2
  rcases has with ⟨rfl, rfl⟩ | rfl
  · simp at g2
  · simp at g0 g1 g2
    rcases g2 with ⟨rfl, _⟩ | ⟨_, t2, e2, rfl⟩
    · exact absurd rfl hne
    · exact ⟨g0.2, g1.2, t2, rfl, e2⟩

theorem mkM_some {d : List Nat} {v : List Nat → Option ℝ} {y : Nd ℝ} (hy : Spec.mkM d v = some y) {g : List Nat → ℝ}
    (hg : ∀ ix ∈ indices d, v ix = some (g ix)) : y.data = (indices d).map g := by
  unfold Spec.mkM at hy
  rw [Option.map_eq_some_iff] at hy
  obtain ⟨l, hl, rfl⟩ := hy
  generalize indices d = ixs at *
  induction ixs generalizing l with
  | nil => simp at hl; simp [← hl]
  | cons a r ih =>
    rw [List.mapM_cons, hg a (by simp)] at hl
    obtain ⟨b, hb, hl⟩ := Option.bind_eq_some_iff.mp hl
    obtain ⟨bs, hbs, hl⟩ := Option.bind_eq_some_iff.mp hl
    simp only [Option.pure_def, Option.some.injEq] at hl hb
    subst hl hb
    simpa using ih bs (fun ix hix => hg ix (List.mem_cons_of_mem _ hix)) hbs

theorem mapM_nat {l : List Int} {r : List Nat} (h : l.mapM nat? = some r) : l = r.map fun k : Nat => (k : Int) := by
  induction l generalizing r with
  | nil => cases h; rfl
  | cons a l ih =>
    rw [List.mapM_cons] at h
    obtain ⟨b, hb, h⟩ := Option.bind_eq_some_iff.mp h
    obtain ⟨bs, hbs, h⟩ := Option.bind_eq_some_iff.mp h
    simp only [Option.pure_def, Option.some.injEq] at h
    subst h
    unfold nat? at hb
    simp only [Option.ite_none_right_eq_some, Option.some.injEq] at hb
    rw [ih hbs, ← hb.2]
    simp; omega

theorem mem_four {C H W : Nat} {ix : List Nat} (h : ix ∈ indices [1, C, H, W]) : ∃ c i j, ix = [0, c, i, j] ∧ c < C ∧ i < H ∧ j < W := by
  simp only [indices, List.mem_flatMap, List.mem_range, List.mem_map, List.mem_singleton] at h
  obtain ⟨z, hz, _, ⟨c, hc, _, ⟨i, hi, _, ⟨j, hj, _, rfl, rfl⟩, rfl⟩, rfl⟩, rfl⟩ := h
  exact ⟨c, i, j, by simp; omega, hc, hi, hj⟩

theorem pad_modes {A : Type} {mode : Option String} {a b c d r : A}
    (h : (match mode with | some "constant" => some a | some "edge" => some b | some "wrap" => some c | some "reflect" => some d | _ => none) = some r) :
    (mode = some "constant" ∧ a = r) ∨ (mode = some "edge" ∧ b = r) ∨ (mode = some "wrap" ∧ c = r) ∨ (mode = some "reflect" ∧ d = r) := by
  split at h <;> simp_all

/-- a node with an omitted fourth input is not accepted -/
theorem pad_args {m : Model} {n : Node} {made : Made} {E : Spec.Env} {as : List (Option (Nd ℝ))} (h : createPad m n = some made) (ha : Spec.args E n = some as) :
    Spec.padArgs as = as := by
  unfold Spec.padArgs
  split
  · rename_i a b c
    unfold createPad at h
    obtain ⟨x0, hx0, h⟩ := Option.bind_eq_some_iff.mp h
    obtain ⟨s, hs, h⟩ := Option.bind_eq_some_iff.mp h
    obtain ⟨x1, hx1, h⟩ := Option.bind_eq_some_iff.mp h
    obtain ⟨i1, hi1, h⟩ := Option.bind_eq_some_iff.mp h
    obtain ⟨⟨d, l⟩, hl, h⟩ := Option.bind_eq_some_iff.mp h
    obtain ⟨x2, hx2, h⟩ := Option.bind_eq_some_iff.mp h
    obtain ⟨i2, hi2, h⟩ := Option.bind_eq_some_iff.mp h
    obtain ⟨k, hkv, h⟩ := Option.bind_eq_some_iff.mp h
    obtain ⟨kv, hkv', h⟩ := Option.bind_eq_some_iff.mp h
    obtain ⟨ps, hps, h⟩ := Option.bind_eq_some_iff.mp h
    obtain ⟨_, h4, _⟩ := Option.bind_eq_some_iff.mp h
    have hlen := args_length ha
    rw [if_neg (by simp at hlen; omega)] at h4
    obtain ⟨x3, hx3, h4⟩ := Option.bind_eq_some_iff.mp h4
    obtain ⟨i3, hi3, h4⟩ := Option.bind_eq_some_iff.mp h4
    rcases args_get ha hx3 with ⟨rfl, _⟩ | ⟨t, _, _, e⟩
    · simp [Model.init?] at hi3
    · simp at e
  · rfl

theorem correct_pad {M : CMath ℝ} {m : Model} {dyn : String → Prop} {E : Spec.Env} (hk : Known m dyn E) {n : Node} {made : Made}
    (h : createPad m n = some made) {as : List (Option (Nd ℝ))} {x pads y : Nd ℝ} {c : Option (Nd ℝ)} (ha : Spec.args E n = some as)
    (has : as = [some x, some pads] ∧ c = none ∨ as = [some x, some pads, c]) (hdyn : ∀ s, n.input? 0 = some s → dyn s)
    (hbatch : pads.data.getD 0 0 = 0 ∧ pads.data.getD 4 0 = 0) (hy : Spec.pad n x pads c = some y) : Correct M E made.1 made.2 y := by
  unfold createPad at h
  obtain ⟨x0, hx0, h⟩ := Option.bind_eq_some_iff.mp h
  obtain ⟨s, hs, h⟩ := Option.bind_eq_some_iff.mp h
  obtain ⟨x1, hx1, h⟩ := Option.bind_eq_some_iff.mp h
  obtain ⟨i1, hi1, h⟩ := Option.bind_eq_some_iff.mp h
  obtain ⟨⟨d, l⟩, hl, h⟩ := Option.bind_eq_some_iff.mp h
  obtain ⟨x2, hx2, h⟩ := Option.bind_eq_some_iff.mp h
  obtain ⟨i2, hi2, h⟩ := Option.bind_eq_some_iff.mp h
  obtain ⟨k, hkv, h⟩ := Option.bind_eq_some_iff.mp h
  obtain ⟨kv, hkv', h⟩ := Option.bind_eq_some_iff.mp h
  obtain ⟨ps, hps, h⟩ := Option.bind_eq_some_iff.mp h
  obtain ⟨_, _, hfin⟩ := Option.bind_eq_some_iff.mp h
  have hne : x2 ≠ "" := by rintro rfl; simp [Model.init?] at hi2
  obtain ⟨hE, hE1, k', rfl, hE2⟩ := args_pad ha has hx0 hx1 hx2 hne
  obtain ⟨t2, ht2, hEt2⟩ := hk.init _ _ hi2
  rw [hkv] at ht2; cases ht2
  rw [hE2] at hEt2; cases hEt2
  obtain ⟨t1, ht1, hEt1⟩ := hk.init _ _ hi1
  rw [hE1] at hEt1; cases hEt1
  obtain ⟨e1, e2, e3⟩ := intArray_array hl ht1
  have hraw := hk.decl _ _ (hdyn _ hx0) hE
  have hok := hk.ok _ _ hE
  rw [Model.shape, hraw] at hs
  have hs' := (shape_of_known hs).2
  have hpl := mapM_nat hps
  have hp : pads.data.map Spec.toInt = l := by
    rw [e2, List.map_map]
    conv_rhs => rw [← List.map_id l]
    exact List.map_congr_left fun z _ => Int.floor_intCast z
  simp only [Spec.pad, hp] at hy
  obtain ⟨c, hc, hy⟩ := Option.bind_eq_some_iff.mp hy
  rw [hkv'] at hc; cases hc
  simp only [Option.ite_none_right_eq_some] at hy
  obtain ⟨⟨hlen, _, hpos⟩, hy⟩ := hy
  have hr := shapeOf_length hs'
  have hps8 : 8 ≤ ps.length := by
    rcases ps with _ | ⟨_, _ | ⟨_, _ | ⟨_, _ | ⟨_, _ | ⟨_, _ | ⟨_, _ | ⟨_, _ | ⟨_, _⟩⟩⟩⟩⟩⟩⟩⟩ <;> simp at hfin ⊢
  have hll : l.length = ps.length := by rw [hpl]; simp
  match ps, hps8, hps, hpl, hll, hfin with
  | [n0, cf, hf, wf, n1, cb, hb, wb], _, hps, hpl, hll, hfin =>
    simp only [List.map_cons, List.map_nil] at hpl
    subst hpl
    have hr4 : x.dims.length = 4 := by simp at hlen; omega
    have hxd : x.dims = [1, s.C, s.H, s.W] := by
      rcases shapeOf_cases hs' with ⟨e, rfl⟩ | ⟨_, e, rfl⟩ | ⟨_, _, e, rfl⟩ | ⟨_, _, _, e, rfl⟩ | ⟨_, _, _, e, rfl⟩ <;> rw [e] at hr4 <;> simp at hr4
      exact e
    have hn0 : n0 = 0 ∧ n1 = 0 := by
      rw [e2] at hbatch
      simpa using hbatch
    obtain ⟨rfl, rfl⟩ := hn0
    have hposs : 0 < s.C ∧ 0 < s.H ∧ 0 < s.W := by rw [hxd] at hpos; simpa using hpos
    have hg : ∀ {c i j}, c < s.C → i < s.H → j < s.W → x.get [0, c, i, j] = (arrOf s x.data).v c i j := by
      intro c i j h1 h2 h3
      have := get_cut x hs' h1 h2 h3
      rw [hxd] at this
      exact this
    have r4 : List.range 4 = [0, 1, 2, 3] := rfl
    simp only [hr4, r4] at hy
    simp only [List.map_cons, List.map_nil, hxd, List.getD_cons_zero, List.getD_cons_succ, Int.toNat_natCast, Nat.cast_zero, Int.toNat_zero,
      Nat.add_zero, show 4 + 0 = 4 from rfl, show 4 + 1 = 5 from rfl, show 4 + 2 = 6 from rfl, show 4 + 3 = 7 from rfl,
      List.mapM_cons, List.mapM_nil] at hy
    have fin : ∀ (op : Op ℝ) (g : Nat → Nat → Nat → ℝ), (∀ i : Nd ℝ, i.data = x.data → op.forward M .first [i] =
        some (ofArr ⟨s.C + cf + cb, s.H + hf + hb, s.W + wf + wb, g⟩)) → (y.data = tensor3 (s.C + cf + cb) (s.H + hf + hb) (s.W + wf + wb) g) →
        Correct M E op [x0] y := by
      intro op g h1 h2
      refine ⟨by simp, fun ins hins => ?_⟩
      obtain ⟨i, t, rfl, hE', hd⟩ := forall2_one hins
      rw [hE] at hE'; cases hE'
      exact ⟨_, h1 i hd, h2.symm⟩
    have modes : ∀ (mode : PadMode) (name : String), (∀ {n : Nat}, 0 < n → ∀ z, Spec.padIndex name n z = some (some (mode.np n z)) ∧ mode.np n z < n) →
        n.str? "mode" = some name → Correct M E (.pad mode s ⟨cf, cb, hf, hb, wf, wb⟩ id) [x0] y := by
      intro mode name hmode hname
      refine fin _ (Np.padBy mode.np cf cb hf hb wf wb (arrOf s x.data)).v ?_ ?_
      · intro i hd
        simp only [Op.forward, reshape3_ok hd hok hs', Option.bind_eq_bind, Option.bind_some]
        rfl
      · rw [hname] at hy
        rw [mkM_some hy (g := fun ix => (Np.padBy mode.np cf cb hf hb wf wb (arrOf s x.data)).v (ix.getD 1 0) (ix.getD 2 0) (ix.getD 3 0)), indices_four]
        · rfl
        · intro ix hix
          obtain ⟨c, i, j, rfl, h1, h2, h3⟩ := mem_four hix
          have m0 := (hmode (n := 1) (by omega) 0)
          have hz : mode.np 1 0 = 0 := by omega
          simp only [Option.getD_some, List.getD_cons_zero, List.getD_cons_succ, Nat.cast_zero, sub_zero, m0.1, hz, (hmode hposs.1 _).1, (hmode hposs.2.1 _).1,
            (hmode hposs.2.2 _).1, Option.bind_eq_bind, Option.bind_some, Option.pure_def]
          simp only [List.all_cons, List.all_nil, Option.isSome_some, Bool.and_self, if_true, List.map_cons, List.map_nil, Option.getD_some]
          rw [hg (hmode hposs.1 _).2 (hmode hposs.2.1 _).2 (hmode hposs.2.2 _).2]
          rfl
    rcases pad_modes hfin with ⟨hmode, rfl⟩ | ⟨hmode, rfl⟩ | ⟨hmode, rfl⟩ | ⟨hmode, rfl⟩
    · refine fin _ (Np.padConstant cf cb hf hb wf wb kv (arrOf s x.data)).v ?_ ?_
      · intro i hd
        simp only [Op.forward, reshape3_ok hd hok hs', Option.bind_eq_bind, Option.bind_some]
        rfl
      · rw [hmode] at hy
        rw [mkM_some hy (g := fun ix => (Np.padConstant cf cb hf hb wf wb kv (arrOf s x.data)).v (ix.getD 1 0) (ix.getD 2 0) (ix.getD 3 0)), indices_four]
        · rfl
        · intro ix hix
          obtain ⟨c, i, j, rfl, h1, h2, h3⟩ := mem_four hix
          simp only [Option.getD_some, List.getD_cons_zero, List.getD_cons_succ, Nat.cast_zero, sub_zero]
          have hz : Spec.padIndex "constant" 1 0 = some (some 0) := rfl
          by_cases hin : cf ≤ c ∧ c < cf + s.C ∧ hf ≤ i ∧ i < hf + s.H ∧ wf ≤ j ∧ j < wf + s.W
          · rw [hz, pad_in hin.1 hin.2.1, pad_in hin.2.2.1 hin.2.2.2.1, pad_in hin.2.2.2.2.1 hin.2.2.2.2.2]
            simp only [Option.bind_eq_bind, Option.bind_some, Option.pure_def, List.all_cons, List.all_nil, Option.isSome_some, Bool.and_self, if_true,
              List.map_cons, List.map_nil, Option.getD_some]
            rw [hg (by omega) (by omega) (by omega)]
            exact congrArg some (if_pos hin).symm
          · have : ¬ ((0 ≤ (c : Int) - cf ∧ (c : Int) - cf < s.C) ∧ (0 ≤ (i : Int) - hf ∧ (i : Int) - hf < s.H) ∧ (0 ≤ (j : Int) - wf ∧ (j : Int) - wf < s.W)) := by omega
            simp only [hz, pad_constant, Option.bind_eq_bind, Option.bind_some, Option.pure_def]
            refine congrArg some ((?_ : _ = _).trans (if_neg hin).symm)
            refine if_neg ?_
            simp only [List.all_cons, List.all_nil, Bool.and_eq_true, Bool.and_true]
            rintro ⟨_, g1, g2, g3⟩
            apply this
            refine ⟨?_, ?_, ?_⟩ <;> by_contra hc
            · rw [if_neg hc] at g1; simp at g1
            · rw [if_neg hc] at g2; simp at g2
            · rw [if_neg hc] at g3; simp at g3
    · exact modes .edge "edge" (fun hn z => pad_edge hn z) hmode
    · exact modes .wrap "wrap" (fun hn z => pad_wrap hn z) hmode
    · exact modes .reflect "reflect" (fun hn z => pad_reflect hn z) hmode
  | n0 :: cf :: hf :: wf :: n1 :: cb :: hb :: wb :: e :: l', _, hps, hpl, hll, hfin =>
    simp at hll; omega

end Verif.Onnx

import Verif.Opt.LoadSafe

/-! # The C program generated for a network after the pass -/

namespace Verif.Opt
open Prog
open Verif.Graph (ReadOnly)
variable {P T α : Type}

/-- The `{{#cst}}` block of `templates/template_source_file.c.tpl` 111-116, emitted for the layers whose `idx` is
in `dict_cst` (`generator/neural_network.py` 905-907). -/
def Net.save (net : Net P) (size : Nat → Nat) (o : Nat) : Prog α Unit :=
  match net.dict (net.num o) with
  | none => ret ()
  | some k => forN (size o) fun a =>
      andThen (Prog.load (.out (net.path o)) (a : Int)) fun v => store (.cst k) (a : Int) v

/-- The `{{#layers}}` section of `templates/template_source_file.c.tpl` 88-117: every layer reads the `output_str`
of its producers and writes `output_{path}`. -/
def Net.run (net : Net P) (size : Nat → Nat) (code : Nat → List Buf → Buf → Prog α Unit) :
    List Nat → Prog α Unit
  | [] => ret ()
  | o :: os =>
    andThen (code o ((net.prev o).map net.outS) (.out (net.path o))) fun _ =>
    andThen (net.save size o) fun _ =>
    Net.run net size code os

/-- The `keep_channels` branch of `templates/memory_layout/template_output.c.tpl` on `layers[-1]`
(`generator/neural_network.py` 931-945). -/
def Net.output (net : Net P) (size : Nat → Nat) : Prog α Unit :=
  match net.layers.getLast? with
  | none => ret ()
  | some o => forN (size o) fun a =>
      andThen (Prog.load (.out (net.path o)) (a : Int)) fun v => store .pred (a : Int) v

/-- The `inference` function generated for the network
(`templates/template_source_file.c.tpl`, without timing, debug prints and normalisation). -/
def Net.inference (net : Net P) (size : Nat → Nat) (code : Nat → List Buf → Buf → Prog α Unit) : Prog α Unit :=
  andThen (net.run size code net.layers) fun _ => net.output size

theorem run_load (dnn : Graph.Dnn) (plan : Graph.Plan) (cls : Nat → Cls) (fn : Nat → Fn) (par : Nat → P)
    (size : Nat → Nat) (code : Nat → List Buf → Buf → Prog α Unit) (os : List Nat) :
    (load dnn plan cls fn par).run size code os = Graph.runLayers plan dnn.prevOf size code os := by
  induction os with
  | nil => rfl
  | cons o os ih => rw [Net.run, Graph.runLayers, ih]; rfl

/-- Before any optimisation this is the `inference` function of the plan. -/
theorem inference_load (dnn : Graph.Dnn) (plan : Graph.Plan) (cls : Nat → Cls) (fn : Nat → Fn) (par : Nat → P)
    (size : Nat → Nat) (code : Nat → List Buf → Buf → Prog α Unit) :
    (load dnn plan cls fn par).inference size code = Graph.inference plan dnn.prevOf size code := by
  unfold Net.inference Graph.inference
  rw [run_load]; rfl

/-- Behaviour expected of the code of one layer of the network: from any memory with the arrays, the input and the
parameters of `m0`, in which the tensors of its producers are where the code looks for them, it computes the
layer's function into the layer's buffer.  (`enc` lists the elements of a tensor in memory order.) -/
def CodeOK (net : Net P) (S : Sem P T) (enc : T → List α) (code : Nat → List Buf → Buf → Prog α Unit)
    (m0 : Mem α) (size : Nat → Nat) (x : T) (o : Nat) : Prop :=
  ∀ (m : Mem α) (v : Nat → T), m.size = m0.size → (∀ b, ReadOnly b → m.val b = m0.val b) →
    (∀ p ∈ net.prev o, Holds m (net.outS p) (enc (v p)) ∧ (enc (v p)).length = size p) →
    Computes (code o ((net.prev o).map net.outS) (.out (net.path o))) m (.out (net.path o))
      (enc (net.eval S o (Graph.argsOf net.prev x v o)))

/-- the same for the tensors `v` -/
def CodeAt (net : Net P) (S : Sem P T) (enc : T → List α) (code : Nat → List Buf → Buf → Prog α Unit)
    (m0 : Mem α) (size : Nat → Nat) (x : T) (v : Nat → T) (o : Nat) : Prop :=
  ∀ m : Mem α, m.size = m0.size → (∀ b, ReadOnly b → m.val b = m0.val b) →
    (∀ p ∈ net.prev o, Holds m (net.outS p) (enc (v p)) ∧ (enc (v p)).length = size p) →
    Computes (code o ((net.prev o).map net.outS) (.out (net.path o))) m (.out (net.path o))
      (enc (net.eval S o (Graph.argsOf net.prev x v o)))

theorem run_correct {net : Net P} (wf : WF net) (X : Safe net) {S : Sem P T} {enc : T → List α}
    {code : Nat → List Buf → Buf → Prog α Unit} {m0 : Mem α} {size : Nat → Nat} {x : T} {v : Nat → T}
    (hv : net.IsVal S x v) (hcode : ∀ o ∈ net.layers, CodeAt net S enc code m0 size x v o)
    (hsz : ∀ o ∈ net.layers, (enc (v o)).length = size o)
    (hcs : ∀ o ∈ net.layers, ∀ k, net.dict (net.num o) = some k → size o ≤ m0.size (.cst k)) :
    ∀ post pre, net.layers = pre ++ post → ∀ m : Mem α, m.size = m0.size →
      (∀ b, ReadOnly b → m.val b = m0.val b) →
      (∀ p ∈ pre, (∃ c ∈ net.next p, c ∉ pre) → Holds m (net.outS p) (enc (v p))) →
      (∀ o, pre.getLast? = some o → Holds m (.out (net.path o)) (enc (v o))) →
      ∃ m', net.run size code post m = some ((), m') ∧ m'.size = m0.size ∧
        (∀ b, ReadOnly b → m'.val b = m0.val b) ∧
        ∀ o, net.layers.getLast? = some o → Holds m' (.out (net.path o)) (enc (v o)) := by
  intro post
  induction post with
  | nil =>
    intro pre he m hm hr _ hlast
    exact ⟨m, rfl, hm, hr, by rw [he]; simpa using hlast⟩
  | cons n post ih =>
    intro pre he m hm hr hneed hlast
    have hno : n ∈ net.layers := by simp [he]
    have hnd := wf.nodup
    have hn : net.layers[pre.length]? = some n := by rw [he]; simp
    have hpre : ∀ p ∈ pre, Bef net.layers p n := by
      intro p hp
      obtain ⟨j, hj⟩ := List.mem_iff_getElem?.1 hp
      have hlt : j < pre.length := (List.getElem?_eq_some_iff.1 hj).1
      exact ⟨j, pre.length, hlt, by rw [he, List.getElem?_append_left hlt]; exact hj, hn⟩
    have hnp : n ∉ pre := fun h => (hpre n h).ne hnd rfl
    have hprod : ∀ p ∈ net.prev n, p ∈ pre := by
      intro p hp
      obtain ⟨k, hk, hpk⟩ := wf.sorted pre.length n hn p hp
      rw [he, List.getElem?_append_left hk] at hpk
      exact List.mem_of_getElem? hpk
    have hlate : ∀ c ∈ net.layers, c ∉ pre ++ [n] → Bef net.layers n c := by
      intro c hc hcn
      rcases bef_total hno hc (by rintro rfl; exact hcn (by simp)) with h | h
      · exact h
      · exfalso
        obtain ⟨i, j, hij, hi, hj⟩ := h
        have := nodup_pos hnd hj hn
        subst this
        rw [he, List.getElem?_append_left hij] at hi
        exact hcn (by simp [List.mem_of_getElem? hi])
    obtain ⟨m1, e1, h1, c1⟩ := hcode n hno m hm hr (fun p hpm =>
      ⟨hneed p (hprod p hpm) ⟨n, wf.back n hno p hpm, hnp⟩, hsz p (by rw [he]; simp [hprod p hpm])⟩)
    rw [← hv n hno] at h1
    have hm1 : m1.size = m0.size := by rw [c1.1, hm]
    obtain ⟨m2, e2, h2, c2⟩ : ∃ m2, net.save size n m1 = some ((), m2) ∧
        (∀ k, net.dict (net.num n) = some k → Holds m2 (.cst k) (enc (v n))) ∧
        OnlyChanges ((net.dict (net.num n)).toList.map Buf.cst) m1 m2 := by
      unfold Net.save
      cases hk : net.dict (net.num n) with
      | none => exact ⟨m1, rfl, by simp, OnlyChanges.refl _ _⟩
      | some k =>
        obtain ⟨m2, e2, h2, c2⟩ := copy_holds (fun _ a => a) h1
          (dst := .cst k) (by rw [hm1, hsz n hno]; exact hcs n hno k hk)
        refine ⟨m2, by rw [← hsz n hno]; exact e2, ?_, by simpa using c2⟩
        intro k' hk'
        simp at hk'; subst hk'
        have : (enc (v n)).mapIdx (fun _ a => a) = enc (v n) := by
          apply List.ext_getElem <;> simp
        rw [this] at h2; exact h2
    have hm2 : m2.size = m0.size := by rw [c2.1, hm1]
    have keep2 : ∀ b t, Holds m1 b t → (∀ k, net.dict (net.num n) = some k → b ≠ .cst k) → Holds m2 b t := by
      intro b t hb hne
      refine hb.congr c2.1 (c2.2 b ?_)
      intro hh
      simp only [List.mem_map, Option.mem_toList] at hh
      obtain ⟨k, hk, rfl⟩ := hh
      exact hne k hk rfl
    have keep1 : ∀ b t, Holds m b t → b ≠ .out (net.path n) → b ≠ .temp → Holds m1 b t := by
      intro b t hb h1 h2
      exact hb.congr c1.1 (c1.2 b (by simp [h1, h2]))
    have hr2 : ∀ b, ReadOnly b → m2.val b = m0.val b := by
      intro b hb
      rw [c2.2 b (by
        intro hh; simp only [List.mem_map, Option.mem_toList] at hh
        obtain ⟨k, _, rfl⟩ := hh; exact hb), c1.2 b (by
        intro hh; simp at hh
        rcases hh with rfl | rfl <;> exact hb), hr b hb]
    obtain ⟨m', e', h'⟩ := ih (pre ++ [n]) (by simp [he]) m2 hm2 hr2
      (by
        intro p hpm ⟨c, hc, hcp⟩
        have hpl : p ∈ net.layers := by
          rw [he]; rcases List.mem_append.1 hpm with h | h
          · simp [h]
          · simp at h; simp [h]
        have hown := X.own p hpl (by intro e; rw [e] at hc; simp at hc)
        have hcl : c ∈ net.layers := (wf.fwd p hpl c hc).1
        by_cases hpn : p = n
        · subst hpn
          rcases hown with e | ⟨k, e3, e4⟩
          · rw [e]; exact keep2 _ _ h1 (by simp)
          · rw [e4]; exact h2 k e3
        · have hpp : p ∈ pre := by simpa [hpn] using hpm
          have hold := hneed p hpp ⟨c, hc, fun hh => hcp (by simp [hh])⟩
          obtain ⟨q1, q2⟩ := X.clob p n c (hpre p hpp) (hlate c hcl hcp) hc
          refine keep2 _ _ (keep1 _ _ hold q1 ?_) q2
          rcases hown with e | ⟨k, _, e⟩ <;> rw [e] <;> simp)
      (by
        intro n' hn'
        simp at hn'; subst hn'
        exact keep2 _ _ h1 (by simp))
    exact ⟨m', by rw [Net.run, andThen_run e1, andThen_run e2]; exact e', h'⟩

theorem inference_correct {net : Net P} (wf : WF net) (X : Safe net) {S : Sem P T} {enc : T → List α}
    {code : Nat → List Buf → Buf → Prog α Unit} {m0 : Mem α} {size : Nat → Nat} {x : T} {v : Nat → T}
    (hv : net.IsVal S x v) (hcode : ∀ o ∈ net.layers, CodeAt net S enc code m0 size x v o)
    (hsz : ∀ o ∈ net.layers, (enc (v o)).length = size o)
    (hcs : ∀ o ∈ net.layers, ∀ k, net.dict (net.num o) = some k → size o ≤ m0.size (.cst k))
    {l : Nat} (hl : net.layers.getLast? = some l) (hpred : size l ≤ m0.size .pred) :
    ∃ m', net.inference size code m0 = some ((), m') ∧ Holds m' .pred (enc (v l)) := by
  obtain ⟨m1, e1, hm1, _, h1⟩ := run_correct wf X hv hcode hsz hcs net.layers [] rfl m0 rfl
    (fun _ _ => rfl) (by simp) (by simp)
  have hlm : l ∈ net.layers := List.mem_of_getLast? hl
  obtain ⟨m2, e2, h2, _⟩ := copy_holds (fun _ a => a) (h1 l hl) (dst := .pred)
    (by rw [hm1, hsz l hlm]; exact hpred)
  refine ⟨m2, ?_, ?_⟩
  · unfold Net.inference
    rw [andThen_run e1]
    unfold Net.output
    rw [hl]; dsimp only; rw [← hsz l hlm]; exact e2
  · have : (enc (v l)).mapIdx (fun _ a => a) = enc (v l) := by
      apply List.ext_getElem <;> simp
    rw [this] at h2; exact h2

end Verif.Opt

import Verif.Export.Supported

/-!
# Evaluating the exported model
-/

namespace Verif.Export
open Net Layers Graph
open Onnx (prod mk shapeOf Init OpType Attr)
open Torch (Gives)
open scoped Classical

variable {M : CMath ℝ} {opset : Nat}

/-- the suffixes of the names of initializers -/
def initSuffixes : List String := ["_weight", "_bias", "_constant", "_scale", "_biases", "_mean", "_var", "_pads", "_clip_min", "_clip_max"]

theorem init_suffix {s : String} (h : s ∈ initSuffixes) : Suffix s ∧ s ≠ "" ∧ s ≠ "_pre_activation" := by
  simp only [initSuffixes, List.mem_cons, List.not_mem_nil, or_false] at h
  rcases h with rfl | rfl | rfl | rfl | rfl | rfl | rfl | rfl | rfl | rfl <;> exact ⟨by intro c hc; simp at hc; subst hc; rfl, by decide, by decide⟩

theorem suffix_empty : Suffix "" := by intro c hc; simp at hc
theorem suffix_pre : Suffix "_pre_activation" := by intro c hc; simp at hc; subst hc; rfl

/-- the initializers of a layer are named after it -/
def Named (L : XLayer) (i : Nat) (pcs : List Piece) : Prop :=
  ∃ ss : List String, (pcs.flatMap Prod.snd).map Init.name = ss.map (fun s => L.tensor i s) ∧ ss.Nodup ∧ ∀ s ∈ ss, s ∈ initSuffixes

/-- `E` has the values of the inputs and of the initializers -/
def Ready (E : Onnx.Spec.Env) (ins : List String) (ts : List (Nd ℝ)) (inits : List Init) : Prop :=
  List.Forall₂ (fun s t => s ≠ "" ∧ E s = some t) ins ts ∧ ∀ a ∈ inits, a.name ≠ "" ∧ ∃ v, a.array = some v ∧ E a.name = some v

theorem args_ready {E : Onnx.Spec.Env} {ins : List String} {ts : List (Nd ℝ)} (h : List.Forall₂ (fun s t => s ≠ "" ∧ E s = some t) ins ts) :
    (ins.mapM fun s => if s = "" then some none else (E s).map some) = some (ts.map some) := by
  induction h with
  | nil => rfl
  | cons h _ ih => simp [List.mapM_cons, h.1, h.2, ih]

theorem args_omitted {E : Onnx.Spec.Env} {ins : List String} {ts : List (Nd ℝ)} (h : List.Forall₂ (fun s t => s ≠ "" ∧ E s = some t) ins ts) (k : Nat) :
    ((ins ++ List.replicate k "").mapM fun s => if s = "" then some none else (E s).map some) = some (ts.map some ++ List.replicate k none) := by
  have hk : (List.replicate k "").mapM (fun s => if s = "" then some none else (E s).map some) = some (List.replicate k none) := by
    induction k with
    | zero => rfl
    | succ k ih => simp [List.replicate_succ, List.mapM_cons, ih]
  rw [List.mapM_append, args_ready h, hk]
  rfl

theorem forall_init {E : Onnx.Spec.Env} {inits : List Init} {arrays : List (Nd ℝ)} (h : List.Forall₂ (fun (a : Init) v => a.array = some v) inits arrays)
    (hE : ∀ a ∈ inits, a.name ≠ "" ∧ ∃ v, a.array = some v ∧ E a.name = some v) : List.Forall₂ (fun s t => s ≠ "" ∧ E s = some t) (inits.map Init.name) arrays := by
  induction h with
  | nil => exact .nil
  | @cons a v l vs h _ ih =>
    obtain ⟨h1, v', h2, h3⟩ := hE a (by simp)
    rw [h] at h2; cases h2
    exact .cons ⟨h1, h3⟩ (ih fun b hb => hE b (by simp [hb]))

theorem init_array {inits : List Init} {arrays : List (Nd ℝ)} (h : List.Forall₂ (fun (a : Init) v => a.array = some v) inits arrays) : ∀ a ∈ inits, ∃ v, a.array = some v := by
  induction h with
  | nil => simp
  | cons h _ ih =>
    intro a ha
    rcases List.mem_cons.mp ha with rfl | ha
    · exact ⟨_, h⟩
    · exact ih a ha

theorem forall_append {A B : Type} {R : A → B → Prop} {l1 : List A} {m1 : List B} (h1 : List.Forall₂ R l1 m1) {l2 : List A} {m2 : List B} (h2 : List.Forall₂ R l2 m2) :
    List.Forall₂ R (l1 ++ l2) (m1 ++ m2) := by
  induction h1 with
  | nil => exact h2
  | cons h _ ih => exact .cons h ih

/-- The pieces exported for a covered layer: their names, and what they compute. -/
theorem layer_run (hexp : M.exp = Real.exp) (hsqrt : M.sqrt = Real.sqrt) (hv : 13 ≤ opset) {L : XLayer} {ds : List (List Nat)} {d : List Nat} (h : Exports L.op L.act ds d) (i : Nat)
    (ins : List String) (hins : ins.length = ds.length) {ts : List (Nd ℝ)} (hts : ts.map Nd.dims = ds) (hok : ∀ t ∈ ts, t.Ok) :
    ∃ pcs y, exportLayer L i ins = some pcs ∧ Named L i pcs ∧ (∀ a ∈ pcs.flatMap Prod.snd, ∃ v, a.array = some v) ∧ Gives M L.full (ts.map Nd.data) y ∧ y.length = prod d ∧
      ∀ E, Ready E ins ts (pcs.flatMap Prod.snd) → ∃ E', (pcs.map Prod.fst).foldlM (Onnx.Spec.step opset) E = some E' ∧ E' (L.tensor i) = some ⟨d, y⟩ ∧
        ∀ s, s ≠ L.tensor i → s ≠ L.tensor i "_pre_activation" → E' s = E s := by
  obtain ⟨t, hnode, hd, htok, hgives⟩ := exports_good hexp hsqrt hv h hts hok
  obtain ⟨op, inits, attrs, arrays, k, he, harr, ⟨ss, hss, hnd, hmem⟩, hval⟩ := hnode i ins (by rw [hins, ← hts, List.length_map])
  have hsuf : ∀ s ∈ ss, s ∈ initSuffixes := by
    intro s hs
    have := hmem s hs
    simp only [initSuffixes, List.mem_cons, List.not_mem_nil, or_false] at this ⊢
    tauto
  by_cases hf : L.fused = true
  · -- the activation function is a node of its own
    obtain ⟨a1, a2, a3⟩ := exports_fused h hf
    obtain ⟨op', inits', attrs', arrays', he', harr', ⟨ss', hss', hnd', hmem'⟩, hval'⟩ := exportAct_good (opset := opset) L i a1 a2 a3
    have hdest : L.dest i = L.tensor i "_pre_activation" := by simp [XLayer.dest, hf]
    rw [if_pos hf] at hgives
    rw [hdest] at hval
    have hsuf' : ∀ s ∈ ss', s ∈ initSuffixes := by
      intro s hs
      have := hmem' s hs
      simp only [initSuffixes, List.mem_cons, List.not_mem_nil, or_false] at this ⊢
      tauto
    refine ⟨_, t.data.map L.act.compute, by simp only [exportLayer, he, Option.bind_eq_bind, Option.bind_some, hf, if_true, he']; rfl, ?_, ?_, hgives, by rw [List.length_map, htok, hd], ?_⟩
    · refine ⟨ss ++ ss', by simp [hss, hss'], List.nodup_append.mpr ⟨hnd, hnd', ?_⟩, ?_⟩
      · rintro a ha b hb rfl
        have h1 := hmem a ha
        have h2 := hmem' a hb
        simp only [List.mem_cons, List.not_mem_nil, or_false] at h1 h2
        rcases h2 with rfl | rfl <;> revert h1 <;> decide
      · intro s hs
        rcases List.mem_append.mp hs with hs | hs
        · exact hsuf s hs
        · exact hsuf' s hs
    · intro a ha
      have ha' : a ∈ inits ++ inits' := by simpa using ha
      rcases List.mem_append.mp ha' with ha' | ha'
      · exact init_array harr a ha'
      · exact init_array harr' a ha'
    · intro E hE
      have hE2 : ∀ a ∈ inits ++ inits', a.name ≠ "" ∧ ∃ v, a.array = some v ∧ E a.name = some v := by simpa using hE.2
      have g1 := forall_append hE.1 (forall_init harr fun a ha => hE2 a (by simp [ha]))
      have n1 := args_omitted g1 k
      let E1 : Onnx.Spec.Env := fun s => if s = L.tensor i "_pre_activation" then some t else E s
      have s1 : Onnx.Spec.step opset E ⟨op, ins ++ inits.map Init.name ++ List.replicate k "", [L.dest i], attrs⟩ = some E1 := by
        simp only [Onnx.Spec.step, Onnx.Spec.args, n1, Option.bind_eq_bind, Option.bind_some, hdest, hval, Onnx.Node.output?]
        rfl
      have hE1 : ∀ a ∈ inits', a.name ≠ "" ∧ ∃ v, a.array = some v ∧ E1 a.name = some v := by
        intro a ha
        obtain ⟨q1, v, q2, q3⟩ := hE2 a (by simp [ha])
        refine ⟨q1, v, q2, ?_⟩
        have hm : a.name ∈ inits'.map Init.name := List.mem_map.mpr ⟨a, ha, rfl⟩
        rw [hss'] at hm
        obtain ⟨s, hs, hse⟩ := List.mem_map.mp hm
        have : a.name ≠ L.tensor i "_pre_activation" := by
          rw [← hse]
          intro hc
          exact (init_suffix (hsuf' s hs)).2.2 (tensor_suffix hc)
        simp only [E1, if_neg this, q3]
      have g2 : List.Forall₂ (fun s t => s ≠ "" ∧ E1 s = some t) (L.tensor i "_pre_activation" :: inits'.map Init.name) (t :: arrays') :=
        .cons ⟨tensor_ne_empty _ _ _, by simp [E1]⟩ (forall_init harr' hE1)
      have n2 := args_ready g2
      have s2 : Onnx.Spec.step opset E1 ⟨op', L.tensor i "_pre_activation" :: inits'.map Init.name, [L.tensor i], attrs'⟩ =
          some fun s => if s = L.tensor i then some ⟨t.dims, t.data.map L.act.compute⟩ else E1 s := by
        simp only [Onnx.Spec.step, Onnx.Spec.args, n2, Option.bind_eq_bind, Option.bind_some, hval', Onnx.Node.output?]
        rfl
      refine ⟨_, by
        simp only [Option.toList_some, List.map_append, List.map_cons, List.map_nil, List.cons_append, List.nil_append, List.foldlM_cons, s1, Option.bind_eq_bind, Option.bind_some, s2]
        rfl, by simp [hd], ?_⟩
      intro s h1 h2
      simp [h1, h2, E1]
  · have hdest : L.dest i = L.tensor i := by simp [XLayer.dest, hf]
    rw [if_neg hf] at hgives
    rw [hdest] at hval
    refine ⟨_, t.data, by simp only [exportLayer, he, Option.bind_eq_bind, Option.bind_some, hf]; rfl, ⟨ss, by simp [hss], hnd, hsuf⟩,
      fun a ha => init_array harr a (by simpa using ha), hgives, by rw [htok, hd], ?_⟩
    intro E hE
    have hE2 : ∀ a ∈ inits, a.name ≠ "" ∧ ∃ v, a.array = some v ∧ E a.name = some v := by simpa using hE.2
    have n1 := args_omitted (forall_append hE.1 (forall_init harr hE2)) k
    refine ⟨fun s => if s = L.tensor i then some t else E s, ?_, by simp [← hd], fun s h1 _ => by simp [h1]⟩
    simp only [Bool.false_eq_true, if_false, Option.toList_some, List.append_nil, List.map_cons, List.map_nil, List.foldlM_cons, List.foldlM_nil, Onnx.Spec.step, Onnx.Spec.args, n1,
      Option.bind_eq_bind, Option.bind_some, hdest, hval, Onnx.Node.output?]
    rfl

end Verif.Export

import Verif.Opt.Run

/-! # The reference interpreter on a network after the pass -/

namespace Verif.Opt
variable {P T : Type}

/-- `compute_inference` on one input (`generator/neural_network.py` 487-571): `layer_inputs` is keyed by the
current `idx` of the layers. -/
def Net.interp (S : Sem P T) (net : Net P) (x : T) : Option T :=
  match net.layers.foldlM (fun st o => Graph.interpStep (fun _ => (net.prev o).map net.num)
      (fun _ => (net.next o).map net.num) (fun _ => net.eval S o) st (net.num o))
      (Graph.Inputs.init (net.layers.map net.num) x, none) with
  | none => none
  | some st => st.2

theorem foldlM_congr_mem {A B : Type} (l : List A) (f g : B → A → Option B) (h : ∀ a ∈ l, ∀ b, f b a = g b a)
    (b : B) : l.foldlM f b = l.foldlM g b := by
  induction l generalizing b with
  | nil => rfl
  | cons a l ih =>
    rw [List.foldlM_cons, List.foldlM_cons, h a (by simp)]
    congr 1
    funext b'
    exact ih (fun a' ha' => h a' (by simp [ha'])) b'

/-- Before any optimisation this is the interpreter of the plan. -/
theorem interp_load (S : Sem P T) (dnn : Graph.Dnn) (plan : Graph.Plan) (cls : Nat → Cls) (fn : Nat → Fn)
    (par : Nat → P) (x : T) :
    (load dnn plan cls fn par).interp S x =
      Graph.interp dnn.prevOf dnn.nextOf ((load dnn plan cls fn par).eval S) plan.order x := by
  have e : (load dnn plan cls fn par).layers.map (load dnn plan cls fn par).num = plan.order := by
    change plan.order.map id = _; simp
  unfold Net.interp Graph.interp
  rw [e]
  congr 1
  apply foldlM_congr_mem
  intro o _ st
  have e1 : ((load dnn plan cls fn par).prev o).map (load dnn plan cls fn par).num = dnn.prevOf o := by
    change (dnn.prevOf o).map id = _; simp
  have e2 : ((load dnn plan cls fn par).next o).map (load dnn plan cls fn par).num = dnn.nextOf o := by
    change (dnn.nextOf o).map id = _; simp
  rw [e1, e2]
  rfl

/-- With distinct numbers the interpreter computes the valuation of the network. -/
theorem interp_correct {net : Net P} (wf : WF net)
    (inj : ∀ o ∈ net.layers, ∀ q ∈ net.layers, net.num o = net.num q → o = q) (S : Sem P T) {x : T}
    {v : Nat → T} (hv : net.IsVal S x v) : net.interp S x = net.layers.getLast?.map v := by
  classical
  -- the layer with a given number
  let obj : Nat → Option Nat := fun k => net.layers.find? fun o => net.num o == k
  have hobj : ∀ o ∈ net.layers, obj (net.num o) = some o := by
    intro o ho
    have : (obj (net.num o)).isSome := by
      simp only [obj, List.find?_isSome, beq_iff_eq]; exact ⟨o, ho, rfl⟩
    obtain ⟨q, hq⟩ := Option.isSome_iff_exists.1 this
    have h1 := List.mem_of_find?_eq_some hq
    have h2 := List.find?_some hq
    simp at h2
    rw [hq, inj q h1 o ho h2]
  let prevN : Nat → List Nat := fun k => match obj k with | none => [] | some o => (net.prev o).map net.num
  let nextN : Nat → List Nat := fun k => match obj k with | none => [] | some o => (net.next o).map net.num
  let fwdN : Nat → List T → T := fun k xs => match obj k with | none => x | some o => net.eval S o xs
  let vN : Nat → T := fun k => match obj k with | none => x | some o => v o
  have objmem : ∀ k o, obj k = some o → o ∈ net.layers ∧ net.num o = k := by
    intro k o h
    exact ⟨List.mem_of_find?_eq_some h, by have := List.find?_some h; simpa using this⟩
  have pN : ∀ o ∈ net.layers, prevN (net.num o) = (net.prev o).map net.num := by
    intro o ho; simp only [prevN, hobj o ho]
  have nN : ∀ o ∈ net.layers, nextN (net.num o) = (net.next o).map net.num := by
    intro o ho; simp only [nextN, hobj o ho]
  have vNe : ∀ o ∈ net.layers, vN (net.num o) = v o := by
    intro o ho; simp only [vN, hobj o ho]
  have hlink : ∀ a b, a ∈ prevN b ↔ b ∈ nextN a := by
    intro a b
    constructor
    · intro h
      cases hb : obj b with
      | none => simp only [prevN, hb] at h; simp at h
      | some o =>
        simp only [prevN, hb, List.mem_map] at h
        obtain ⟨p, hp, rfl⟩ := h
        obtain ⟨ho, rfl⟩ := objmem b o hb
        rw [nN p (wf.prev_mem ho hp)]
        exact List.mem_map_of_mem (wf.back o ho p hp)
    · intro h
      cases hb : obj a with
      | none => simp only [nextN, hb] at h; simp at h
      | some o =>
        simp only [nextN, hb, List.mem_map] at h
        obtain ⟨c, hc, rfl⟩ := h
        obtain ⟨ho, rfl⟩ := objmem a o hb
        have := wf.fwd o ho c hc
        rw [pN c this.1]
        exact List.mem_map_of_mem this.2
  have hsort : Graph.Sorted prevN (net.layers.map net.num) := by
    intro pre k post he
    obtain ⟨A, B, hAB, rfl, hB⟩ := List.map_eq_append_iff.1 he
    obtain ⟨o, C, rfl, rfl, rfl⟩ := List.map_eq_cons_iff.1 hB
    have ho : o ∈ net.layers := by rw [hAB]; simp
    have hpos : net.layers[A.length]? = some o := by rw [hAB]; simp
    refine ⟨?_, ?_⟩
    · intro hm
      obtain ⟨q, hq, e⟩ := List.mem_map.1 hm
      have hqm : q ∈ net.layers := by rw [hAB]; simp [hq]
      have := inj q hqm o ho e
      subst this
      have hnd := wf.nodup
      rw [hAB] at hnd
      exact (List.nodup_append.1 hnd).2.2 q hq q (by simp) rfl
    · intro p hp
      rw [pN o ho] at hp
      obtain ⟨q, hq, rfl⟩ := List.mem_map.1 hp
      obtain ⟨j, hj, e⟩ := wf.sorted A.length o hpos q hq
      rw [hAB, List.getElem?_append_left hj] at e
      exact List.mem_map_of_mem (List.mem_of_getElem? e)
  have hval : ∀ n ∈ net.layers.map net.num, vN n = fwdN n (Graph.argsOf prevN x vN n) := by
    intro n hn
    obtain ⟨o, ho, rfl⟩ := List.mem_map.1 hn
    rw [vNe o ho, hv o ho]
    simp only [fwdN, hobj o ho]
    congr 1
    unfold Graph.argsOf
    rw [pN o ho]
    by_cases h0 : net.prev o = []
    · simp [h0]
    · rw [if_neg h0, if_neg (by simpa using h0), List.map_map]
      apply List.map_congr_left
      intro p hp
      exact (vNe p (wf.prev_mem ho hp)).symm
  have hclo : ∀ n ∈ net.layers.map net.num, ∀ s ∈ nextN n, s ∈ net.layers.map net.num := by
    intro n hn s hs
    obtain ⟨o, ho, rfl⟩ := List.mem_map.1 hn
    rw [nN o ho] at hs
    obtain ⟨c, hc, rfl⟩ := List.mem_map.1 hs
    exact List.mem_map_of_mem (wf.fwd o ho c hc).1
  have key := Graph.interp_steps hsort hlink hclo hval (net.layers.map net.num) [] (by simp)
  rw [List.foldlM_map] at key
  unfold Net.interp
  rw [foldlM_congr_mem net.layers _ (fun st o => Graph.interpStep prevN nextN fwdN st (net.num o)) (by
    intro o ho st
    unfold Graph.interpStep
    simp only [pN o ho, nN o ho, fwdN, hobj o ho]), key]
  simp only [List.getLast?_map]
  cases hl : net.layers.getLast? with
  | none => rfl
  | some l =>
    simp only [Option.map_some]
    rw [vNe l (List.mem_of_getLast? hl)]

end Verif.Opt

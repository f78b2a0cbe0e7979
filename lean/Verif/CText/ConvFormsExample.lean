import Verif.CText.ConvForms
import Verif.CText.IndirectForms
import Verif.CText.ProjectExamples

/-!
# C74, C76: cases
-/

namespace Verif.CText
open Prog Layers Net

/-- The convolution of `Net.resNet` (layer 1, path 0, which reads `output_0`) compiled as `std_gemm_nt`: the files of this network
exist, and the text names an array that they do not declare. -/
theorem C74_example : ∃ plan th fields externs s, Graph.triTopo resNet.graph = some plan ∧ headerText resNet plan = some th ∧ IsHeader th fields externs ∧
    code (K := ℚ) Tpl.conv_std_gemm (stdFormHash .nt resConv (resConv.filters * resConv.outH * resConv.outW) 1 .relu (.out 0) (plan.path 1)) = some s ∧
    (true, outId (plan.path 1)) ∈ s.arrays ∧ Bound fields externs (localDcls resNet plan) (true, outId (plan.path 1)) ∧
    (false, outId (plan.path 1)) ∈ s.arrays ∧ ¬ Bound fields externs (localDcls resNet plan) (false, outId (plan.path 1)) := by
  obtain ⟨plan, y, tp, defs, th, fields, ti, nOut, ds, s', h1, -, -, -, hth, hh, -⟩ := C63_example ⟨id, id, id, 0⟩ (List.replicate 18 0) rfl
  obtain ⟨s, hs, ha⟩ := Option.map_eq_some_iff.mp (convForm_arrays (K := ℚ) .nt resConv (resConv.filters * resConv.outH * resConv.outW) 1 .relu (.out 0) (plan.path 1))
  refine ⟨plan, th, fields, _, s, h1, hth, hh, hs, by rw [ha]; simp [formArrays, GemmForm.arrays], ?_, by rw [ha]; simp [formArrays, GemmForm.arrays], (out_not_bound resNet plan hth hh _).1⟩
  unfold headerText at hth
  obtain ⟨csts, hw, hth⟩ := Option.bind_eq_some_iff.mp hth
  obtain ⟨ts, g1, g2⟩ := header_inst (plan.order.map fun n => (resNet.op n).info n) plan.maxPath csts resNet.op plan.order
  rw [hth, Option.some.injEq] at g1
  subst g1
  obtain ⟨rfl, -⟩ := C62_header_unique hh g2
  have hp : plan.path 1 < plan.maxPath := by
    have : Graph.triTopo resNet.graph = some plan := h1
    have hd : ∃ p, Graph.triTopo resNet.graph = some p ∧ p.path 1 < p.maxPath := ⟨_, rfl, by decide +kernel⟩
    obtain ⟨p, e1, e2⟩ := hd
    rw [h1] at e1; cases e1; exact e2
  obtain ⟨f, hf, e⟩ : ∃ f ∈ ctxFields (plan.order.map fun n => (resNet.op n).info n) plan.maxPath csts, f.id = outId (plan.path 1) :=
    ⟨⟨outId (plan.path 1), _⟩, List.mem_append_left _ (List.mem_map.2 ⟨plan.path 1, List.mem_range.2 hp, rfl⟩), rfl⟩
  rw [← e]
  exact .field f hf

/-- The same convolution compiled as `indirect_gemm_nn`: the files of the network exist, the text names a field that the context does not have. -/
theorem C76_example : ∃ plan th fields externs ts, Graph.triTopo resNet.graph = some plan ∧ headerText resNet plan = some th ∧ IsHeader th fields externs ∧
    ((tokens Tpl.conv_indirect_gemm).bind fun tt => inst tt (indirectHash (K := ℚ) resConv (resConv.filters * resConv.outH * resConv.outW) 1 .relu (plan.path 1))) = some ts ∧
    (∃ pre post, ts = pre ++ .id (.ctx, none) :: .punct .arrow :: .id (ppId 1) :: post) ∧ ¬ Bound fields externs (localDcls resNet plan) (true, ppId 1) := by
  obtain ⟨plan, y, tp, defs, th, fields, ti, nOut, ds, s', h1, -, -, -, hth, hh, -⟩ := C63_example ⟨id, id, id, 0⟩ (List.replicate 18 0) rfl
  obtain ⟨ts, hs, hp, hn⟩ := C76_nn_undeclared (K := ℚ) resConv (resConv.filters * resConv.outH * resConv.outW) 1 .relu (plan.path 1)
  exact ⟨plan, th, fields, _, ts, h1, hth, hh, hs, hp, hn resNet plan th fields _ hth hh⟩

/-- a case of `C76_table_undeclared`: an unpadded convolution by `indirect_gemm_nt` that reads `output_0` -/
example : ∃ t, some t ∈ ppatchesForm ⟨5, 2, 4, 3, 2, 1, 3, 3, 1, 1, 0, 0, 0, 0⟩ true ∧
    ∃ pre post, tableToks (K := ℚ) (.out 0) (ppatchesForm ⟨5, 2, 4, 3, 2, 1, 3, 3, 1, 1, 0, 0, 0, 0⟩ true) =
      pre ++ .punct .amp :: .id (Ref.out 0).ident :: .punct .lbrk :: .num t :: .punct .rbrk :: post := by
  obtain ⟨t, ht⟩ := table_names_image ⟨5, 2, 4, 3, 2, 1, 3, 3, 1, 1, 0, 0, 0, 0⟩ true ⟨rfl, rfl, rfl, rfl⟩ (by decide)
  exact ⟨t, ht, (C76_table_undeclared _ true (.out 0) t ht).1⟩

end Verif.CText

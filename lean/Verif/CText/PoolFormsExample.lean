import Verif.CText.PoolForms
import Verif.CText.ProjectExamples

/-!
# C75: a case
-/

namespace Verif.CText
open Prog Layers Net

/-- A max pooling of a 2-channel 5×5 image (3×3 windows, stride 2) followed by ReLU, in the version `channels_last`, beside the network
`Net.resNet`, whose header exists. -/
theorem C75_example : ∃ plan th fields externs ts, Graph.triTopo resNet.graph = some plan ∧ headerText resNet plan = some th ∧ IsHeader th fields externs ∧
    ((tokens Tpl.pooling2D_HWC).bind fun tt => inst tt (hwcHash (K := ℚ) false ⟨2, 5, 5, 2, 2, 2, 3, 0, 0, 0, 0⟩ 8 3 .relu (.out 0) 0)) = some ts ∧
    CTok.id (.o_ptr, none) ∈ ts ∧ ((.o_ptr, none) : Ident) ∉ (localDcls resNet plan).map Dcl.name := by
  obtain ⟨plan, y, tp, defs, th, fields, ti, nOut, ds, s', h1, -, -, -, hth, hh, -⟩ := C63_example ⟨id, id, id, 0⟩ (List.replicate 18 0) rfl
  obtain ⟨ts, hs, hm, -, hn⟩ := (C75_activation_undeclared (K := ℚ) false ⟨2, 5, 5, 2, 2, 2, 3, 0, 0, 0, 0⟩ 8 3 .relu (.out 0) 0 (by simp)).1
  exact ⟨plan, th, fields, _, ts, h1, hth, hh, hs, hm, (hn resNet plan th fields _ hth hh).2⟩

end Verif.CText

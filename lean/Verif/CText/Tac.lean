import Verif.CText.Sim

/-!
# Tactics for texts

`kernel_rfl` proves an equation by `rfl`, leaving the check to the kernel.
-/

namespace Verif.CText

open Lean Elab Tactic Meta in
/-- closes `a = b` with `Eq.refl a`, which only the kernel checks -/
elab "kernel_rfl" : tactic => do
  let g ← getMainGoal
  g.withContext do
    let t ← instantiateMVars (← g.getType)
    let some (α, a, _) := t.eq? | throwError "not an equation"
    let u ← getLevel α
    g.assign (mkApp2 (mkConst ``Eq.refl [u]) α a)

open Prog
variable {K : Type}

theorem ret_bind {β γ : Type} (b : β) (f : β → Prog K γ) : (ret b >>= f : Prog K γ) = f b := rfl

theorem bind_assoc' {β γ δ : Type} (p : Prog K β) (f : β → Prog K γ) (g : γ → Prog K δ) :
    (p >>= f >>= g : Prog K δ) = p >>= fun b => f b >>= g := by
  funext m
  simp only [bind, andThen]
  cases p m <;> rfl

theorem bind_ret' {β : Type} (p : Prog K β) : (p >>= fun b => ret b : Prog K β) = p := by
  funext m
  simp only [bind, andThen, ret]
  cases p m <;> rfl

theorem ret_andThen {β γ : Type} (b : β) (f : β → Prog K γ) : andThen (ret b) f = f b := rfl

theorem andThen_assoc {β γ δ : Type} (p : Prog K β) (f : β → Prog K γ) (g : γ → Prog K δ) :
    andThen (andThen p f) g = andThen p fun b => andThen (f b) g := bind_assoc' p f g

theorem andThen_ret {β : Type} (p : Prog K β) : andThen p ret = p := bind_ret' p

theorem pure_eq_ret {β : Type} (b : β) : (pure b : Prog K β) = ret b := rfl

theorem ofOpt_some {β : Type} (b : β) : ofOpt (K := K) (some b) = ret b := rfl

theorem fail_bind {β γ : Type} (f : β → Prog K γ) : ((fail : Prog K β) >>= f : Prog K γ) = fail := rfl

end Verif.CText

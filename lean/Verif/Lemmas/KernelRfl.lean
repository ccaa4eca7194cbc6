import Lean.Elab.Tactic.Basic

/-!
A tactic that closes a goal `a = b` by reflexivity and leaves the comparison of `a`
and `b` to the kernel.
-/

open Lean Meta Elab Tactic

/-- Closes `a = b` with `Eq.refl b`; the kernel checks that the sides agree. -/
elab "kernel_rfl" : tactic => liftMetaTactic fun g => do
  let t ← instantiateMVars (← g.getType)
  let some (_, _, b) := t.eq? | throwError "kernel_rfl: the goal is no equation"
  g.assign (← mkEqRefl b)
  return []

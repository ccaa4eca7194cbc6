import Verif.Lemmas.Overloads
import Verif.Lemmas.KernelRfl
import Mathlib.Tactic.CasesM
import Mathlib.Tactic.IntervalCases

/-!
The calls that follow from the documented calls, list by list.
-/

namespace StdBLAS.Overloads

/-- One goal for each form of the list. -/
macro "split_forms" : tactic => `(tactic|
  (rw [← List.forall_iff_forall_mem]; repeat' apply And.intro))

/-- The arguments of a form, one case for each kind of type. -/
macro "split_args" h:ident : tactic => `(tactic|
  (simp only [Form.Fits, List.map_cons, List.map_nil] at $h:ident
   casesm* List.Forall₂ _ _ _, Role.Admits _ _ _ _))

/-- Computes an overload resolution that compares variables. -/
macro "resolve_rfl" : tactic => `(tactic|
  (simp only [sigs, visible, copySigs, addSigs, scaleSigs, swapElementsSigs,
    applyGivensRotationSigs, setupGivensRotationSigs, resolve, SigOf.viable, deduceAll,
    Pat.deduce, Sub.bind, List.lookup, List.filter, List.all, Constraint.holds, if_true, BEq.rfl,
    Nat.reduceBEq, Bool.and_true, rankAt, List.getElem?_cons_succ, List.getElem?_cons_zero,
    Bool.true_or, Bool.false_or, Bool.or_true, Bool.true_and, Bool.or_false, Nat.reduceLeDiff,
    Nat.lt_irrefl, le_refl, decide_true, decide_false]; rfl))

set_option maxHeartbeats 1000000 in
theorem ends_documented (W : World) (adl : Bool) :
    ∀ fm ∈ documented, ∀ r ρ as, fm.Fits r ρ as →
    Ends W adl (sigs fm.fn) as := by
  cases adl
  all_goals split_forms
  all_goals intro r ρ as h
  all_goals split_args h
  all_goals apply ends_of_endsWithin (n := 6)
  all_goals kernel_rfl
set_option maxHeartbeats 1000000 in
theorem ends_documented_policy (W : World) (adl : Bool) :
    ∀ fm ∈ documented, ∀ r ρ as, fm.Fits r ρ as → ∀ p, IsForeign p →
    Ends W adl (sigs fm.fn) (p :: as) := by
  cases adl
  all_goals split_forms
  all_goals intro r ρ as h p hp
  all_goals cases hp
  all_goals split_args h
  all_goals apply ends_of_endsWithin (n := 6)
  all_goals kernel_rfl
set_option maxHeartbeats 1000000 in
theorem ends_anyRank (W : World) (adl : Bool) :
    ∀ fm ∈ documentedAnyRank, ∀ r ρ as, r ≤ 2 → fm.Fits r ρ as →
    Ends W adl (sigs fm.fn) as := by
  cases adl
  all_goals split_forms
  all_goals intro r ρ as hr h
  all_goals split_args h
  all_goals apply ends_of_endsWithin (n := 6)
  all_goals interval_cases r
  all_goals kernel_rfl
set_option maxHeartbeats 1000000 in
theorem ends_anyRank_policy (W : World) (adl : Bool) :
    ∀ fm ∈ documentedAnyRank, ∀ r ρ as, r ≤ 2 → fm.Fits r ρ as → ∀ p, IsForeign p →
    Ends W adl (sigs fm.fn) (p :: as) := by
  cases adl
  all_goals split_forms
  all_goals intro r ρ as hr h p hp
  all_goals cases hp
  all_goals split_args h
  all_goals apply ends_of_endsWithin (n := 6)
  all_goals interval_cases r
  all_goals kernel_rfl
set_option maxHeartbeats 1000000 in
theorem ends_givens (W : World) (adl : Bool) :
    ∀ fm ∈ documentedGivens, ∀ r ρ as, fm.Fits r ρ as →
    Ends W adl (sigs fm.fn) as := by
  cases adl
  all_goals split_forms
  all_goals intro r ρ as h
  all_goals split_args h
  all_goals exact (.step (by resolve_rfl) rfl rfl (.step (by resolve_rfl) rfl rfl (.stop (by resolve_rfl) rfl)))
set_option maxHeartbeats 1000000 in
theorem ends_givens_policy (W : World) (adl : Bool) :
    ∀ fm ∈ documentedGivens, ∀ r ρ as, fm.Fits r ρ as → ∀ p, IsForeign p →
    Ends W adl (sigs fm.fn) (p :: as) := by
  cases adl
  all_goals split_forms
  all_goals intro r ρ as h p hp
  all_goals cases hp
  all_goals split_args h
  all_goals exact (.step (by resolve_rfl) rfl rfl (.stop (by resolve_rfl) rfl))
set_option maxHeartbeats 1000000 in
theorem ends_scaled (W : World) (adl : Bool) :
    ∀ fm ∈ documentedScaled, ∀ r ρ as, fm.Fits r ρ as →
    Ends W adl (sigs fm.fn) as := by
  cases adl
  all_goals split_forms
  all_goals intro r ρ as h
  all_goals split_args h
  all_goals apply ends_of_endsWithin (n := 6)
  all_goals kernel_rfl
set_option maxHeartbeats 1000000 in
theorem ends_scaled_policy (W : World) (adl : Bool) :
    ∀ fm ∈ documentedScaled, ∀ r ρ as, fm.Fits r ρ as → ∀ k,
    Ends W adl (sigs fm.fn) (⟨.policy k, .rvalue⟩ :: as) := by
  cases adl
  all_goals split_forms
  all_goals intro r ρ as h k
  all_goals split_args h
  all_goals apply ends_of_endsWithin (n := 6)
  all_goals kernel_rfl
set_option maxHeartbeats 1000000 in
theorem ends_noPolicy (W : World) (adl : Bool) :
    ∀ fm ∈ documentedNoPolicy, ∀ r ρ as, fm.Fits r ρ as →
    Ends W adl (sigs fm.fn) as := by
  cases adl
  all_goals split_forms
  all_goals intro r ρ as h
  all_goals split_args h
  all_goals exact (.stop (by resolve_rfl) rfl)

end StdBLAS.Overloads

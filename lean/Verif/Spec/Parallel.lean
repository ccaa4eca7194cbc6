import Verif.Core.Parallel

/-! # Specification vocabulary about parallel loops -/

namespace StdBLAS
variable {α β : Type}

/-- Run alone from memory `h`, the task ends with `Q`; on the way it reads only cells in `R`
and writes only cells in `W`. -/
def Task.Safe (R W : Nat → Prop) : Task α β → Heap α → (β → Heap α → Prop) → Prop
  | .done b, h, Q => Q b h
  | .fail _, _, _ => False
  | .load a k, h, Q => R a ∧ ∃ v, h a = some v ∧ (k v).Safe R W h Q
  | .store a v k, h, Q =>
    (W a ∧ ∃ w, h a = some w) ∧ k.Safe R W (Function.update h a (some v)) Q

/-- Both calls end normally, with one and the same result and final memory, the second one
whatever the schedule. -/
def SameOutcome (p : Prog α β) (q : Sched α β) (h : Heap α) : Prop :=
  ∃ b h', p h = .ok (b, h') ∧ ∀ r, q h r ↔ r = .ok (b, h')

/-- The first call ends normally, and no schedule of the second one has the same result and
final memory. -/
def DifferentOutcome (p : Prog α β) (q : Sched α β) (h : Heap α) : Prop :=
  ∃ b h', p h = .ok (b, h') ∧ (∃ r, q h r) ∧ ∀ r, q h r → r ≠ .ok (b, h')

/-- Called with bad arguments, the call throws, whatever memory holds and whatever the
schedule.  So it throws before it accesses any element: in a memory without accessible cells
an access would be undefined behaviour. -/
def Throws (p : Sched α β) : Prop := ∀ h, SurelyFails p h .exn

/-- The call throws if `bad`, and otherwise no schedule throws, whatever memory holds. -/
def ThrowsIff (p : Sched α β) (bad : Prop) : Prop :=
  (bad → Throws p) ∧ (¬ bad → ∀ h, ¬ p h (.error .exn))

end StdBLAS

import Mathlib.Analysis.Calculus.Deriv.Basic
import Verif.Spec.Transfer

/-!
# Element types that a user may bring: packs, dual numbers, intervals, expressions

They are examples of types to which C76 applies, with the operators that such types define.
-/

namespace StdBLAS

/-- The memory with `φ` applied to every value. -/
def Heap.mapped {α β : Type} (φ : α → β) (h : Heap α) : Heap β := fun a => (h a).map φ

/-- Packs of values (`simd`-like types): conjugation lane by lane; the arithmetic operators of
functions are lane by lane anyway. -/
instance {ι α : Type} [ConjOps α] : ConjOps (ι → α) :=
  ⟨fun p l => ConjOps.conj (p l), fun p l => ConjOps.re (p l)⟩

/-- A value and its derivative (forward-mode automatic differentiation). -/
structure Dual where
  val : ℝ
  der : ℝ

namespace Dual
noncomputable section
instance : Zero Dual := ⟨⟨0, 0⟩⟩
instance : Add Dual := ⟨fun a b => ⟨a.val + b.val, a.der + b.der⟩⟩
instance : Sub Dual := ⟨fun a b => ⟨a.val - b.val, a.der - b.der⟩⟩
instance : Mul Dual := ⟨fun a b => ⟨a.val * b.val, a.der * b.val + a.val * b.der⟩⟩
instance : Div Dual :=
  ⟨fun a b => ⟨a.val / b.val, (a.der * b.val - a.val * b.der) / (b.val * b.val)⟩⟩
instance : ConjOps Dual := ⟨id, id⟩
end

/-- `d` is the value and the derivative of `f` at `t`. -/
structure Of (t : ℝ) (f : ℝ → ℝ) (d : Dual) : Prop where
  val : f t = d.val
  der : HasDerivAt f d.der t
end Dual

/-- An interval. -/
structure Ivl where
  lo : ℝ
  hi : ℝ

namespace Ivl
noncomputable section
instance : Zero Ivl := ⟨⟨0, 0⟩⟩
instance : Add Ivl := ⟨fun a b => ⟨a.lo + b.lo, a.hi + b.hi⟩⟩
instance : Sub Ivl := ⟨fun a b => ⟨a.lo - b.hi, a.hi - b.lo⟩⟩
instance : Mul Ivl := ⟨fun a b =>
  ⟨min (min (a.lo * b.lo) (a.lo * b.hi)) (min (a.hi * b.lo) (a.hi * b.hi)),
   max (max (a.lo * b.lo) (a.lo * b.hi)) (max (a.hi * b.lo) (a.hi * b.hi))⟩⟩
/-- Only meant for intervals of positive numbers. -/
instance : Div Ivl := ⟨fun a b =>
  ⟨min (a.lo / b.lo) (a.lo / b.hi), max (a.hi / b.lo) (a.hi / b.hi)⟩⟩
instance : ConjOps Ivl := ⟨id, id⟩
end

/-- The number is in the interval. -/
def Encloses (x : ℝ) (a : Ivl) : Prop := a.lo ≤ x ∧ x ≤ a.hi
end Ivl

end StdBLAS

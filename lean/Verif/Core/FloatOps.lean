import Verif.Core.Scalar

/-!
# Operations that the reductions need beside `+ * /`

The reductions return a `Scalar` of the caller's choice.  Here it is a type `R` with its own
operations, which satisfy no law.
-/

namespace StdBLAS

/-- `std::abs`, `std::sqrt` and the comparisons `<` and `!=` of a `Scalar` type.  The comparisons
are Boolean functions: with a NaN operand `<` is false and `!=` is true. -/
class FloatOps (R : Type) where
  abs : R → R
  sqrt : R → R
  lt : R → R → Bool
  ne : R → R → Bool

/-- The magnitude of an element (`std::abs`, `abs_if_needed.hpp:67-81`), and the magnitudes of its
real and imaginary part (`real_if_needed.hpp:63-88`, `imag_if_needed.hpp:63-88`), as values of the
`Scalar` type; `isArith` is `std::is_arithmetic_v<value_type>`. -/
class MagOps (α R : Type) where
  abs : α → R
  absRe : α → R
  absIm : α → R
  isArith : Bool

/-- `std::max(a, b)`: `(a < b) ? b : a`. -/
def stdMax {R : Type} [FloatOps R] (a b : R) : R := if FloatOps.lt a b then b else a

noncomputable instance : FloatOps ℝ := open Classical in
  ⟨fun x => |x|, Real.sqrt, fun a b => decide (a < b), fun a b => decide (a ≠ b)⟩

noncomputable instance {α : Type} [AbsOps α] : MagOps α ℝ :=
  ⟨AbsOps.abs, fun x => |AbsOps.reR x|, fun x => |AbsOps.imR x|, AbsOps.isArith α⟩

end StdBLAS

import Mathlib.Analysis.Complex.Norm
import Verif.Spec.AccurateComplex

/-!
# What is assumed about `std::abs` of a complex number

The C++ standard does not say how it is computed, nor how accurate it is, so the theorems about norms of
complex vectors and matrices take it as a parameter.
-/

namespace StdBLAS
namespace CFP
variable {F : Format} {R : Recovery F}

/-- `modulus` never returns a negative number, and it is accurate: its relative error is at most
`(1 + u)^k - 1`, plus `(1 + u)^k * ζ` for underflow; it is finite for a number with finite parts, unless
its absolute value is too close to the largest finite number, and not finite for any other number. -/
structure Modulus (modulus : CFP F R → FP F) (u : ℝ) (k : ℕ) (ζ : ℝ) : Prop where
  zeta_nonneg : 0 ≤ ζ
  valid : ∀ a, (modulus a).Valid
  nonneg : ∀ a, FP.abs (modulus a) = modulus a
  accurate : ∀ a : CFP F R, FP.Accurate u k ζ a.Finite (modulus a) ‖a.val‖ ‖a.val‖

open Classical in
/-- One such function: the exact absolute value, rounded once. -/
noncomputable def roundedModulus (a : CFP F R) : FP F :=
  if a.Finite then FP.ofReal F ‖a.val‖
  else if AnnexG.isInf a.re || AnnexG.isInf a.im then .inf false else .nan

end CFP
end StdBLAS

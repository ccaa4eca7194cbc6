import Verif.Spec.Ieee

/-! # The largest of several floating-point numbers -/

namespace StdBLAS
namespace FP

/-- `r` is the largest of `low` and those of `v 0, ..., v (n-1)` that are not NaN.  (No number is less
than a NaN, so the last clause says nothing about the NaN among the `v i`.) -/
structure LargestOf {F : Format} (low : FP F) (n : ℕ) (v : ℕ → FP F) (r : FP F) : Prop where
  number : r ≠ nan
  mem : r = low ∨ ∃ i, i < n ∧ r = v i
  low : lt r low = false
  le : ∀ i, i < n → lt r (v i) = false

end FP
end StdBLAS

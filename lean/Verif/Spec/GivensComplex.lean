import Verif.Spec.Scaling
import Mathlib.Analysis.Complex.Norm

/-!
# The rotation that the complex `setup_givens_rotation` approximates

For complex numbers `x ≠ 0` and `y`, with `ρ = √(|x|² + |y|²)`: `cs = |x| / ρ`,
`sn = x * conj(y) / (|x| * ρ)` and `r = (ρ / |x|) * x`.
-/

namespace StdBLAS

/-- The length of the vector `(x, y)`. -/
noncomputable def pairLength (x y : ℂ) : ℝ := √(‖x‖ ^ 2 + ‖y‖ ^ 2)

/-- The cosine of the rotation. -/
noncomputable def rotationCos (x y : ℂ) : ℝ := ‖x‖ / pairLength x y

/-- Its sine. -/
noncomputable def rotationSin (x y : ℂ) : ℂ := x * (starRingEnd ℂ) y / ((‖x‖ * pairLength x y : ℝ) : ℂ)

/-- The first component of the rotated vector (the second is zero). -/
noncomputable def rotatedFirst (x y : ℂ) : ℂ := ((pairLength x y / ‖x‖ : ℝ) : ℂ) * x

/-- The largest magnitude of the real and imaginary parts of `x` and `y`. -/
noncomputable def largestPart (x y : ℂ) : ℝ := max (max |x.re| |x.im|) (max |y.re| |y.im|)

/-- The real and imaginary parts of `x` are finite numbers of the format. -/
def Format.CRep (f : Format) (x : ℂ) : Prop := f.Rep x.re ∧ f.Rep x.im

/-- `s` is the constant `safmin` of the code: the smallest number with full precision. -/
structure Format.SafeMin (f : Format) (u η m s : ℝ) : Prop where
  pos : 0 < s
  eta : η ≤ u * s
  inv : 3 ≤ s * f.big
  le : s ≤ 2 * u * m ^ 2
  big : 8 / m ^ 2 ≤ f.big
  u_le : u ≤ 1 / 1024

end StdBLAS

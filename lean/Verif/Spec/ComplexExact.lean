import Verif.Spec.AccurateComplex
import Verif.Spec.FloatExact

/-!
# Complex data on which floating-point arithmetic makes no rounding error

Gaussian integers, and more generally complex numbers whose parts are multiples of a fixed unit.
-/

namespace StdBLAS
namespace CFP
variable {F : Format} {R : Recovery F}

/-- Both parts are finite multiples of `g`. -/
def On (g : ℝ) (a : CFP F R) : Prop := a.re.On g ∧ a.im.On g

/-- The floating-point number whose parts are those of `z`. -/
def fin (z : ℂ) : CFP F R := ⟨.fin z.re, .fin z.im⟩

/-- `r` is computed from `inputs` without any rounding error: if the inputs are as required, and `w`,
the sizes of the terms of the exact value `e` added up, is at most `N * G`, then `r` is `e`. -/
def Exact (N : ℕ) (G : ℝ) (inputs : Prop) (r : CFP F R) (e : ℂ) (w : ℝ) : Prop :=
  inputs → w ≤ N * G → r = fin e

/-- What is assumed about a division by `d`: a quotient whose parts are multiples of `g`, up to
`N * g`, comes out exactly.  The C++ standard does not say how complex numbers are divided. -/
def DividesExactly (divide : CFP F R → CFP F R → CFP F R) (N : ℕ) (g : ℝ) (d : CFP F R) : Prop :=
  ∀ q : ℂ, Multiple g q.re → Multiple g q.im → size q ≤ N * g →
    divide (fin (d.val * q)) d = fin q

end CFP
end StdBLAS

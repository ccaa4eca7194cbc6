import Mathlib.Data.Complex.Basic
import Verif.Spec.Accurate

/-!
# Complex numbers in floating-point arithmetic with overflow and underflow

`std::complex<T>` for a floating-point type `T`: two numbers of a format, added and subtracted part by
part and multiplied with four products.  What happens to a product when both of its parts come out as
NaN depends on the compiler and its options, so it is a parameter.
-/

namespace StdBLAS

/-- What a compiler does when both parts of `(a + bi) * (c + di)` are NaN.  It may put other numbers
in their place, but not finite ones.

C11 Annex G.5.1 finds out which of the NaN ought to be infinities (`annexG` below); with
`-fcx-limited-range` or `-ffast-math` nothing is done (`keepNaN`). -/
structure Recovery (F : Format) where
  parts : FP F → FP F → FP F → FP F → FP F × FP F
  re_not_finite : ∀ a b c d, ¬ (parts a b c d).1.Finite
  im_not_finite : ∀ a b c d, ¬ (parts a b c d).2.Finite

/-- The NaN stay. -/
def keepNaN (F : Format) : Recovery F := ⟨fun _ _ _ _ => (.nan, .nan), fun _ _ _ _ => id, fun _ _ _ _ => id⟩

/-- A complex number. -/
@[ext] structure CFP (F : Format) (R : Recovery F) where
  re : FP F
  im : FP F

namespace CFP
variable {F : Format} {R : Recovery F}

noncomputable instance : Zero (CFP F R) := ⟨⟨0, 0⟩⟩
noncomputable instance : One (CFP F R) := ⟨⟨1, 0⟩⟩
noncomputable instance : Add (CFP F R) := ⟨fun a b => ⟨a.re + b.re, a.im + b.im⟩⟩
noncomputable instance : Sub (CFP F R) := ⟨fun a b => ⟨a.re - b.re, a.im - b.im⟩⟩

open Classical in
/-- The product. -/
noncomputable def mul (a b : CFP F R) : CFP F R :=
  if a.re * b.re - a.im * b.im = .nan ∧ a.re * b.im + a.im * b.re = .nan then
    ⟨(R.parts a.re a.im b.re b.im).1, (R.parts a.re a.im b.re b.im).2⟩
  else ⟨a.re * b.re - a.im * b.im, a.re * b.im + a.im * b.re⟩

noncomputable instance : Mul (CFP F R) := ⟨mul⟩

/-- `std::conj` and `std::real`.  A real number is kept as a complex number whose imaginary part is
zero. -/
noncomputable instance : ConjOps (CFP F R) := ⟨fun a => ⟨a.re, FP.neg a.im⟩, fun a => ⟨a.re, 0⟩⟩

/-- Neither part is infinite or NaN. -/
def Finite (a : CFP F R) : Prop := a.re.Finite ∧ a.im.Finite

/-- The complex number that a finite number stands for. -/
noncomputable def val (a : CFP F R) : ℂ := ⟨a.re.val, a.im.val⟩

/-- Both parts are numbers that the format really has. -/
def Valid (a : CFP F R) : Prop := a.re.Valid ∧ a.im.Valid

/-- The size of a complex number: the sum of the absolute values of its parts.  The absolute value is
between this number and this number divided by `√2`. -/
noncomputable def size (z : ℂ) : ℝ := |z.re| + |z.im|

/-- `r` is computed from `inputs` and approximates the complex number `e`, a sum of terms whose sizes
add up to `w`.

* If `r` is finite, then all inputs were finite and the size of `r - e` is at most
  `((1 + u)^m - 1) * w`, plus `(1 + u)^m * z` for underflow.
* If all inputs are finite and `(1 + u)^m * (w + z)` is not beyond the largest finite number, then
  `r` is finite. -/
structure Accurate (u : ℝ) (m : ℕ) (z : ℝ) (inputs : Prop) (r : CFP F R) (e : ℂ) (w : ℝ) : Prop where
  error : r.Finite → inputs ∧ size (r.val - e) ≤ ((1 + u) ^ m - 1) * w + (1 + u) ^ m * z
  finite : inputs → (1 + u) ^ m * (w + z) ≤ F.big → r.Finite

/-- The matrix `a` without the imaginary parts of the elements on its diagonal. -/
noncomputable def realDiag (a : Nat → Nat → CFP F R) (i j : Nat) : CFP F R :=
  if i = j then ConjOps.re (a i i) else a i j

/-- Magnitudes of complex elements as real numbers; `modulus` is `std::abs`, of which the C++ standard
does not say how it is computed. -/
@[instance_reducible]
noncomputable def magOps (modulus : CFP F R → FP F) : MagOps (CFP F R) (FP F) :=
  ⟨modulus, fun a => FP.abs a.re, fun a => FP.abs a.im, false⟩

/-- What is assumed about a division of complex numbers.  The C++ standard does not say how it is
computed.  If the quotient by a finite number is finite, then the dividend was finite, the divisor was
not zero, and quotient times divisor differs from the dividend by at most `δ` times its size, plus `ζ`
times the size of the divisor for underflow. -/
structure Divides (divide : CFP F R → CFP F R → CFP F R) (δ ζ : ℝ) : Prop where
  delta_nonneg : 0 ≤ δ
  zeta_nonneg : 0 ≤ ζ
  error : ∀ s d, d.Finite → (divide s d).Finite → s.Finite ∧ d.val ≠ 0 ∧
    size (s.val - d.val * (divide s d).val) ≤ δ * size s.val + ζ * size d.val

open Classical in
/-- One such division: the exact quotient with both parts rounded. -/
noncomputable def roundedQuotient (s d : CFP F R) : CFP F R :=
  if s.Finite ∧ d.Finite ∧ d.val ≠ 0 then
    ⟨FP.ofReal F (s.val / d.val).re, FP.ofReal F (s.val / d.val).im⟩
  else ⟨.nan, .nan⟩

end CFP

namespace AnnexG
variable {F : Format}

def isInf : FP F → Bool
  | .inf _ => true
  | _ => false

/-- An infinity becomes one with its sign, anything else becomes zero. -/
noncomputable def box : FP F → FP F
  | .inf false => .fin 1
  | .inf true => .fin (-1)
  | _ => 0

/-- NaN becomes zero. -/
noncomputable def noNaN : FP F → FP F
  | .nan => 0
  | x => x

/-- `INFINITY * (a * c - b * d)` and `INFINITY * (a * d + b * c)` -/
noncomputable def result (a b c d : FP F) : FP F × FP F :=
  (.inf false * (a * c - b * d), .inf false * (a * d + b * c))

/-- The second half of the function `_Cmultd` of C11, Annex G.5.1, example 1 (`__muldc3` of the
compilers' runtime libraries).  The format has one zero, so the signs of zeros are not kept. -/
noncomputable def parts (a b c d : FP F) : FP F × FP F :=
  let first := isInf a || isInf b
  let second := isInf c || isInf d
  if first || second then
    let p := if first then (box a, box b, noNaN c, noNaN d) else (a, b, c, d)
    let q := if second then (noNaN p.1, noNaN p.2.1, box p.2.2.1, box p.2.2.2) else p
    result q.1 q.2.1 q.2.2.1 q.2.2.2
  else if isInf (a * c) || isInf (b * d) || isInf (a * d) || isInf (b * c) then
    result (noNaN a) (noNaN b) (noNaN c) (noNaN d)
  else (.nan, .nan)

theorem inf_mul (s : Bool) (x : FP F) : ¬ (FP.inf s * x : FP F).Finite := by
  change ¬ (FP.mul (.inf s) x).Finite
  cases x with
  | fin y => simp only [FP.mul]; split_ifs <;> exact id
  | inf t => exact id
  | nan => exact id

theorem not_finite (a b c d : FP F) : ¬ (parts a b c d).1.Finite ∧ ¬ (parts a b c d).2.Finite := by
  unfold parts
  dsimp only
  split_ifs <;> first | exact ⟨inf_mul _ _, inf_mul _ _⟩ | exact ⟨id, id⟩

end AnnexG

/-- C11 Annex G.5.1. -/
noncomputable def annexG (F : Format) : Recovery F :=
  ⟨AnnexG.parts, fun a b c d => (AnnexG.not_finite a b c d).1, fun a b c d => (AnnexG.not_finite a b c d).2⟩

end StdBLAS

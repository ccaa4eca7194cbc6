import Mathlib.Data.Complex.Basic
import Mathlib.Analysis.Complex.Norm
import Mathlib.Analysis.Real.Sqrt
import Verif.Core.Machine

/-!
# Scalar operations used by the algorithms
-/

namespace StdBLAS

/-- `conj_if_needed.hpp:71-92` and `real_if_needed.hpp:63-88`.
`conj x` is `conj(x)` for types that have it and `x` otherwise; `re x` is the real part
for types that have it and `x` otherwise (as a value of the element type: the code
assigns or multiplies it into element-type values). -/
class ConjOps (α : Type) where
  conj : α → α
  re : α → α

/-- `abs_if_needed.hpp:67-81`, `real_if_needed.hpp:63-88`, `imag_if_needed.hpp:63-88`,
as real numbers.  `isArith` is `std::is_arithmetic_v<value_type>`, on which
`vector_abs_sum` and `vector_idx_abs_max` branch. -/
class AbsOps (α : Type) where
  abs : α → ℝ
  reR : α → ℝ
  imR : α → ℝ
  isArith : Bool

instance : ConjOps ℤ := ⟨id, id⟩
instance : ConjOps ℚ := ⟨id, id⟩
instance : ConjOps ℝ := ⟨id, id⟩
noncomputable instance : ConjOps ℂ := ⟨fun z => (starRingEnd ℂ) z, fun z => (z.re : ℂ)⟩

noncomputable instance : AbsOps ℤ := ⟨fun x => |(x : ℝ)|, fun x => x, fun _ => 0, true⟩
noncomputable instance : AbsOps ℝ := ⟨fun x => |x|, id, fun _ => 0, true⟩
noncomputable instance : AbsOps ℂ := ⟨fun z => ‖z‖, Complex.re, Complex.im, false⟩

@[simp] theorem conj_real (x : ℝ) : ConjOps.conj x = x := rfl
@[simp] theorem re_real (x : ℝ) : ConjOps.re x = x := rfl
@[simp] theorem conj_int (x : ℤ) : ConjOps.conj x = x := rfl
@[simp] theorem re_int (x : ℤ) : ConjOps.re x = x := rfl
theorem conj_complex (z : ℂ) : ConjOps.conj z = (starRingEnd ℂ) z := rfl
theorem re_complex (z : ℂ) : ConjOps.re z = (z.re : ℂ) := rfl

/-- Division that reports division by zero instead of returning a default. -/
noncomputable def divChecked {α : Type} (a b : ℝ) : Prog α ℝ :=
  open Classical in if b = 0 then Prog.fail .divZero else pure (a / b)

@[simp] theorem ends_divChecked {α : Type} {h : Heap α} {a b : ℝ} {Q : ℝ → Heap α → Prop} :
    Ends (divChecked a b) h Q ↔ b ≠ 0 ∧ Q (a / b) h := by
  unfold divChecked
  split <;> simp_all

end StdBLAS

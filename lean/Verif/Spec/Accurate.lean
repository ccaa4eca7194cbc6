import Mathlib.Tactic.Linarith
import Verif.Spec.Scaling

/-!
# Accuracy of a result in floating-point arithmetic with overflow and underflow

Unlike `Spec/Rounding`, nothing is left out here: the numbers are those of a format with a largest
finite number, subnormal numbers, infinities and NaN.
-/

namespace StdBLAS

/-- The rounding of the format has relative error at most `u`, except that a result in the subnormal
range may be off by `η`.  The sum of two numbers of the format never suffers from underflow. -/
structure Format.Errors (f : Format) (u η : ℝ) : Prop where
  u_nonneg : 0 ≤ u
  eta_nonneg : 0 ≤ η
  err : ∀ x, |f.rnd x - x| ≤ u * |x| + η
  err_add : ∀ x y, f.rnd x = x → f.rnd y = y → |f.rnd (x + y) - (x + y)| ≤ u * |x + y|
  neg : ∀ x, f.rnd x = x → f.rnd (-x) = -x

namespace FP
variable {f : Format}

/-- Neither infinite nor NaN. -/
def Finite : FP f → Prop
  | .fin _ => True
  | _ => False

/-- The real number that a finite number stands for. -/
def val : FP f → ℝ
  | .fin x => x
  | _ => 0

/-- One of the numbers that the format really has. -/
def Valid : FP f → Prop
  | .fin x => f.Rep x
  | _ => True

/-- `r` is computed from `inputs` and approximates the real number `e`, a sum of terms whose
magnitudes add up to `w`.

* If `r` is finite, then all inputs were finite and `r` differs from `e` by at most
  `((1 + u)^m - 1) * w`, plus `(1 + u)^m * z` for underflow.
* If all inputs are finite and `(1 + u)^m * (w + z)` is not beyond the largest finite number, then
  `r` is finite. -/
structure Accurate (u : ℝ) (m : ℕ) (z : ℝ) (inputs : Prop) (r : FP f) (e w : ℝ) : Prop where
  error : r.Finite → inputs ∧ |r.val - e| ≤ ((1 + u) ^ m - 1) * w + (1 + u) ^ m * z
  finite : inputs → (1 + u) ^ m * (w + z) ≤ f.big → r.Finite

end FP

namespace Binary
variable {p : ℕ} {q : ℤ}

theorem On.add {e : ℤ} {x y : ℝ} (hx : On e x) (hy : On e y) : On e (x + y) := by
  obtain ⟨j, rfl⟩ := hx
  obtain ⟨k, rfl⟩ := hy
  exact ⟨j + k, by push_cast; ring⟩

/-- A result whose unit in the last place is not the smallest one has a relative error. -/
theorem rnd_err_normal {x : ℝ} (hx : x ≠ 0) (h : q ≤ Int.log 2 |x| + 1 - p) :
    |rnd p q x - x| ≤ (2 : ℝ) ^ (-(p : ℤ)) * |x| := by
  refine (rnd_err x).trans ?_
  have : ulpExp p q x = Int.log 2 |x| + 1 - p := max_eq_left h
  rw [this]
  have h2 := Int.zpow_log_le_self (b := 2) (R := ℝ) (by norm_num) (abs_pos.2 hx)
  have h2' : (2 : ℝ) ^ Int.log 2 |x| ≤ |x| := by exact_mod_cast h2
  have e : (2 : ℝ) ^ (Int.log 2 |x| + 1 - p - 1) = (2 : ℝ) ^ (-(p : ℤ)) * 2 ^ Int.log 2 |x| := by
    rw [← zpow_add₀ two_ne_zero]; congr 1; ring
  rw [e]
  exact mul_le_mul_of_nonneg_left h2' (pow_pos' (-(p : ℤ))).le

/-- Every binary format: `u` is half a unit in the last place of 1, `η` half the smallest positive
number. -/
theorem errors (p : ℕ) (q r : ℤ) (hp : 1 ≤ p) (hq : q ≤ 0) (hr : 0 ≤ r) :
    (format p q r hp hq hr).Errors ((2 : ℝ) ^ (-(p : ℤ))) ((2 : ℝ) ^ (q - 1)) where
  u_nonneg := (pow_pos' _).le
  eta_nonneg := (pow_pos' _).le
  err x := by
    change |rnd p q x - x| ≤ _
    have hη := (pow_pos' (q - 1)).le
    by_cases hx : x = 0
    · subst hx
      rw [rnd_zero, sub_zero, abs_zero, mul_zero, zero_add]
      exact hη
    rcases le_total (Int.log 2 |x| + 1 - p) q with h | h
    · have e := rnd_err (p := p) (q := q) x
      rw [show ulpExp p q x = q from max_eq_right h] at e
      have hn : 0 ≤ (2 : ℝ) ^ (-(p : ℤ)) * |x| := mul_nonneg (pow_pos' _).le (abs_nonneg x)
      linarith
    · have := rnd_err_normal hx h
      linarith
  err_add x y hx hy := by
    change |rnd p q (x + y) - (x + y)| ≤ _
    have hn : 0 ≤ (2 : ℝ) ^ (-(p : ℤ)) * |x + y| := mul_nonneg (pow_pos' _).le (abs_nonneg _)
    by_cases hz : x + y = 0
    · rw [hz, rnd_zero, sub_zero, abs_zero, mul_zero]
    rcases le_total (Int.log 2 |x + y| + 1 - p) q with h | h
    · have hu : ulpExp p q (x + y) = q := max_eq_right h
      have e : rnd p q (x + y) = x + y := rnd_eq (by
        rw [hu]
        exact ((on_of_eq hx).mono (le_max_right _ _)).add ((on_of_eq hy).mono (le_max_right _ _)))
      rw [e, sub_self, abs_zero]
      exact hn
    · exact rnd_err_normal hz h
  neg x h := by
    refine rnd_eq ?_
    rw [ulpExp_neg]
    exact (on_of_eq h).neg

end Binary

/-- `double`: relative error `2^-53`, underflow `2^-1075`. -/
theorem binary64_errors : binary64.Errors ((2 : ℝ) ^ (-53 : ℤ)) ((2 : ℝ) ^ (-1075 : ℤ)) :=
  Binary.errors 53 (-1074) 971 _ _ _

/-- `float`: relative error `2^-24`, underflow `2^-150`. -/
theorem binary32_errors : binary32.Errors ((2 : ℝ) ^ (-24 : ℤ)) ((2 : ℝ) ^ (-150 : ℤ)) :=
  Binary.errors 24 (-149) 104 _ _ _

end StdBLAS

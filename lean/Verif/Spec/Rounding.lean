import Mathlib.Analysis.Normed.Field.Basic
import Mathlib.Analysis.Normed.Ring.Basic
import Mathlib.Analysis.Complex.Basic
import Mathlib.Data.Int.Log
import Mathlib.Algebra.Order.Round
import Mathlib.Tactic.Linarith
import Mathlib.Tactic.Ring
import Mathlib.Tactic.FieldSimp
import Mathlib.Tactic.Positivity

/-!
# Rounded arithmetic

The standard model of floating-point arithmetic: a type `F` of numbers with its own `+ - * /`;
`val` gives the exact number (real or complex) that an element of `F` stands for, and each
operation returns the exact result with a relative error of at most `u`.  There is no overflow
and no underflow.
-/

namespace StdBLAS

/-- Every operation of `F` has relative error at most `u`. -/
structure Rounded {F K : Type} [Zero F] [Add F] [Sub F] [Mul F] [Div F] [NormedField K]
    (val : F → K) (u : ℝ) : Prop where
  nonneg : 0 ≤ u
  zero : val 0 = 0
  add : ∀ a b, ∃ δ : K, ‖δ‖ ≤ u ∧ val (a + b) = (val a + val b) * (1 + δ)
  sub : ∀ a b, ∃ δ : K, ‖δ‖ ≤ u ∧ val (a - b) = (val a - val b) * (1 + δ)
  mul : ∀ a b, ∃ δ : K, ‖δ‖ ≤ u ∧ val (a * b) = val a * val b * (1 + δ)
  div : ∀ a b, val b ≠ 0 → ∃ δ : K, ‖δ‖ ≤ u ∧ val (a / b) = val a / val b * (1 + δ)

/-! ## Two arithmetics that meet it -/

/-- Exact arithmetic, with `u = 0`. -/
theorem Rounded.exact (K : Type) [NormedField K] : Rounded (id : K → K) 0 where
  nonneg := le_rfl
  zero := rfl
  add a b := ⟨0, by simp⟩
  sub a b := ⟨0, by simp⟩
  mul a b := ⟨0, by simp⟩
  div a b _ := ⟨0, by simp⟩

/-- Round to nearest with `p` significant binary digits, no limit on the exponent. -/
noncomputable def roundTo (p : ℕ) (x : ℝ) : ℝ :=
  round (x / (2 : ℝ) ^ (Int.log 2 |x| + 1 - p)) * (2 : ℝ) ^ (Int.log 2 |x| + 1 - p)

theorem roundTo_error (p : ℕ) (x : ℝ) : ∃ δ : ℝ, ‖δ‖ ≤ (2 : ℝ)⁻¹ ^ p ∧ roundTo p x = x * (1 + δ) := by
  by_cases hx : x = 0
  · refine ⟨0, by simp, ?_⟩
    subst hx; simp [roundTo]
  have hx' : 0 < |x| := abs_pos.2 hx
  set g : ℝ := (2 : ℝ) ^ (Int.log 2 |x| + 1 - p) with hg
  have hg0 : 0 < g := zpow_pos two_pos _
  have h1 : |x / g - round (x / g)| ≤ 1 / 2 := abs_sub_round _
  have h2 : ((2 : ℕ) : ℝ) ^ Int.log 2 |x| ≤ |x| := Int.zpow_log_le_self (by norm_num) hx'
  have h3 : g / 2 ≤ (2 : ℝ)⁻¹ ^ p * |x| := by
    have e : g / 2 = (2 : ℝ)⁻¹ ^ p * (2 : ℝ) ^ Int.log 2 |x| := by
      rw [hg, zpow_sub₀ two_ne_zero, zpow_add_one₀ two_ne_zero, zpow_natCast, inv_pow]
      field_simp
    rw [e]
    exact mul_le_mul_of_nonneg_left (by exact_mod_cast h2) (by positivity)
  have h4 : |roundTo p x - x| ≤ (2 : ℝ)⁻¹ ^ p * |x| := by
    have e : roundTo p x - x = -((x / g - round (x / g)) * g) := by
      unfold roundTo; rw [← hg]; field_simp; ring
    rw [e, abs_neg, abs_mul, abs_of_pos hg0]
    nlinarith
  refine ⟨(roundTo p x - x) / x, ?_, ?_⟩
  · rw [Real.norm_eq_abs, abs_div]
    exact (div_le_iff₀ hx').2 h4
  · field_simp; ring

/-- Numbers with `p` significant binary digits: real numbers with rounded operations. -/
structure Flt (p : ℕ) where
  val : ℝ

namespace Flt
variable {p : ℕ}
noncomputable instance : Zero (Flt p) := ⟨⟨0⟩⟩
noncomputable instance : One (Flt p) := ⟨⟨1⟩⟩
noncomputable instance : IntCast (Flt p) := ⟨fun z => ⟨z⟩⟩
noncomputable instance : Add (Flt p) := ⟨fun a b => ⟨roundTo p (a.val + b.val)⟩⟩
noncomputable instance : Sub (Flt p) := ⟨fun a b => ⟨roundTo p (a.val - b.val)⟩⟩
noncomputable instance : Mul (Flt p) := ⟨fun a b => ⟨roundTo p (a.val * b.val)⟩⟩
noncomputable instance : Div (Flt p) := ⟨fun a b => ⟨roundTo p (a.val / b.val)⟩⟩
end Flt

/-- Binary floating point with `p` digits meets the model with `u = 2^(-p)`. -/
theorem Rounded.flt (p : ℕ) : Rounded (Flt.val (p := p)) ((2 : ℝ)⁻¹ ^ p) where
  nonneg := by positivity
  zero := rfl
  add a b := roundTo_error p (a.val + b.val)
  sub a b := roundTo_error p (a.val - b.val)
  mul a b := roundTo_error p (a.val * b.val)
  div a b _ := roundTo_error p (a.val / b.val)

end StdBLAS

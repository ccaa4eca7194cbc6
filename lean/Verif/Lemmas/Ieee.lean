import Mathlib.Data.EReal.Basic
import Verif.Spec.Absorb
import Verif.Lemmas.FloatReductions

/-! # Lemmas about `FP` -/

namespace StdBLAS
namespace FP
variable {f : Format}

theorem add_def (a b : FP f) : a + b = add a b := rfl
theorem mul_def (a b : FP f) : a * b = mul a b := rfl
theorem div_def (a b : FP f) : a / b = div a b := rfl
theorem zero_def : (0 : FP f) = fin 0 := rfl
theorem one_def : (1 : FP f) = fin 1 := rfl
theorem lt_def (a b : FP f) : FloatOps.lt a b = lt a b := rfl
theorem ne_def (a b : FP f) : FloatOps.ne a b = ne a b := rfl
theorem sqrt_def (a : FP f) : FloatOps.sqrt a = sqrt a := rfl
theorem mag_def (a : FP f) : (MagOps.abs a : FP f) = abs a := rfl

@[simp] theorem abs_nan : abs (nan : FP f) = nan := rfl
@[simp] theorem lt_nan (a : FP f) : lt a nan = false := by cases a <;> rfl
@[simp] theorem nan_lt (a : FP f) : lt nan a = false := rfl
@[simp] theorem ne_nan (a : FP f) : ne a nan = true := by cases a <;> rfl
@[simp] theorem nan_ne (a : FP f) : ne nan a = true := rfl
@[simp] theorem sqrt_nan : sqrt (nan : FP f) = nan := rfl

theorem abs_ne_nan {a : FP f} (h : a ≠ nan) : abs a ≠ nan := by
  cases a <;> simp_all [abs]

/-- A result that does not overflow. -/
theorem ofReal_fin {x : ℝ} (h : |f.rnd x| ≤ f.big) : ofReal f x = fin (f.rnd x) := if_pos h

theorem rnd_nonneg {x : ℝ} (h : 0 ≤ x) : 0 ≤ f.rnd x := by
  have := f.mono h
  rwa [f.zero] at this

theorem ofReal_nonneg {x : ℝ} (h0 : 0 ≤ x) (h : f.rnd x ≤ f.big) : ofReal f x = fin (f.rnd x) :=
  ofReal_fin (by rwa [abs_of_nonneg (rnd_nonneg h0)])

/-- The order of the numbers that are not NaN. -/
noncomputable def toE : FP f → EReal
  | fin x => x
  | inf false => ⊤
  | inf true => ⊥
  | nan => 0

theorem lt_iff {a b : FP f} (ha : a ≠ nan) (hb : b ≠ nan) : lt a b = true ↔ toE a < toE b := by
  cases a with
  | fin x =>
    cases b with
    | fin y => simp [lt, toE]
    | inf t => cases t <;> simp [lt, toE]
    | nan => exact absurd rfl hb
  | inf s =>
    cases b with
    | fin y => cases s <;> simp [lt, toE]
    | inf t => cases s <;> cases t <;> simp [lt, toE]
    | nan => exact absurd rfl hb
  | nan => exact absurd rfl ha

theorem lt_false_iff {a b : FP f} (ha : a ≠ nan) (hb : b ≠ nan) :
    lt a b = false ↔ toE b ≤ toE a := by
  rw [← Bool.not_eq_true, lt_iff ha hb, not_lt]

end FP
end StdBLAS

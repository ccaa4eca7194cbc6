import Verif.Spec.Rounding
import Verif.Core.FloatOps

/-!
# Rounded arithmetic of a `Scalar` type

Beside `+ - * /` as in `Spec/Rounding.lean`: the comparisons are exact and the square root has
relative error at most `u`.
-/

namespace StdBLAS

/-- Every operation of the real type `F` has relative error at most `u`. -/
structure RoundedReal {F : Type} [Zero F] [One F] [Add F] [Sub F] [Mul F] [Div F] [FloatOps F]
    (val : F → ℝ) (u : ℝ) : Prop extends Rounded val u where
  le_one : u ≤ 1
  one : val 1 = 1
  lt : ∀ a b, FloatOps.lt a b = true ↔ val a < val b
  ne : ∀ a b, FloatOps.ne a b = true ↔ val a ≠ val b
  sqrt : ∀ a, 0 ≤ val a → ∃ δ : ℝ, |δ| ≤ u ∧ val (FloatOps.sqrt a) = Real.sqrt (val a) * (1 + δ)

/-- The computed magnitude of an element has relative error at most `u`; `mag` is the exact one. -/
def RoundedMag {α F : Type} [MagOps α F] (val : F → ℝ) (u : ℝ) (mag : α → ℝ) : Prop :=
  ∀ a, 0 ≤ mag a ∧ ∃ δ : ℝ, |δ| ≤ u ∧ val (MagOps.abs a) = mag a * (1 + δ)

namespace Flt
variable {p : ℕ}
noncomputable instance : FloatOps (Flt p) := open Classical in
  ⟨fun a => ⟨|a.val|⟩, fun a => ⟨roundTo p (Real.sqrt a.val)⟩, fun a b => decide (a.val < b.val),
    fun a b => decide (a.val ≠ b.val)⟩
noncomputable instance : MagOps (Flt p) (Flt p) :=
  ⟨fun a => ⟨|a.val|⟩, fun a => ⟨|a.val|⟩, fun _ => ⟨0⟩, true⟩
end Flt

/-- Binary floating point with `p` digits meets the model. -/
theorem RoundedReal.flt (p : ℕ) : RoundedReal (Flt.val (p := p)) ((2 : ℝ)⁻¹ ^ p) where
  toRounded := Rounded.flt p
  le_one := pow_le_one₀ (by positivity) (by norm_num)
  one := rfl
  lt a b := by simp [FloatOps.lt]
  ne a b := by simp [FloatOps.ne]
  sqrt a _ := roundTo_error p (Real.sqrt a.val)

/-- For real elements the magnitude is exact. -/
theorem RoundedMag.flt (p : ℕ) (u : ℝ) (hu : 0 ≤ u) :
    RoundedMag (α := Flt p) (Flt.val (p := p)) u fun a => |a.val| :=
  fun a => ⟨abs_nonneg _, 0, by simpa using hu, by simp [MagOps.abs]⟩

/-- Exact arithmetic, real or complex elements. -/
theorem RoundedReal.exact : RoundedReal (id : ℝ → ℝ) 0 where
  toRounded := Rounded.exact ℝ
  le_one := zero_le_one
  one := rfl
  lt a b := by simp [FloatOps.lt]
  ne a b := by simp [FloatOps.ne]
  sqrt a _ := ⟨0, by simp, by simp [FloatOps.sqrt]⟩

end StdBLAS

import Verif.Spec.GivensComplex

/-!
# What the standard library's `hypot` is assumed to do
-/

namespace StdBLAS

/-- `hyp` gives the length of the vector `(a, b)` with an error of at most two units in the last place (the
documented error of common mathematical libraries is below one), and does not overflow unless the result
does. -/
def Hypot {f : Format} (hyp : FP f → FP f → FP f) (u η : ℝ) : Prop :=
  ∀ z : ℂ, (hyp (.fin z.re) (.fin z.im)).Near ‖z‖ (2 * u * ‖z‖ + η)

/-- A correctly rounded `hypot`. -/
noncomputable def roundedHypot (f : Format) : FP f → FP f → FP f
  | .fin a, .fin b => FP.ofReal f ‖(⟨a, b⟩ : ℂ)‖
  | .nan, _ => .nan
  | _, .nan => .nan
  | _, _ => .inf false

theorem roundedHypot_spec {f : Format} {u η m : ℝ} (h : f.Scaled u η m) : Hypot (roundedHypot f) u η := by
  intro z
  change (FP.ofReal f ‖z‖).Near _ _
  have h1 := h.err ‖z‖
  rw [abs_of_nonneg (norm_nonneg z)] at h1
  have hu := mul_nonneg h.u_nonneg (norm_nonneg z)
  unfold FP.ofReal
  split_ifs with hb
  · exact h1.trans (by linarith)
  · refine ⟨?_, ?_⟩
    · rw [abs_of_nonneg (norm_nonneg z)]
      have h2 := abs_sub_abs_le_abs_sub (f.rnd ‖z‖) ‖z‖
      rw [abs_of_nonneg (norm_nonneg z)] at h2
      linarith
    · simp

end StdBLAS

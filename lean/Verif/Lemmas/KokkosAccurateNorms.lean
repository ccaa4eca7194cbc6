import Verif.Lemmas.AccurateNorms
import Verif.Lemmas.KokkosAccurate
import Verif.Lemmas.KokkosFloat

/-! # Lemmas about the scaled norms of the Kokkos backend -/

namespace StdBLAS
namespace FP
open Finset
variable {f : Format} {u η : ℝ}

theorem mul_real' {u η P Q z z' w w' x y e e' S : ℝ} (hu : 0 ≤ u) (hη : 0 ≤ η) (hP : 1 ≤ P) (hQ : 1 ≤ Q)
    (hx : |x - e| ≤ (P - 1) * w + P * z) (hy : |y - e'| ≤ (Q - 1) * w' + Q * z')
    (he : |e| ≤ w) (he' : |e'| ≤ w') (hS : |S - x * y| ≤ u * |x * y| + η) :
    |S| ≤ (1 + u) * (P * Q) * (w * w' + (w * z' + z * w' + z * z' + η)) ∧
    |S - e * e'| ≤ ((1 + u) * (P * Q) - 1) * (w * w') +
      (1 + u) * (P * Q) * (w * z' + z * w' + z * z' + η) := by
  have hx' : |x| ≤ P * (w + z) := by
    have := abs_add_le (x - e) e
    rw [sub_add_cancel] at this
    linarith
  have hy' : |y| ≤ Q * (w' + z') := by
    have := abs_add_le (y - e') e'
    rw [sub_add_cancel] at this
    linarith
  have h1 : |x * y| ≤ P * (w + z) * (Q * (w' + z')) := by
    rw [abs_mul]
    exact mul_le_mul hx' hy' (abs_nonneg _) ((abs_nonneg _).trans hx')
  have h2 : |x * y - e * e'| ≤ ((P - 1) * w + P * z) * (Q * (w' + z')) +
      w * ((Q - 1) * w' + Q * z') := by
    have : x * y - e * e' = (x - e) * y + e * (y - e') := by ring
    rw [this]
    refine (abs_add_le _ _).trans (add_le_add ?_ ?_)
    · rw [abs_mul]
      exact mul_le_mul hx hy' (abs_nonneg _) ((abs_nonneg _).trans hx)
    · rw [abs_mul]
      exact mul_le_mul he hy (abs_nonneg _) ((abs_nonneg _).trans he)
  have h3 := mul_le_mul_of_nonneg_left h1 hu
  have hPQ : 1 ≤ P * Q := one_le_mul_of_one_le_of_one_le hP hQ
  have h4 : η ≤ (1 + u) * (P * Q) * η := by
    have : 1 ≤ (1 + u) * (P * Q) := one_le_mul_of_one_le_of_one_le (by linarith) hPQ
    nlinarith
  constructor
  · have := abs_add_le (S - x * y) (x * y)
    rw [sub_add_cancel] at this
    linarith
  · calc |S - e * e'| = |(S - x * y) + (x * y - e * e')| := by congr 1; ring
      _ ≤ |S - x * y| + |x * y - e * e'| := abs_add_le _ _
      _ ≤ _ := by linarith

/-- A product of computed numbers. -/
theorem Acc.mul_acc (E : f.Errors u η) {m m' : ℕ} {z z' : ℝ} {I I' : Prop} {a b : FP f} {e e' w w' : ℝ}
    (c : Acc u m z I a e w) (c' : Acc u m' z' I' b e' w') :
    Acc u (m + m' + 1) (w * z' + z * w' + z * z' + η) (a.Finite ∧ b.Finite) (a * b) (e * e')
      (w * w') := by
  have hu := E.u_nonneg
  have hη := E.eta_nonneg
  have hw : 0 ≤ w := (abs_nonneg e).trans c.abs_le
  have hw' : 0 ≤ w' := (abs_nonneg e').trans c'.abs_le
  have hz := c.z_nonneg
  have hz' := c'.z_nonneg
  have hP : (1 : ℝ) ≤ (1 + u) ^ m := one_le_pow₀ (by linarith)
  have hQ : (1 : ℝ) ≤ (1 + u) ^ m' := one_le_pow₀ (by linarith)
  have key := fun ha hb => mul_real' hu hη hP hQ (c.error ha).2 (c'.error hb).2 c.abs_le c'.abs_le
    (E.err (a.val * b.val))
  have hab : a.Finite → b.Finite → a * b = ofReal f (a.val * b.val) := by
    intro ha hb
    conv_lhs => rw [ha.eq, hb.eq]
    rfl
  refine ⟨⟨fun h => ?_, fun hI hbig => ?_⟩, mul_valid a b, ?_, ?_⟩
  · obtain ⟨ha, hb⟩ := finite_mul h
    refine ⟨⟨ha, hb⟩, ?_⟩
    rw [hab ha hb] at h ⊢
    rw [ofReal_val h, pow_succ', pow_add]
    exact (key ha hb).2
  · rw [hab hI.1 hI.2]
    rw [pow_succ', pow_add] at hbig
    exact ofReal_finite ((key hI.1 hI.2).1.trans hbig)
  · rw [abs_mul]; exact mul_le_mul c.abs_le c'.abs_le (abs_nonneg _) hw
  · positivity

/-- The quotient of a magnitude by something that is at least as large. -/
theorem acc_quot (E : f.Errors u η) {x M : ℝ} (hx : 0 ≤ x) (hM : 0 < M) (h : x ≤ M) :
    Acc u 1 η True (fin x / fin M : FP f) (x / M) (x / M) := by
  have h0 : 0 ≤ x / M := div_nonneg hx hM.le
  obtain ⟨e, h1, h2⟩ := div_rnd (f := f) hx hM h
  have hu := E.u_nonneg
  have hη := E.eta_nonneg
  have err := E.err (x / M)
  rw [abs_of_nonneg h0] at err
  refine ⟨⟨fun _ => ⟨trivial, ?_⟩, fun _ _ => by rw [e]; trivial⟩, ?_, by rw [abs_of_nonneg h0], hη⟩
  · rw [e, pow_one]
    change |f.rnd (x / M) - x / M| ≤ _
    nlinarith
  · rw [e]
    exact ⟨f.idem _, by rw [abs_of_nonneg h1]; exact h2.trans f.one_le_big⟩

theorem quot_sq_finite {x M : ℝ} (hx : 0 ≤ x) (hM : 0 < M) (h : x ≤ M) :
    ((fin x / fin M : FP f) * (fin x / fin M)).Finite := by
  obtain ⟨e, h1, h2⟩ := div_rnd (f := f) hx hM h
  rw [e]
  refine ofReal_finite ?_
  have h3 : f.rnd (x / M) * f.rnd (x / M) ≤ 1 := mul_le_one₀ h2 h1 h2
  rw [abs_of_nonneg (rnd_nonneg (mul_nonneg h1 h1))]
  exact (rnd_le_one h3).trans f.one_le_big

/-- The square of such a quotient. -/
theorem acc_quot_sq (E : f.Errors u η) (hη1 : η ≤ 1) {x M : ℝ} (hx : 0 ≤ x) (hM : 0 < M) (h : x ≤ M) :
    Acc u 3 (4 * η) True ((fin x / fin M : FP f) * (fin x / fin M)) ((x / M) ^ 2) ((x / M) ^ 2) := by
  have c := acc_quot E hx hM h
  have hη := E.eta_nonneg
  have h0 : 0 ≤ x / M := div_nonneg hx hM.le
  have h1 : x / M ≤ 1 := (div_le_one hM).2 h
  have c2 := (Acc.mul_acc E c c).mono_z E.u_nonneg (z' := 4 * η) (by nlinarith)
  refine c2.congr ⟨fun _ => ?_, fun _ => trivial⟩ (pow_two _) (pow_two _) rfl
  exact finite_mul (quot_sq_finite hx hM h)

theorem stdMax_fin (a b : ℝ) : stdMax (fin a : FP f) (fin b) = fin (max a b) := by
  unfold stdMax
  change (if lt (fin a) (fin b) = true then _ else _) = _
  by_cases h : a < b
  · rw [if_pos (by exact decide_eq_true h), max_eq_right h.le]
  · rw [if_neg (by rw [show lt (fin a : FP f) (fin b) = false from decide_eq_false h]; simp),
      max_eq_left (not_lt.1 h)]

/-- The largest magnitude. -/
theorem largest_eq {n : ℕ} {l M : ℝ} (hl : l ≤ 0) {x : ℕ → ℝ} (hM : IsGreatest {y | ∃ i, i < n ∧ y = |x i|} M)
    {r : FP f} (h : LargestOf (fin l) n (fun i => fin |x i|) r) : r = fin M := by
  obtain ⟨i0, hi0, e0⟩ := hM.1
  refine h.unique ⟨by simp, .inr ⟨i0, hi0, by rw [e0]⟩, ?_, fun i hi => ?_⟩
  · exact decide_eq_false (not_lt.2 (hl.trans (by rw [e0]; exact abs_nonneg _)))
  · exact decide_eq_false (not_lt.2 (hM.2 ⟨i, hi, rfl⟩))

end FP
end StdBLAS

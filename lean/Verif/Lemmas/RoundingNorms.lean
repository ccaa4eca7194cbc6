import Verif.Spec.RoundingReal
import Verif.Lemmas.Rounding
import Verif.Lemmas.FloatReductions

/-! # Rounding errors of sums of squares and norms -/

namespace StdBLAS
open Finset

/-- `v` is `e` up to `m` factors between `1 - u` and `1 + u`. -/
def Within (u : ℝ) (m : ℕ) (v e : ℝ) : Prop := 0 ≤ e ∧ (1 - u) ^ m * e ≤ v ∧ v ≤ (1 + u) ^ m * e

section
variable {u : ℝ}

theorem Within.refl {v : ℝ} (hv : 0 ≤ v) : Within u 0 v v := ⟨hv, by simp, by simp⟩

theorem Within.nonneg {m : ℕ} {v e : ℝ} (h1 : u ≤ 1) (w : Within u m v e) : 0 ≤ v :=
  (mul_nonneg (pow_nonneg (by linarith) m) w.1).trans w.2.1

theorem Within.mono {m n : ℕ} {v e : ℝ} (h0 : 0 ≤ u) (h1 : u ≤ 1) (hmn : m ≤ n)
    (w : Within u m v e) : Within u n v e :=
  ⟨w.1, (mul_le_mul_of_nonneg_right (pow_le_pow_of_le_one (by linarith) (by linarith) hmn) w.1).trans
    w.2.1, w.2.2.trans (mul_le_mul_of_nonneg_right (pow_le_pow_right₀ (by linarith) hmn) w.1)⟩

theorem Within.round {m : ℕ} {v e δ : ℝ} (h1 : u ≤ 1) (hδ : |δ| ≤ u)
    (w : Within u m v e) : Within u (m + 1) (v * (1 + δ)) e := by
  have hv := w.nonneg h1
  have hd := abs_le.1 hδ
  refine ⟨w.1, ?_, ?_⟩
  · calc (1 - u) ^ (m + 1) * e = (1 - u) ^ m * e * (1 - u) := by ring
      _ ≤ v * (1 + δ) := mul_le_mul w.2.1 (by linarith) (by linarith) hv
  · have h0 : 0 ≤ u := (abs_nonneg δ).trans hδ
    calc v * (1 + δ) ≤ (1 + u) ^ m * e * (1 + u) :=
          mul_le_mul w.2.2 (by linarith) (by linarith) (mul_nonneg (by positivity) w.1)
      _ = (1 + u) ^ (m + 1) * e := by ring

theorem Within.add {m : ℕ} {v e v' e' : ℝ} (w : Within u m v e) (w' : Within u m v' e') :
    Within u m (v + v') (e + e') :=
  ⟨add_nonneg w.1 w'.1, by rw [mul_add]; exact add_le_add w.2.1 w'.2.1,
    by rw [mul_add]; exact add_le_add w.2.2 w'.2.2⟩

theorem Within.mul {m n : ℕ} {v e v' e' : ℝ} (h0 : 0 ≤ u) (h1 : u ≤ 1) (w : Within u m v e)
    (w' : Within u n v' e') : Within u (m + n) (v * v') (e * e') := by
  have hv := w.nonneg h1
  have hv' := w'.nonneg h1
  refine ⟨mul_nonneg w.1 w'.1, ?_, ?_⟩
  · calc (1 - u) ^ (m + n) * (e * e') = ((1 - u) ^ m * e) * ((1 - u) ^ n * e') := by ring
      _ ≤ v * v' := mul_le_mul w.2.1 w'.2.1 (mul_nonneg (pow_nonneg (by linarith) n) w'.1) hv
  · calc v * v' ≤ ((1 + u) ^ m * e) * ((1 + u) ^ n * e') :=
          mul_le_mul w.2.2 w'.2.2 hv' (mul_nonneg (by positivity) w.1)
      _ = (1 + u) ^ (m + n) * (e * e') := by ring

theorem Within.trans {m n : ℕ} {v e e' : ℝ} (h0 : 0 ≤ u) (h1 : u ≤ 1) (w : Within u m v e)
    (w' : Within u n e e') : Within u (m + n) v e' := by
  refine ⟨w'.1, ?_, ?_⟩
  · calc (1 - u) ^ (m + n) * e' = (1 - u) ^ m * ((1 - u) ^ n * e') := by ring
      _ ≤ (1 - u) ^ m * e := mul_le_mul_of_nonneg_left w'.2.1 (pow_nonneg (by linarith) m)
      _ ≤ v := w.2.1
  · calc v ≤ (1 + u) ^ m * e := w.2.2
      _ ≤ (1 + u) ^ m * ((1 + u) ^ n * e') := mul_le_mul_of_nonneg_left w'.2.2 (by positivity)
      _ = (1 + u) ^ (m + n) * e' := by ring

theorem Within.sum {m : ℕ} (n : ℕ) {v e : ℕ → ℝ} (w : ∀ i, i < n → Within u m (v i) (e i)) :
    Within u m (∑ i ∈ range n, v i) (∑ i ∈ range n, e i) := by
  induction n with
  | zero => simp only [sum_range_zero]; exact ⟨le_rfl, by simp, by simp⟩
  | succ n ih =>
    rw [sum_range_succ, sum_range_succ]
    exact (ih fun i hi => w i (by omega)).add (w n (by omega))

theorem Within.sqrt {m n : ℕ} {v e : ℝ} (h0 : 0 ≤ u) (h1 : u ≤ 1) (w : Within u m v e)
    (hmn : m ≤ 2 * n) : Within u n (Real.sqrt v) (Real.sqrt e) := by
  have w' := w.mono h0 h1 hmn
  refine ⟨Real.sqrt_nonneg e, ?_, ?_⟩
  · refine Real.le_sqrt_of_sq_le ?_
    rw [mul_pow, Real.sq_sqrt w.1, ← pow_mul, Nat.mul_comm]
    exact w'.2.1
  · refine Real.sqrt_le_iff.2 ⟨by positivity, ?_⟩
    rw [mul_pow, Real.sq_sqrt w.1, ← pow_mul, Nat.mul_comm]
    exact w'.2.2

/-- In terms of the absolute error. -/
theorem Within.error {m : ℕ} {v e : ℝ} (h0 : 0 ≤ u) (h1 : u ≤ 1) (w : Within u m v e) :
    |v - e| ≤ ((1 + u) ^ m - 1) * e := by
  have key : 2 ≤ (1 + u) ^ m + (1 - u) ^ m := by
    have a := one_add_mul_le_pow (show (-2 : ℝ) ≤ u by linarith) m
    have b := one_add_mul_le_pow (show (-2 : ℝ) ≤ -u by linarith) m
    rw [show 1 + -u = 1 - u by ring] at b
    linarith
  have := w.1
  rw [abs_le]
  constructor
  · have h := w.2.1
    nlinarith
  · have h := w.2.2
    linarith

end

variable {α F : Type} [Zero F] [One F] [Add F] [Sub F] [Mul F] [Div F] [FloatOps F]
variable {val : F → ℝ} {u : ℝ}

/-- One step of `vector_sum_of_squares`: at most five more roundings. -/
theorem RoundedReal.ssqStep (R : RoundedReal val u) {m : ℕ} {s : SumOfSquaresOf F} {a : F} {S : ℝ}
    (hs : 0 ≤ val s.scalingFactor) (hq : 0 ≤ val s.scaledSumOfSquares) (ha : 0 ≤ val a)
    (w : Within u m (val s.scalingFactor ^ 2 * val s.scaledSumOfSquares) S) :
    0 ≤ val (ssqStepOf s a).scalingFactor ∧ 0 ≤ val (ssqStepOf s a).scaledSumOfSquares ∧
    Within u (m + 5) (val (ssqStepOf s a).scalingFactor ^ 2 *
      val (ssqStepOf s a).scaledSumOfSquares) (S + val a ^ 2) := by
  have h0 := R.nonneg
  have h1 := R.le_one
  unfold ssqStepOf
  by_cases hz : val a = 0
  · rw [if_neg (by rw [R.ne, R.zero]; simpa using hz), hz]
    refine ⟨hs, hq, ?_⟩
    rw [zero_pow two_ne_zero, add_zero]
    exact w.mono h0 h1 (by omega)
  rw [if_pos (by rw [R.ne, R.zero]; exact hz)]
  have ha' : 0 < val a := lt_of_le_of_ne ha (Ne.symm hz)
  by_cases hlt : val s.scalingFactor < val a
  · rw [if_pos ((R.lt _ _).2 hlt)]
    simp only []
    obtain ⟨d1, hd1, e1⟩ := R.div s.scalingFactor a hz
    obtain ⟨d2, hd2, e2⟩ := R.mul s.scaledSumOfSquares (s.scalingFactor / a)
    obtain ⟨d3, hd3, e3⟩ := R.mul (s.scaledSumOfSquares * (s.scalingFactor / a))
      (s.scalingFactor / a)
    obtain ⟨d4, hd4, e4⟩ := R.add 1
      (s.scaledSumOfSquares * (s.scalingFactor / a) * (s.scalingFactor / a))
    rw [Real.norm_eq_abs] at hd1 hd2 hd3 hd4
    rw [e4, e3, e2, e1, R.one]
    generalize val s.scalingFactor = x at *
    generalize val s.scaledSumOfSquares = q at *
    generalize val a = b at *
    have k : b ^ 2 * ((1 + q * (x / b * (1 + d1)) * (1 + d2) * (x / b * (1 + d1)) * (1 + d3)) *
        (1 + d4)) =
        (b ^ 2 + x ^ 2 * q * (1 + d1) * (1 + d1) * (1 + d2) * (1 + d3)) * (1 + d4) := by
      field_simp
    have w1 := ((((w.round h1 hd1).round h1 hd1).round h1 hd2).round h1 hd3)
    have w2 := ((((Within.refl (u := u) (sq_nonneg b)).mono h0 h1
      (Nat.zero_le (m + 1 + 1 + 1 + 1))).add w1).round h1 hd4)
    refine ⟨ha, ?_, ?_⟩
    · have := w2.nonneg h1
      rw [← k] at this
      exact nonneg_of_mul_nonneg_right this (by positivity)
    · rw [k, add_comm S]; exact w2
  · rw [if_neg (by rw [R.lt]; exact hlt)]
    simp only []
    have hs' : 0 < val s.scalingFactor := lt_of_lt_of_le ha' (not_lt.1 hlt)
    obtain ⟨d1, hd1, e1⟩ := R.div a s.scalingFactor hs'.ne'
    obtain ⟨d2, hd2, e2⟩ := R.mul (a / s.scalingFactor) (a / s.scalingFactor)
    obtain ⟨d3, hd3, e3⟩ := R.add s.scaledSumOfSquares
      (a / s.scalingFactor * (a / s.scalingFactor))
    rw [Real.norm_eq_abs] at hd1 hd2 hd3
    rw [e3, e2, e1]
    generalize val s.scalingFactor = x at *
    generalize val s.scaledSumOfSquares = q at *
    generalize val a = b at *
    have k : x ^ 2 * ((q + b / x * (1 + d1) * (b / x * (1 + d1)) * (1 + d2)) * (1 + d3)) =
        (x ^ 2 * q + b ^ 2 * (1 + d1) * (1 + d1) * (1 + d2)) * (1 + d3) := by
      field_simp
    have w1 := ((((Within.refl (u := u) (sq_nonneg b)).round h1 hd1).round h1 hd1).round h1 hd2)
    have w2 := (((w.mono h0 h1 (show m ≤ m + 4 by omega)).add
      (w1.mono h0 h1 (show 0 + 1 + 1 + 1 ≤ m + 4 by omega))).round h1 hd3)
    refine ⟨hs, ?_, ?_⟩
    · have := w2.nonneg h1
      rw [← k] at this
      exact nonneg_of_mul_nonneg_right this (by positivity)
    · rw [k]; exact w2

theorem RoundedReal.ssq (R : RoundedReal val u) (n : ℕ) (a : ℕ → F)
    (ha : ∀ i, i < n → 0 ≤ val (a i)) (init : SumOfSquaresOf F)
    (hs : 0 ≤ val init.scalingFactor) (hq : 0 ≤ val init.scaledSumOfSquares) :
    let r := foldUp n (fun s k => ssqStepOf s (a k)) init
    0 ≤ val r.scalingFactor ∧ 0 ≤ val r.scaledSumOfSquares ∧
    Within u (5 * n) (val r.scalingFactor ^ 2 * val r.scaledSumOfSquares)
      (val init.scalingFactor ^ 2 * val init.scaledSumOfSquares + ∑ i ∈ range n, val (a i) ^ 2) := by
  refine foldUp_inv (n := n) (step := fun s k => ssqStepOf s (a k)) (s := init)
    (fun k r => 0 ≤ val r.scalingFactor ∧ 0 ≤ val r.scaledSumOfSquares ∧
      Within u (5 * k) (val r.scalingFactor ^ 2 * val r.scaledSumOfSquares)
        (val init.scalingFactor ^ 2 * val init.scaledSumOfSquares +
          ∑ i ∈ range k, val (a i) ^ 2)) ?_ ?_
  · refine ⟨hs, hq, ?_⟩
    rw [sum_range_zero, add_zero]
    exact Within.refl (by positivity)
  · rintro k s hk ⟨h1, h2, w⟩
    rw [sum_range_succ, ← add_assoc]
    exact R.ssqStep h1 h2 (ha k hk) w

theorem RoundedMag.within [MagOps α F] (R : RoundedReal val u) {mag : α → ℝ}
    (M : RoundedMag (F := F) val u mag) (a : α) : Within u 1 (val (MagOps.abs a : F)) (mag a) := by
  obtain ⟨h, δ, hδ, e⟩ := M a
  rw [e]
  exact (Within.refl h).round R.le_one hδ

/-- A left-to-right sum of magnitudes. -/
theorem RoundedReal.absSum [MagOps α F] (R : RoundedReal val u) {mag : α → ℝ}
    (M : RoundedMag (F := F) val u mag) (n : ℕ) (f : ℕ → α) (init : F) (h : 0 ≤ val init) :
    Within u (n + 1) (val (foldUp n (fun s k => s + MagOps.abs (f k)) init))
      (val init + ∑ i ∈ range n, mag (f i)) := by
  have h0 := R.nonneg
  have h1 := R.le_one
  refine foldUp_inv (n := n) (step := fun s k => s + MagOps.abs (f k)) (s := init)
    (fun k s => Within u (k + 1) (val s) (val init + ∑ i ∈ range k, mag (f i))) ?_ ?_
  · rw [sum_range_zero, add_zero]
    exact (Within.refl h).mono h0 h1 (by omega)
  · rintro k s - w
    rw [sum_range_succ, ← add_assoc]
    obtain ⟨d, hd, e⟩ := R.add s (MagOps.abs (f k))
    rw [e]
    exact (w.add ((M.within R (f k)).mono h0 h1 (by omega))).round h1 hd

theorem RoundedReal.stdMax (R : RoundedReal val u) (a b : F) :
    val (stdMax a b) = max (val a) (val b) := by
  unfold StdBLAS.stdMax
  by_cases h : val a < val b
  · rw [if_pos ((R.lt _ _).2 h), max_eq_right h.le]
  · rw [if_neg (by rw [R.lt]; exact h), max_eq_left (not_lt.1 h)]

end StdBLAS

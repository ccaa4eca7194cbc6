import Verif.Lemmas.GivensComplex
import Verif.Lemmas.GivensSpecial
import Verif.Spec.GivensComplex
import Mathlib.Analysis.Complex.Basic

/-! # The complex `setup_givens_rotation`: the results in terms of complex numbers, and scaling -/

namespace StdBLAS
open FP

theorem norm_sq_parts (x : ℂ) : ‖x‖ ^ 2 = x.re ^ 2 + x.im ^ 2 := by
  rw [Complex.sq_norm, Complex.normSq_apply]; ring

theorem rotationSin_re (x y : ℂ) :
    (rotationSin x y).re = (x.re * y.re + x.im * y.im) / (‖x‖ * pairLength x y) := by
  unfold rotationSin
  rw [Complex.div_ofReal_re, Complex.mul_re, Complex.conj_re, Complex.conj_im]
  ring

theorem rotationSin_im (x y : ℂ) :
    (rotationSin x y).im = (x.im * y.re - x.re * y.im) / (‖x‖ * pairLength x y) := by
  unfold rotationSin
  rw [Complex.div_ofReal_im, Complex.mul_im, Complex.conj_re, Complex.conj_im]
  ring

theorem rotatedFirst_re (x y : ℂ) : (rotatedFirst x y).re = pairLength x y / ‖x‖ * x.re :=
  Complex.re_ofReal_mul _ _

theorem rotatedFirst_im (x y : ℂ) : (rotatedFirst x y).im = pairLength x y / ‖x‖ * x.im :=
  Complex.im_ofReal_mul _ _

theorem pairLength_smul {t : ℝ} (ht : 0 < t) (x y : ℂ) :
    pairLength (t * x) (t * y) = t * pairLength x y := by
  unfold pairLength
  rw [norm_mul, norm_mul, Complex.norm_real, Real.norm_of_nonneg ht.le,
    show (t * ‖x‖) ^ 2 + (t * ‖y‖) ^ 2 = t ^ 2 * (‖x‖ ^ 2 + ‖y‖ ^ 2) by ring,
    Real.sqrt_mul (by positivity), Real.sqrt_sq ht.le]

theorem norm_smul_pos {t : ℝ} (ht : 0 < t) (x : ℂ) : ‖(t * x : ℂ)‖ = t * ‖x‖ := by
  rw [norm_mul, Complex.norm_real, Real.norm_of_nonneg ht.le]

theorem rotationCos_smul {t : ℝ} (ht : 0 < t) (x y : ℂ) :
    rotationCos (t * x) (t * y) = rotationCos x y := by
  unfold rotationCos
  rw [pairLength_smul ht, norm_smul_pos ht, mul_div_mul_left _ _ ht.ne']

theorem rotationSin_smul {t : ℝ} (ht : 0 < t) (x y : ℂ) :
    rotationSin (t * x) (t * y) = rotationSin x y := by
  unfold rotationSin
  rw [pairLength_smul ht, norm_smul_pos ht, map_mul, Complex.conj_ofReal,
    show (t : ℂ) * x * (t * (starRingEnd ℂ) y) = ((t * t : ℝ) : ℂ) * (x * (starRingEnd ℂ) y) by
      push_cast; ring,
    show t * ‖x‖ * (t * pairLength x y) = (t * t) * (‖x‖ * pairLength x y) by ring,
    Complex.ofReal_mul (t * t)]
  exact mul_div_mul_left _ _ (by exact_mod_cast (mul_pos ht ht).ne')

theorem rotatedFirst_smul {t : ℝ} (ht : 0 < t) (x y : ℂ) :
    rotatedFirst (t * x) (t * y) = t * rotatedFirst x y := by
  unfold rotatedFirst
  rw [pairLength_smul ht, norm_smul_pos ht, mul_div_mul_left _ _ ht.ne']
  ring

theorem largestPart_le {x y : ℂ} {b : ℝ} (h : largestPart x y ≤ b) :
    |x.re| ≤ b ∧ |x.im| ≤ b ∧ |y.re| ≤ b ∧ |y.im| ≤ b := by
  unfold largestPart at h
  exact ⟨((le_max_left _ _).trans (le_max_left _ _)).trans h,
    ((le_max_right _ _).trans (le_max_left _ _)).trans h,
    ((le_max_left _ _).trans (le_max_right _ _)).trans h,
    ((le_max_right _ _).trans (le_max_right _ _)).trans h⟩

/-- `x / |x|` if `x` changes a little. -/
theorem direction_err {X Z : ℂ} {e : ℝ} (hX : X ≠ 0) (hZ : Z ≠ 0) (h : ‖X - Z‖ ≤ e) :
    ‖X / (‖X‖ : ℂ) - Z / (‖Z‖ : ℂ)‖ ≤ 2 * (e / ‖X‖) := by
  have hp : 0 < ‖X‖ := norm_pos_iff.2 hX
  have hq : 0 < ‖Z‖ := norm_pos_iff.2 hZ
  have hp' : (‖X‖ : ℂ) ≠ 0 := by exact_mod_cast hp.ne'
  have hq' : (‖Z‖ : ℂ) ≠ 0 := by exact_mod_cast hq.ne'
  have e1 : X / (‖X‖ : ℂ) - Z / (‖Z‖ : ℂ) =
      (X - Z) / (‖X‖ : ℂ) + Z / (‖Z‖ : ℂ) * (((‖Z‖ - ‖X‖ : ℝ) : ℂ) / (‖X‖ : ℂ)) := by
    push_cast; field_simp; ring
  rw [e1]
  refine (norm_add_le _ _).trans ?_
  rw [norm_mul, norm_div, norm_div, norm_div, Complex.norm_real, Complex.norm_real, Complex.norm_real,
    Real.norm_of_nonneg hp.le, Real.norm_of_nonneg hq.le, div_self hq.ne', one_mul]
  have h2 : ‖‖Z‖ - ‖X‖‖ ≤ e := by
    rw [Real.norm_eq_abs, abs_sub_comm]; exact (abs_norm_sub_norm_le X Z).trans h
  have i1 := div_le_div_of_nonneg_right h hp.le
  have i2 := div_le_div_of_nonneg_right h2 hp.le
  linarith

theorem div_le_two_mul {a R : ℝ} (ha : 0 ≤ a) (hR : 1 / 2 ≤ R) : a / R ≤ 2 * a := by
  rw [div_le_iff₀ (by linarith)]; nlinarith

/-- `y / ρ` if `y` and `ρ` change a little. -/
theorem direction_err' {Y W : ℂ} {R R0 e d : ℝ} (hR : 1 / 2 ≤ R) (hR0 : 0 < R0) (hW : ‖W‖ ≤ R0)
    (h : ‖Y - W‖ ≤ e) (h2 : |R - R0| ≤ d) : ‖Y / (R : ℂ) - W / (R0 : ℂ)‖ ≤ 2 * (e + d) := by
  have hRp : 0 < R := by linarith
  have hR' : (R : ℂ) ≠ 0 := by exact_mod_cast hRp.ne'
  have hR0' : (R0 : ℂ) ≠ 0 := by exact_mod_cast hR0.ne'
  have e1 : Y / (R : ℂ) - W / (R0 : ℂ) =
      (Y - W) / (R : ℂ) + W / (R0 : ℂ) * (((R0 - R : ℝ) : ℂ) / (R : ℂ)) := by
    push_cast; field_simp; ring
  rw [e1]
  refine (norm_add_le _ _).trans ?_
  rw [norm_mul, norm_div, norm_div, norm_div, Complex.norm_real, Complex.norm_real, Complex.norm_real,
    Real.norm_of_nonneg hRp.le, Real.norm_of_nonneg hR0.le, Real.norm_eq_abs, abs_sub_comm]
  have i1 := div_le_two_mul (norm_nonneg (Y - W)) hR
  have i2 := div_le_two_mul (abs_nonneg (R - R0)) hR
  have i3 : ‖W‖ / R0 ≤ 1 := (div_le_one hR0).2 hW
  have i4 : ‖W‖ / R0 * (|R - R0| / R) ≤ 1 * (|R - R0| / R) :=
    mul_le_mul_of_nonneg_right i3 (div_nonneg (abs_nonneg _) hRp.le)
  linarith

theorem norm_le_pairLength (x y : ℂ) : ‖x‖ ≤ pairLength x y ∧ ‖y‖ ≤ pairLength x y :=
  ⟨Real.le_sqrt_of_sq_le (by linarith [sq_nonneg ‖y‖]), Real.le_sqrt_of_sq_le (by linarith [sq_nonneg ‖x‖])⟩

/-- The three results if the numbers change a little (`ε` bounds the change of each). -/
theorem rotation_perturb {X Y Z W : ℂ} {ε δ : ℝ} (hX : X ≠ 0) (hZ : Z ≠ 0) (h1 : ‖X - Z‖ ≤ ε)
    (h2 : ‖Y - W‖ ≤ ε) (hR : 1 / 2 ≤ pairLength X Y) (hδ : 2 * (ε / ‖X‖) ≤ δ) :
    |rotationCos X Y - rotationCos Z W| ≤ 6 * ε ∧
      ‖rotationSin X Y - rotationSin Z W‖ ≤ δ + 6 * ε ∧
      ‖rotatedFirst X Y - rotatedFirst Z W‖ ≤ δ * pairLength X Y + 2 * ε ∧
      |pairLength X Y - pairLength Z W| ≤ 2 * ε := by
  have hε : 0 ≤ ε := (norm_nonneg _).trans h1
  have hpX : 0 < ‖X‖ := norm_pos_iff.2 hX
  have hpZ : 0 < ‖Z‖ := norm_pos_iff.2 hZ
  obtain ⟨n1, n2⟩ := norm_le_pairLength X Y
  obtain ⟨n3, n4⟩ := norm_le_pairLength Z W
  have hR0 : 0 < pairLength Z W := hpZ.trans_le n3
  have hl : |pairLength X Y - pairLength Z W| ≤ 2 * ε :=
    length_abs_err ((abs_norm_sub_norm_le X Z).trans h1) ((abs_norm_sub_norm_le Y W).trans h2)
  have d1 := direction_err hX hZ h1
  have d2 := direction_err' hR hR0 n4 h2 hl
  unfold rotationCos rotationSin rotatedFirst
  generalize pairLength X Y = R at *
  generalize pairLength Z W = R0 at *
  have hRp : 0 < R := by linarith
  have hpX' : (‖X‖ : ℂ) ≠ 0 := by exact_mod_cast hpX.ne'
  have hpZ' : (‖Z‖ : ℂ) ≠ 0 := by exact_mod_cast hpZ.ne'
  have hR' : (R : ℂ) ≠ 0 := by exact_mod_cast hRp.ne'
  have hR0' : (R0 : ℂ) ≠ 0 := by exact_mod_cast hR0.ne'
  refine ⟨?_, ?_, ?_, hl⟩
  · have e : ‖X‖ / R - ‖Z‖ / R0 = (‖X‖ - ‖Z‖) / R + ‖Z‖ / R0 * ((R0 - R) / R) := by field_simp; ring
    rw [e]
    refine (abs_add_le _ _).trans ?_
    rw [abs_mul, abs_div, abs_div, abs_div, abs_of_pos hRp, abs_of_pos hR0, abs_norm, abs_sub_comm R0]
    have i0 := (abs_norm_sub_norm_le X Z).trans h1
    have i1 := div_le_two_mul (abs_nonneg (‖X‖ - ‖Z‖)) hR
    have i2 := div_le_two_mul (abs_nonneg (R - R0)) hR
    have i3 : ‖Z‖ / R0 ≤ 1 := (div_le_one hR0).2 n3
    have i4 : ‖Z‖ / R0 * (|R - R0| / R) ≤ 1 * (|R - R0| / R) :=
      mul_le_mul_of_nonneg_right i3 (div_nonneg (abs_nonneg _) hRp.le)
    linarith
  · have e : X * (starRingEnd ℂ) Y / ((‖X‖ * R : ℝ) : ℂ) - Z * (starRingEnd ℂ) W / ((‖Z‖ * R0 : ℝ) : ℂ) =
        (X / (‖X‖ : ℂ) - Z / (‖Z‖ : ℂ)) * (starRingEnd ℂ) (Y / (R : ℂ)) +
        Z / (‖Z‖ : ℂ) * (starRingEnd ℂ) (Y / (R : ℂ) - W / (R0 : ℂ)) := by
      rw [map_sub, map_div₀, map_div₀, Complex.conj_ofReal, Complex.conj_ofReal]
      push_cast; field_simp; ring
    rw [e]
    refine (norm_add_le _ _).trans ?_
    rw [norm_mul, norm_mul, Complex.norm_conj, Complex.norm_conj, norm_div Y, norm_div Z, Complex.norm_real,
      Complex.norm_real, Real.norm_of_nonneg hRp.le, Real.norm_of_nonneg hpZ.le, div_self hpZ.ne', one_mul]
    have i1 : ‖Y‖ / R ≤ 1 := (div_le_one hRp).2 n2
    have i2 : ‖X / (‖X‖ : ℂ) - Z / (‖Z‖ : ℂ)‖ * (‖Y‖ / R) ≤ ‖X / (‖X‖ : ℂ) - Z / (‖Z‖ : ℂ)‖ * 1 :=
      mul_le_mul_of_nonneg_left i1 (norm_nonneg _)
    linarith
  · have e : ((R / ‖X‖ : ℝ) : ℂ) * X - ((R0 / ‖Z‖ : ℝ) : ℂ) * Z =
        (X / (‖X‖ : ℂ) - Z / (‖Z‖ : ℂ)) * (R : ℂ) + Z / (‖Z‖ : ℂ) * ((R - R0 : ℝ) : ℂ) := by
      push_cast; field_simp; ring
    rw [e]
    refine (norm_add_le _ _).trans ?_
    rw [norm_mul, norm_mul, norm_div Z, Complex.norm_real, Complex.norm_real, Complex.norm_real,
      Real.norm_of_nonneg hRp.le, Real.norm_of_nonneg hpZ.le, div_self hpZ.ne', one_mul, Real.norm_eq_abs]
    have := mul_le_mul_of_nonneg_right (d1.trans hδ) hRp.le
    linarith

variable {f : Format} {u η m s : ℝ}

/-- A result of scaled numbers is scaled back. -/
theorem back_err {r r' z : ℝ} (hm : 0 < m) (hm4 : m ≤ 1 / 4) (hη : 0 ≤ η)
    (hr : |r - 1 / m * z| ≤ 12 * u * |1 / m * z| + η) (hr' : |r' - r * m ^ 1| ≤ 2 * η) :
    |r' - z| ≤ 12 * u * |z| + 3 * η := by
  rw [pow_one] at hr'
  have e : r * m - z = (r - 1 / m * z) * m := by field_simp
  have k1 : |r * m - z| ≤ 12 * u * |z| + η * m := by
    rw [e, abs_mul, abs_of_pos hm]
    have := mul_le_mul_of_nonneg_right hr hm.le
    rw [abs_mul (1 / m), abs_of_pos (show 0 < 1 / m by positivity)] at this
    have e2 : (12 * u * (1 / m * |z|) + η) * m = 12 * u * |z| + η * m := by field_simp
    linarith
  have k2 := abs_sub_le r' (r * m) z
  have k3 := mul_le_mul_of_nonneg_left hm4 hη
  linarith

/-- The first number is still not tiny after scaling. -/
theorem large_cond {p q p0 q0 : ℝ} (hu : u ≤ 1 / 1024) (hs : 0 < s) (hs' : s ≤ 1 / 16)
    (hηs : η ≤ u * s) (hηu : η ≤ u / 16) (hu0 : 0 ≤ u) (hp : 0 ≤ p) (hq : 0 ≤ q)
    (hp0 : 0 ≤ p0) (hq0 : 0 ≤ q0)
    (h1 : |p - p0| ≤ 4 * η) (h2 : |q - q0| ≤ 4 * η) (hP : 16 * s * q0 ^ 2 ≤ p0 ^ 2)
    (hR : 81 / 100 ≤ p ^ 2 + q ^ 2) : 4 * s * max (q ^ 2) 1 ≤ p ^ 2 := by
  obtain ⟨σ, hσ, rfl⟩ : ∃ σ, 0 < σ ∧ s = σ ^ 2 := ⟨√s, Real.sqrt_pos.2 hs, (Real.sq_sqrt hs.le).symm⟩
  have hσ4 : σ ≤ 1 / 4 := by
    have h : σ ^ 2 ≤ (1 / 4) ^ 2 := by linarith
    exact (pow_le_pow_iff_left₀ hσ.le (by norm_num) two_ne_zero).1 h
  have h3 : 4 * σ * q0 ≤ p0 := by
    have h : (4 * σ * q0) ^ 2 ≤ p0 ^ 2 := by linarith
    exact (pow_le_pow_iff_left₀ (by positivity) hp0 two_ne_zero).1 h
  have key : 2 * σ * max q 1 ≤ p := by
    rcases le_total q (3 / 5) with hq6 | hq6
    · have h4 : q ^ 2 ≤ (3 / 5) ^ 2 := pow_le_pow_left₀ hq hq6 2
      have h5 : (1 / 2 : ℝ) ^ 2 ≤ p ^ 2 := by linarith
      have h6 : 1 / 2 ≤ p := (pow_le_pow_iff_left₀ (by norm_num) hp two_ne_zero).1 h5
      rw [max_eq_right (by linarith)]
      linarith
    · have h4 : σ * (q - 4 * η) ≤ σ * q0 := mul_le_mul_of_nonneg_left (by linarith [(abs_le.1 h2).2]) hσ.le
      have h5 : σ * η ≤ σ * (u / 16) := mul_le_mul_of_nonneg_left hηu hσ.le
      have h6 : u * σ * σ ≤ u * σ * (1 / 4) := mul_le_mul_of_nonneg_left hσ4 (by positivity)
      have h7 : σ * u ≤ σ * (1 / 1024) := mul_le_mul_of_nonneg_left hu hσ.le
      have h8 : σ * (3 / 5) ≤ σ * q := mul_le_mul_of_nonneg_left hq6 hσ.le
      have h9 := (abs_le.1 h1).1
      have h10 : 4 * (σ * q) - σ / 100 ≤ p := by nlinarith
      rcases le_total q 1 with h11 | h11
      · rw [max_eq_right h11]; linarith
      · rw [max_eq_left h11]; linarith
  have e : max (q ^ 2) 1 = max q 1 ^ 2 := by
    rcases le_total q 1 with h11 | h11
    · rw [max_eq_right h11, max_eq_right (by nlinarith)]; norm_num
    · rw [max_eq_left h11, max_eq_left (by nlinarith)]
  rw [e]
  have h0 : 0 ≤ 2 * σ * max q 1 := by positivity
  have := pow_le_pow_left₀ h0 key 2
  linarith

/-- `η / |x|` is small. -/
theorem under_small {p : ℝ} (hηs : η ≤ u * s) (hηu : η ≤ u / 32) (hu0 : 0 ≤ u)
    (hp : 0 < p) (hs : s ≤ 10 / 9 * p ^ 2) : 2 * (4 * η / p) ≤ 2 * u := by
  have : η / p ≤ u / 4 := by
    rw [div_le_iff₀ hp]
    rcases le_total p (1 / 8) with h1 | h1
    · have h2 : 10 / 9 * p ^ 2 ≤ 1 / 4 * p := by nlinarith
      have h3 := mul_le_mul_of_nonneg_left (hs.trans h2) hu0
      linarith
    · have := mul_le_mul_of_nonneg_left h1 hu0
      linarith
  have e : 2 * (4 * η / p) = 8 * (η / p) := by ring
  linarith

/-- A component of `r` for large numbers, scaled back. -/
theorem large_back {r z Z R ρ t : ℝ} (ht : 0 < t) (hu0 : 0 ≤ u) (hu : u ≤ 1 / 1024) (hη : 0 ≤ η)
    (hηu : η ≤ u / 16) (hr : |r - Z| ≤ 12 * u * |Z| + η) (hZ : |Z| ≤ R)
    (hz : |Z - t * z| ≤ 2 * u * R + 2 * (4 * η)) (hR : |R - t * ρ| ≤ 2 * (4 * η)) (hR9 : 9 / 10 ≤ R) :
    |r / t - z| ≤ 16 * u * ρ := by
  have e : r / t - z = (r - t * z) / t := by field_simp
  rw [e, abs_div, abs_of_pos ht, div_le_iff₀ ht]
  have h1 := abs_sub_le r Z (t * z)
  have h2 : u * |Z| ≤ u * R := mul_le_mul_of_nonneg_left hZ hu0
  have h3 : u * R ≤ u * (t * ρ + 8 * η) := mul_le_mul_of_nonneg_left (by linarith [(abs_le.1 hR).2]) hu0
  have h4 : u * η ≤ 1 / 1024 * η := mul_le_mul_of_nonneg_right hu hη
  have h5 : u * (8 / 10) ≤ u * (t * ρ) := mul_le_mul_of_nonneg_left (by linarith [(abs_le.1 hR).2]) hu0
  linarith

namespace Format.Scaled
variable (h : f.Scaled u η m)
include h

theorem tail_complex (hs : f.SafeMin u η m s) {x y : ℂ} (hb : largestPart x y ≤ 1 / m)
    (hm : m ≤ pairLength x y)
    (hP : geOf (stdMax (abssqOf (fin y.re, fin y.im)) 1 * fin s : FP f) (abssqOf (fin x.re, fin x.im)) =
      false) (hyp : FP f → FP f → FP f) (sm sx : FP f)
    (F G : FP f × FP f) (up down : Nat) :
    ∃ cs s1 s2 r1 r2,
      givensTailOf hyp (fin s) sm sx F G (fin x.re, fin x.im) (fin y.re, fin y.im) up down =
        (fin cs, (fin s1, fin s2),
          if 0 < up then (rescaleBackOf sx up (fin r1), rescaleBackOf sx up (fin r2))
          else if 0 < down then
            (rescaleBackOf sm (2 - down) (fin r1), rescaleBackOf sm (2 - down) (fin r2))
          else (fin r1, fin r2)) ∧
      f.Rep r1 ∧ f.Rep r2 ∧
      |cs - rotationCos x y| ≤ 12 * u * rotationCos x y + η ∧
      |s1 - (rotationSin x y).re| ≤ 40 * u ∧ |s2 - (rotationSin x y).im| ≤ 40 * u ∧
      |r1 - (rotatedFirst x y).re| ≤ 12 * u * |(rotatedFirst x y).re| + η ∧
      |r2 - (rotatedFirst x y).im| ≤ 12 * u * |(rotatedFirst x y).im| + η := by
  obtain ⟨h1, h2, h3, h4⟩ := largestPart_le hb
  have hp : ‖x‖ = √(x.re ^ 2 + x.im ^ 2) := by
    rw [← norm_sq_parts, Real.sqrt_sq (norm_nonneg _)]
  have hρ : pairLength x y = √(x.re ^ 2 + x.im ^ 2 + (y.re ^ 2 + y.im ^ 2)) := by
    unfold pairLength; rw [norm_sq_parts, norm_sq_parts]
  have hE : 0 ≤ pairLength x y / ‖x‖ := div_nonneg (Real.sqrt_nonneg _) (norm_nonneg _)
  have hρm : m ^ 2 ≤ x.re ^ 2 + x.im ^ 2 + (y.re ^ 2 + y.im ^ 2) := by
    have := pow_le_pow_left₀ h.m_pos.le hm 2
    rwa [hρ, Real.sq_sqrt (by positivity)] at this
  rw [rotationSin_re, rotationSin_im, rotatedFirst_re, rotatedFirst_im, abs_mul, abs_mul,
    abs_of_nonneg hE]
  exact h.tail_mid hs.u_le hs.big hs.pos hs.eta hs.le hs.inv h1 h2 h3 h4 hρm hP hyp sm sx F G up down hp hρ

omit h in
theorem scale_complex (x y : ℂ) : stdMax (abs1Of (fin x.re : FP f) (fin x.im))
    (abs1Of (fin y.re) (fin y.im)) = fin (largestPart x y) := by
  unfold abs1Of largestPart
  rw [Format.Scaled.scale_fin, Format.Scaled.scale_fin, Format.Scaled.stdMax_fin]

/-- One iteration of the loop for small numbers. -/
theorem up_once {x y : ℂ} (hx : f.CRep x) (hy : f.CRep y) (h1 : m ^ 2 < largestPart x y)
    (h2 : largestPart x y ≤ m) (hr : f.rnd (largestPart x y) = largestPart x y) (fuel : Nat)
    (hf : 1 ≤ fuel) :
    rescaleCplxOf (fun s => geOf (fin m : FP f) s) (fin (1 / m)) fuel (fin x.re, fin x.im)
        (fin y.re, fin y.im) (fin (largestPart x y)) 0 =
      some ((fin (x.re / m), fin (x.im / m)), (fin (y.re / m), fin (y.im / m)), 1) := by
  have hm := h.m_pos
  obtain ⟨n, rfl⟩ : ∃ n, fuel = n + 1 := ⟨fuel - 1, by omega⟩
  have hb := f.one_le_big
  have key : ∀ {a : ℝ}, f.rnd a = a → |a| ≤ m → (fin a * fin (1 / m) : FP f) = fin (a / m) := by
    intro a ha hle
    refine h.mul_up ha ?_
    rw [abs_div, abs_of_pos hm, div_le_iff₀ hm]
    nlinarith
  obtain ⟨k1, k2, k3, k4⟩ := largestPart_le h2
  have hl0 : 0 ≤ largestPart x y := le_trans (abs_nonneg _) (largestPart_le le_rfl).1
  unfold rescaleCplxOf
  simp only [key hx.1.1 k1, key hx.2.1 k2, key hy.1.1 k3, key hy.2.1 k4,
    key hr (by rw [abs_of_nonneg hl0]; exact h2), Format.Scaled.geOf_fin]
  rw [if_neg]
  rw [decide_eq_true_eq, not_le, lt_div_iff₀ hm]
  linarith

theorem two_err {a : ℝ} (ha : f.Rep a) : |f.rnd (f.rnd (a * m) * m) - a * m ^ 2| ≤ 2 * η := by
  have hm := h.m_pos
  have hm4 := h.m_le
  have d1 := h.down a ha.1
  have d2 := h.down _ (h.down_rep ha).1
  have d3 : |f.rnd (a * m) * m - a * m ^ 2| ≤ η := by
    have e : f.rnd (a * m) * m - a * m ^ 2 = (f.rnd (a * m) - a * m) * m := by ring
    rw [e, abs_mul, abs_of_pos hm]
    have := abs_nonneg (f.rnd (a * m) - a * m)
    nlinarith
  have := abs_sub_le (f.rnd (f.rnd (a * m) * m)) (f.rnd (a * m) * m) (a * m ^ 2)
  linarith

omit h in
theorem half_le_largest {b : ℝ} {x y : ℂ} (hl : b ≤ largestPart x y) : b ≤ pairLength x y := by
  obtain ⟨n1, n2⟩ := norm_le_pairLength x y
  unfold largestPart at hl
  rcases le_max_iff.1 hl with h1 | h1 <;> rcases le_max_iff.1 h1 with h2 | h2
  · exact (h2.trans (Complex.abs_re_le_norm x)).trans n1
  · exact (h2.trans (Complex.abs_im_le_norm x)).trans n1
  · exact (h2.trans (Complex.abs_re_le_norm y)).trans n2
  · exact (h2.trans (Complex.abs_im_le_norm y)).trans n2

/-- The loop for large numbers: the parts are scaled, with at most an underflow. -/
theorem down_loop {x y : ℂ} (hx : f.CRep x) (hy : f.CRep y) (h1 : 1 / m ≤ largestPart x y)
    (hr : f.Rep (largestPart x y)) (fuel : Nat) (hf : 2 ≤ fuel) :
    ∃ (X Y : ℂ) (k : Nat), rescaleCplxOf (fun s => geOf s (fin (1 / m) : FP f)) (fin m) fuel
        (fin x.re, fin x.im) (fin y.re, fin y.im) (fin (largestPart x y)) 0 =
      some ((fin X.re, fin X.im), (fin Y.re, fin Y.im), k) ∧ 1 ≤ k ∧ largestPart X Y ≤ 1 / m ∧
      9 / 10 ≤ largestPart X Y ∧ ‖X - ((m ^ k : ℝ) : ℂ) * x‖ ≤ 4 * η ∧
      ‖Y - ((m ^ k : ℝ) : ℂ) * y‖ ≤ 4 * η ∧ (x = 0 → X = 0) := by
  have hm := h.m_pos
  have hη := h.eta_nonneg
  obtain ⟨n, rfl⟩ := Nat.exists_eq_add_of_le' hf
  have nrm : ∀ {X x : ℂ} {k : Nat}, |X.re - x.re * m ^ k| ≤ 2 * η → |X.im - x.im * m ^ k| ≤ 2 * η →
      ‖X - ((m ^ k : ℝ) : ℂ) * x‖ ≤ 4 * η := by
    intro X x k h1 h2
    refine (Complex.norm_le_abs_re_add_abs_im _).trans ?_
    rw [Complex.sub_re, Complex.sub_im, Complex.re_ofReal_mul, Complex.im_ofReal_mul, mul_comm (m ^ k),
      mul_comm (m ^ k)]
    linarith
  have hη' := h.eta_le_u
  have hu' := h.u_le
  have hm4 := h.m_le
  -- one part has the largest magnitude
  have big1 : ∀ {g : ℝ → ℝ}, (∀ a : ℝ, |a| = largestPart x y → f.Rep a → 9 / 10 ≤ |g a|) →
      9 / 10 ≤ max (max |g x.re| |g x.im|) (max |g y.re| |g y.im|) := by
    intro g hg
    have pick : ∀ a b : ℝ, max a b = a ∨ max a b = b := fun a b => by
      rcases le_total a b with h | h
      · exact Or.inr (max_eq_right h)
      · exact Or.inl (max_eq_left h)
    rcases pick (max |x.re| |x.im|) (max |y.re| |y.im|) with k1 | k1
    · rcases pick |x.re| |x.im| with k2 | k2
      · exact le_max_of_le_left (le_max_of_le_left (hg _ (by unfold largestPart; rw [k1, k2]) hx.1))
      · exact le_max_of_le_left (le_max_of_le_right (hg _ (by unfold largestPart; rw [k1, k2]) hx.2))
    · rcases pick |y.re| |y.im| with k2 | k2
      · exact le_max_of_le_right (le_max_of_le_left (hg _ (by unfold largestPart; rw [k1, k2]) hy.1))
      · exact le_max_of_le_right (le_max_of_le_right (hg _ (by unfold largestPart; rw [k1, k2]) hy.2))
  obtain ⟨m1, m2, m3, m4⟩ := largestPart_le (le_refl (largestPart x y))
  have hl0 : 0 ≤ largestPart x y := (abs_nonneg _).trans m1
  rw [rescaleCplxOf]
  simp only [h.mul_down hr.2, h.mul_down hx.1.2, h.mul_down hx.2.2, h.mul_down hy.1.2, h.mul_down hy.2.2,
    geOf_fin, decide_eq_true_eq]
  split_ifs with h2
  · rw [rescaleCplxOf]
    have := lt_of_le_of_lt (le_abs_self _) (h.two_down hr)
    simp only [h.mul_down (h.down_rep hr).2, h.mul_down (h.down_rep hx.1).2, h.mul_down (h.down_rep hx.2).2,
      h.mul_down (h.down_rep hy.1).2, h.mul_down (h.down_rep hy.2).2, geOf_fin, decide_eq_true_eq,
      if_neg (not_le.2 this)]
    refine ⟨⟨_, _⟩, ⟨_, _⟩, 2, rfl, by omega, ?_, ?_, nrm (h.two_err hx.1) (h.two_err hx.2),
      nrm (h.two_err hy.1) (h.two_err hy.2), ?_⟩
    · exact max_le (max_le (h.two_down hx.1).le (h.two_down hx.2).le)
        (max_le (h.two_down hy.1).le (h.two_down hy.2).le)
    · refine big1 (g := fun a => f.rnd (f.rnd (a * m) * m)) ?_
      -- the loop went on because the largest part was still large
      intro a ha har
      have d1 := h.down _ hr.1
      have h3 : 1 / m - η ≤ largestPart x y * m := by linarith [(abs_le.1 d1).2]
      have h4 := h.two_err har
      have h5 := abs_sub_abs_le_abs_sub (a * m ^ 2) (f.rnd (f.rnd (a * m) * m))
      rw [abs_sub_comm, abs_mul, ha, abs_of_pos (show 0 < m ^ 2 by positivity)] at h5
      have h6 := mul_le_mul_of_nonneg_right h3 hm.le
      have h7 : (1 / m - η) * m = 1 - η * m := by field_simp
      have h8 := mul_le_mul_of_nonneg_left hm4 hη
      linarith
    · rintro rfl
      apply Complex.ext <;> simp [f.zero]
  · have h3 : largestPart x y * m < 1 / m := by
      by_contra hc
      have h4 := f.mono (not_lt.1 hc)
      rw [h.inv_rep] at h4
      exact h2 h4
    have small : ∀ {a : ℝ}, |a| ≤ largestPart x y → |f.rnd (a * m)| ≤ 1 / m := by
      intro a ha
      refine h.abs_rnd_le h.inv_rep ?_
      rw [abs_mul, abs_of_pos hm]
      exact (mul_le_mul_of_nonneg_right ha hm.le).trans h3.le
    have e1 : ∀ {a : ℝ}, f.Rep a → |f.rnd (a * m) - a * m ^ 1| ≤ 2 * η := by
      intro a ha
      rw [pow_one]; have := h.down a ha.1; linarith
    have one1 : ∀ a : ℝ, |a| = largestPart x y → f.Rep a → 9 / 10 ≤ |f.rnd (a * m)| := by
      intro a ha _
      have : 1 ≤ |f.rnd (a * m)| := by
        refine h.le_abs_rnd f.one ?_
        rw [abs_mul, abs_of_pos hm, ha]
        rwa [div_le_iff₀ hm] at h1
      linarith
    refine ⟨⟨_, _⟩, ⟨_, _⟩, 1, rfl, le_rfl, ?_, big1 (g := fun a => f.rnd (a * m)) one1, nrm (e1 hx.1) (e1 hx.2), nrm (e1 hy.1) (e1 hy.2), ?_⟩
    · exact max_le (max_le (small m1) (small m2)) (max_le (small m3) (small m4))
    · rintro rfl
      apply Complex.ext <;> simp [f.zero]

/-- Scaling up again is exact, unless it overflows. -/
theorem back_up_signed (k : Nat) {r : ℝ} (hr : f.Rep r) :
    rescaleBackOf (fin (1 / m) : FP f) k (fin r) = fin (r / m ^ k) ∧ |r / m ^ k| ≤ f.big ∨
      (∃ b, rescaleBackOf (fin (1 / m) : FP f) k (fin r) = inf b ∧ (b = true ↔ r < 0)) ∧
        f.big < |r / m ^ k| := by
  have hm := h.m_pos
  induction k generalizing r with
  | zero => left; rw [pow_zero, div_one]; exact ⟨rfl, hr.2⟩
  | succ k ih =>
    have e : r / m ^ (k + 1) = r / m / m ^ k := by rw [div_div, pow_succ']
    rw [rescaleBackOf, e]
    by_cases hq : |r / m| ≤ f.big
    · rw [h.mul_up hr.1 hq]
      have := ih ⟨h.up r hr.1, hq⟩
      have es : r / m < 0 ↔ r < 0 := by rw [div_lt_iff₀ hm, zero_mul]
      rwa [es] at this
    · right
      have e2 : (fin r * fin (1 / m) : FP f) = inf (decide (r < 0)) := by
        change ofReal f (r * (1 / m)) = _
        unfold ofReal
        rw [mul_one_div, h.up r hr.1, if_neg hq]
        simp only [div_lt_iff₀ hm, zero_mul]
      have binf : ∀ (b : Bool) (k : Nat), rescaleBackOf (fin (1 / m) : FP f) k (inf b) = inf b := by
        intro b k
        have hpos : 0 < 1 / m := by positivity
        induction k with
        | zero => rfl
        | succ k ih =>
          rw [rescaleBackOf]
          have e : (inf b * fin (1 / m) : FP f) = inf b := by
            change FP.mul (inf b) (fin (1 / m)) = _
            unfold FP.mul
            simp [hm.ne', not_lt.2 hm.le]
          rw [e, ih]
      refine ⟨⟨decide (r < 0), by rw [e2, binf], by rw [decide_eq_true_eq]⟩, ?_⟩
      have h1 : m ^ k ≤ 1 := pow_le_one₀ hm.le (by have := h.m_le; linarith)
      have h2 : |r / m| ≤ |r / m / m ^ k| := by
        rw [abs_div (r / m), abs_of_pos (pow_pos hm k), le_div_iff₀ (pow_pos hm k)]
        nlinarith [abs_nonneg (r / m)]
      linarith

/-- What scaling back gives is near the exact result. -/
theorem near_back {k : Nat} {r z ρ : ℝ} (hr : f.Rep r) (hu : u ≤ 1 / 1024) (hρ : 0 ≤ ρ)
    (hρb : ρ ≤ 2 * f.big) (hz : |r / m ^ k - z| ≤ 16 * u * ρ) :
    FP.Near (rescaleBackOf (fin (1 / m) : FP f) k (fin r)) z (16 * u * ρ) := by
  rcases h.back_up_signed k hr with ⟨e, -⟩ | ⟨⟨b, e, hb⟩, hbig⟩
  · rw [e]; exact hz
  · rw [e]
    have h1 : 16 * u * ρ ≤ 16 / 1024 * ρ := mul_le_mul_of_nonneg_right (by linarith) hρ
    have h2 := f.one_le_big
    have hm := pow_pos h.m_pos k
    refine ⟨by linarith [abs_sub_abs_le_abs_sub (r / m ^ k) z], ?_⟩
    rw [hb]
    constructor
    · intro hr0
      rw [abs_of_neg (div_neg_of_neg_of_pos hr0 hm)] at hbig
      linarith [(abs_le.1 hz).1]
    · intro hz0
      by_contra hc
      rw [abs_of_nonneg (div_nonneg (not_lt.1 hc) hm.le)] at hbig
      linarith [(abs_le.1 hz).2]

end Format.Scaled

end StdBLAS

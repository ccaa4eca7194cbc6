import Verif.Lemmas.GivensComplexTail
import Verif.Props.GivensFloat

/-!
# C61: accuracy of the complex `setup_givens_rotation`

`f` is a floating-point format with infinities and NaN, `u` its unit roundoff, `η` half its smallest
positive number, `m` the constant `safmn2` of the code (`2 ^ -485` for `double`) and `s` its constant
`safmin` (`2 ^ -1022`).
-/

namespace StdBLAS
open FP
variable {f : Format} {u η m s : ℝ}

/-- The rotation is unitary and makes the second component zero. -/
theorem C61_setup_givens_complex_target {x : ℂ} (y : ℂ) (hx : x ≠ 0) :
    rotationCos x y ^ 2 + ‖rotationSin x y‖ ^ 2 = 1 ∧
      (rotationCos x y : ℂ) * x + rotationSin x y * y = rotatedFirst x y ∧
      -(starRingEnd ℂ) (rotationSin x y) * x + (rotationCos x y : ℂ) * y = 0 := by
  have hp : 0 < ‖x‖ := norm_pos_iff.2 hx
  have hρ : 0 < pairLength x y := Real.sqrt_pos.2 (by positivity)
  have hρ2 : pairLength x y ^ 2 = ‖x‖ ^ 2 + ‖y‖ ^ 2 := Real.sq_sqrt (by positivity)
  have hxx : x * (starRingEnd ℂ) x = (‖x‖ : ℂ) ^ 2 := by
    rw [Complex.mul_conj, Complex.normSq_eq_norm_sq]; push_cast; ring1
  have hyy : y * (starRingEnd ℂ) y = (‖y‖ : ℂ) ^ 2 := by
    rw [Complex.mul_conj, Complex.normSq_eq_norm_sq]; push_cast; ring1
  have hρ2' : (pairLength x y : ℂ) ^ 2 = (‖x‖ : ℂ) ^ 2 + (‖y‖ : ℂ) ^ 2 := by exact_mod_cast hρ2
  have hp' : (‖x‖ : ℂ) ≠ 0 := by exact_mod_cast hp.ne'
  have hρ' : (pairLength x y : ℂ) ≠ 0 := by exact_mod_cast hρ.ne'
  unfold rotationCos rotationSin rotatedFirst
  generalize pairLength x y = ρ at *
  refine ⟨?_, ?_, ?_⟩
  · rw [norm_div, norm_mul, RCLike.norm_conj, Complex.norm_real, Real.norm_of_nonneg (by positivity)]
    field_simp
    exact hρ2.symm
  · push_cast
    field_simp
    linear_combination hyy - hρ2'
  · rw [map_div₀, map_mul, Complex.conj_conj, Complex.conj_ofReal]
    push_cast
    field_simp
    linear_combination -y * hxx

theorem binary64_big_three : (2 : ℝ) ^ (1023 : ℤ) + (2 : ℝ) ^ (1022 : ℤ) ≤ binary64.big := by
  have e : binary64.big = (2 ^ 53 - 1) * (2 : ℝ) ^ (971 : ℤ) := rfl
  have h1 : (2 : ℝ) ^ (1023 : ℤ) = 2 ^ 52 * (2 : ℝ) ^ (971 : ℤ) := by
    rw [← zpow_natCast, ← zpow_add₀ two_ne_zero]; norm_num
  have h2 : (2 : ℝ) ^ (1022 : ℤ) = 2 ^ 51 * (2 : ℝ) ^ (971 : ℤ) := by
    rw [← zpow_natCast, ← zpow_add₀ two_ne_zero]; norm_num
  rw [e, h1, h2, ← add_mul]
  exact mul_le_mul_of_nonneg_right (by norm_num) (Binary.pow_pos' 971).le

/-- `double`: `safmin` is `2 ^ -1022`. -/
theorem binary64_safeMin : binary64.SafeMin ((2 : ℝ) ^ (-53 : ℤ)) ((2 : ℝ) ^ (-1075 : ℤ))
    ((2 : ℝ) ^ (-485 : ℤ)) ((2 : ℝ) ^ (-1022 : ℤ)) where
  pos := Binary.pow_pos' _
  eta := by rw [← zpow_add₀ two_ne_zero]; norm_num
  inv := by
    have h : (2 : ℝ) ^ (1023 : ℤ) + (2 : ℝ) ^ (1022 : ℤ) ≤ binary64.big := binary64_big_three
    calc (3 : ℝ) = (2 : ℝ) ^ (-1022 : ℤ) * ((2 : ℝ) ^ (1023 : ℤ) + (2 : ℝ) ^ (1022 : ℤ)) := by
          rw [mul_add, ← zpow_add₀ two_ne_zero, ← zpow_add₀ two_ne_zero]; norm_num
      _ ≤ _ := mul_le_mul_of_nonneg_left h (Binary.pow_pos' _).le
  le := by
    rw [← zpow_natCast, ← zpow_mul, ← zpow_one_add₀ two_ne_zero, ← zpow_add₀ two_ne_zero]
    norm_num
  big := by
    have h : (2 : ℝ) ^ (1023 : ℤ) ≤ binary64.big := binary64_big_bounds.1
    refine le_trans ?_ h
    have e : (8 : ℝ) = (2 : ℝ) ^ (3 : ℤ) := by norm_num
    rw [← zpow_natCast, ← zpow_mul, e, ← zpow_sub₀ two_ne_zero]
    exact zpow_le_zpow_right₀ one_le_two (by norm_num)
  u_le := by
    calc (2 : ℝ) ^ (-53 : ℤ) ≤ (2 : ℝ) ^ (-10 : ℤ) := zpow_le_zpow_right₀ one_le_two (by norm_num)
      _ = 1 / 1024 := by norm_num


/-- The rotation of `3 + 4i` and `12i`: its cosine is `5 / 13`. -/
example : rotationCos ⟨3, 4⟩ ⟨0, 12⟩ = 5 / 13 := by
  have h1 : ‖(⟨3, 4⟩ : ℂ)‖ ^ 2 = 25 := by rw [norm_sq_parts]; norm_num
  have h2 : ‖(⟨0, 12⟩ : ℂ)‖ ^ 2 = 144 := by rw [norm_sq_parts]; norm_num
  have h3 : ‖(⟨3, 4⟩ : ℂ)‖ = 5 := by
    rw [← Real.sqrt_sq (norm_nonneg _), h1]
    exact Real.sqrt_eq_iff_mul_self_eq_of_pos (by norm_num) |>.2 (by norm_num)
  have h4 : pairLength ⟨3, 4⟩ ⟨0, 12⟩ = 13 := by
    unfold pairLength
    rw [h1, h2]
    exact Real.sqrt_eq_iff_mul_self_eq_of_pos (by norm_num) |>.2 (by norm_num)
  unfold rotationCos
  rw [h3, h4]

/-- Finite numbers of ordinary magnitude, the first not tiny compared to the second: all results are
finite, and every part of them is accurate.  Missing: the property demands it for all numbers. -/
theorem C61_setup_givens_complex_accuracy_partial (h : f.Scaled u η m) (hs : f.SafeMin u η m s)
    (x y : ℂ) (h1 : m < largestPart x y) (h2 : largestPart x y < 1 / m)
    (hP : 2 * s * max (‖y‖ ^ 2) 1 ≤ ‖x‖ ^ 2) (hyp : FP f → FP f → FP f) (gNan : Bool) (fuel : Nat) :
    ∃ c s1 s2 r1 r2,
      setupGivensCplxOf hyp fuel (fin s : FP f) (fin m) (fin x.re, fin x.im) (fin y.re, fin y.im) gNan =
        some (fin c, (fin s1, fin s2), (fin r1, fin r2)) ∧
      |c - rotationCos x y| ≤ 12 * u * rotationCos x y + η ∧
      |s1 - (rotationSin x y).re| ≤ 40 * u ∧ |s2 - (rotationSin x y).im| ≤ 40 * u ∧
      |r1 - (rotatedFirst x y).re| ≤ 12 * u * |(rotatedFirst x y).re| + η ∧
      |r2 - (rotatedFirst x y).im| ≤ 12 * u * |(rotatedFirst x y).im| + η := by
  obtain ⟨c, s1, s2, r1, r2, e, -, -, rest⟩ := h.tail_complex hs h2.le
    (Format.Scaled.half_le_largest h1.le) (h.test_false hs h2.le hP) hyp (fin m) (fin (1 / m))
    (fin x.re, fin x.im) (fin y.re, fin y.im) 0 0
  refine ⟨c, s1, s2, r1, r2, ?_, rest⟩
  unfold setupGivensCplxOf
  simp only [h.inv_eq, Format.Scaled.scale_complex, Format.Scaled.geOf_fin, decide_eq_true_eq, not_le.2 h1,
    not_le.2 h2, if_false, e, lt_self_iff_false]

namespace Witness
/-- The pair `2 + 3i`, `4 - i` times a power of two. -/
theorem pair_largest {t : ℝ} (ht : 0 < t) : largestPart ⟨2 * t, 3 * t⟩ ⟨4 * t, -t⟩ = 4 * t := by
  unfold largestPart
  rw [abs_neg, abs_of_pos (show 0 < 2 * t by linarith), abs_of_pos (show 0 < 3 * t by linarith),
    abs_of_pos (show 0 < 4 * t by linarith), abs_of_pos ht, max_eq_right (show 2 * t ≤ 3 * t by linarith),
    max_eq_left (show t ≤ 4 * t by linarith), max_eq_right (by linarith)]

theorem pair_norms (t : ℝ) : ‖(⟨2 * t, 3 * t⟩ : ℂ)‖ ^ 2 = 13 * t ^ 2 ∧
    ‖(⟨4 * t, -t⟩ : ℂ)‖ ^ 2 = 17 * t ^ 2 := by
  rw [norm_sq_parts, norm_sq_parts]; constructor <;> ring

theorem three_rep (e : ℤ) (h1 : -1074 ≤ e) (h2 : e ≤ 1021) : binary64.Rep (3 * (2 : ℝ) ^ e) := by
  constructor
  · refine Binary.rnd_eq ⟨3 * 2 ^ (e - Binary.ulpExp 53 (-1074) (3 * (2 : ℝ) ^ e)).toNat, ?_⟩
    have hl : Binary.ulpExp 53 (-1074) (3 * (2 : ℝ) ^ e) ≤ e := by
      unfold Binary.ulpExp
      have : Int.log 2 |3 * (2 : ℝ) ^ e| < e + 2 := by
        have hp := Binary.pow_pos' e
        refine (Int.lt_zpow_iff_log_lt (b := 2) (R := ℝ) (by norm_num)
          (by rw [abs_of_pos (by linarith)]; linarith)).1 ?_
        rw [abs_of_pos (by linarith), Nat.cast_two, zpow_add₀ two_ne_zero]
        norm_num
        linarith
      omega
    push_cast
    rw [mul_assoc, ← zpow_natCast, Int.toNat_of_nonneg (by omega), ← zpow_add₀ two_ne_zero]
    congr 2
    ring
  · have hp := Binary.pow_pos' e
    rw [abs_of_pos (by linarith)]
    have h3 := binary64_big_bounds.1
    have h4 : (2 : ℝ) ^ e ≤ (2 : ℝ) ^ (1021 : ℤ) := zpow_le_zpow_right₀ one_le_two h2
    have h5 : (4 : ℝ) * (2 : ℝ) ^ (1021 : ℤ) = (2 : ℝ) ^ (1023 : ℤ) := by
      rw [show (1023 : ℤ) = 2 + 1021 by norm_num, zpow_add₀ two_ne_zero]; norm_num
    have h6 := Binary.pow_pos' 1021
    generalize (2 : ℝ) ^ (1021 : ℤ) = A at *
    generalize (2 : ℝ) ^ (1023 : ℤ) = B at *
    linarith

theorem pair_rep (e : ℤ) (h1 : -1074 ≤ e) (h2 : e ≤ 1021) :
    binary64.CRep ⟨2 * (2 : ℝ) ^ e, 3 * (2 : ℝ) ^ e⟩ ∧ binary64.CRep ⟨4 * (2 : ℝ) ^ e, -(2 : ℝ) ^ e⟩ := by
  refine ⟨⟨?_, three_rep e h1 h2⟩, ?_, neg_pow_rep e h1 (by omega)⟩
  · have := pow_rep (1 + e) (by omega) (by omega)
    rwa [zpow_add₀ two_ne_zero, zpow_one] at this
  · have := pow_rep (2 + e) (by omega) (by omega)
    rw [zpow_add₀ two_ne_zero] at this
    norm_num at this
    exact this
end Witness

/-- `2 + 3i` and `4 - i` of type `complex<double>`. -/
example (hyp : FP binary64 → FP binary64 → FP binary64) : ∃ c s1 s2 r1 r2,
    setupGivensCplxOf hyp 0 (fin ((2 : ℝ) ^ (-1022 : ℤ)) : FP binary64) (fin ((2 : ℝ) ^ (-485 : ℤ)))
      (fin 2, fin 3) (fin 4, fin (-1)) false = some (fin c, (fin s1, fin s2), (fin r1, fin r2)) ∧
    |s1 - (rotationSin ⟨2, 3⟩ ⟨4, -1⟩).re| ≤ 40 * (2 : ℝ) ^ (-53 : ℤ) := by
  have hL : largestPart ⟨2, 3⟩ ⟨4, -1⟩ = 4 := by
    have := Witness.pair_largest one_pos
    norm_num at this
    exact this
  obtain ⟨n1, n2⟩ := Witness.pair_norms 1
  norm_num at n1 n2
  have hsm : (2 : ℝ) ^ (-485 : ℤ) ≤ 1 / 8 :=
    (zpow_le_zpow_right₀ one_le_two (show (-485 : ℤ) ≤ -3 by norm_num)).trans (by norm_num)
  have hss : (2 : ℝ) ^ (-1022 : ℤ) ≤ 1 / 8 :=
    (zpow_le_zpow_right₀ one_le_two (show (-1022 : ℤ) ≤ -3 by norm_num)).trans (by norm_num)
  obtain ⟨c, s1, s2, r1, r2, e, _, i, _⟩ := C61_setup_givens_complex_accuracy_partial binary64_scaled
    binary64_safeMin ⟨2, 3⟩ ⟨4, -1⟩ (by rw [hL]; linarith)
    (by rw [hL, lt_div_iff₀ (Binary.pow_pos' _)]; linarith)
    (by rw [n1, n2, max_eq_left (by norm_num)]; linarith) hyp false 0
  exact ⟨c, s1, s2, r1, r2, e, i⟩

/-- Small numbers, if one iteration of the loop suffices (more than `safmn2 ^ 2`, which is `2 ^ -970`
for `double`).  Missing: smaller numbers, for which `r` is wrong (`C14_r_false`). -/
theorem C61_setup_givens_complex_small_accuracy_partial (h : f.Scaled u η m) (hs : f.SafeMin u η m s)
    (x y : ℂ) (hx : f.CRep x) (hy : f.CRep y) (hy0 : y ≠ 0) (h1 : m ^ 2 < largestPart x y)
    (h2 : largestPart x y ≤ m) (hP : 2 * s * max (‖y‖ ^ 2) (m ^ 2) ≤ ‖x‖ ^ 2)
    (hyp : FP f → FP f → FP f) (fuel : Nat) (hf : 1 ≤ fuel) :
    ∃ c s1 s2 r1 r2,
      setupGivensCplxOf hyp fuel (fin s : FP f) (fin m) (fin x.re, fin x.im) (fin y.re, fin y.im) false =
        some (fin c, (fin s1, fin s2), (fin r1, fin r2)) ∧
      |c - rotationCos x y| ≤ 12 * u * rotationCos x y + η ∧
      |s1 - (rotationSin x y).re| ≤ 40 * u ∧ |s2 - (rotationSin x y).im| ≤ 40 * u ∧
      |r1 - (rotatedFirst x y).re| ≤ 12 * u * |(rotatedFirst x y).re| + 3 * η ∧
      |r2 - (rotatedFirst x y).im| ≤ 12 * u * |(rotatedFirst x y).im| + 3 * η := by
  have hm := h.m_pos
  have hrep : f.Rep (largestPart x y) :=
    max_rep (max_rep (h.abs_rep hx.1) (h.abs_rep hx.2)) (max_rep (h.abs_rep hy.1) (h.abs_rep hy.2))
  have ht : 0 < 1 / m := by positivity
  have hLs := Format.Scaled.largestPart_smul ht x y
  have hL0 : m < largestPart (((1 / m : ℝ) : ℂ) * x) (((1 / m : ℝ) : ℂ) * y) := by
    rw [hLs, one_div_mul_eq_div, lt_div_iff₀ hm]; linarith
  have hL : largestPart (((1 / m : ℝ) : ℂ) * x) (((1 / m : ℝ) : ℂ) * y) ≤ 1 / m := by
    rw [hLs, one_div_mul_eq_div]
    exact div_le_div_of_nonneg_right (by have := h.m_le; linarith) hm.le
  have hPX : 2 * s * max (‖((1 / m : ℝ) : ℂ) * y‖ ^ 2) 1 ≤ ‖((1 / m : ℝ) : ℂ) * x‖ ^ 2 := by
    rw [norm_smul_pos ht, norm_smul_pos ht, mul_pow, mul_pow]
    have e : max ((1 / m) ^ 2 * ‖y‖ ^ 2) 1 = (1 / m) ^ 2 * max (‖y‖ ^ 2) (m ^ 2) := by
      rw [mul_max_of_nonneg _ _ (by positivity)]
      congr 1
      field_simp
    rw [e]
    have := mul_le_mul_of_nonneg_left hP (show 0 ≤ (1 / m) ^ 2 by positivity)
    linarith
  obtain ⟨c, s1, s2, r1, r2, e, rest⟩ := h.small_normal hs rfl rfl hL0 hL (h.test_false hs hL hPX) hyp
    (fin x.re, fin x.im) (fin y.re, fin y.im)
  refine ⟨c, s1, s2, r1, r2, ?_, rest⟩
  have hn := Format.Scaled.ne_zero_test (f := f) hy0
  have hlt : ¬ 1 / m ≤ largestPart x y := by have := h.inv_ge; have := h.m_le; linarith
  rw [Complex.re_ofReal_mul, Complex.im_ofReal_mul, Complex.re_ofReal_mul, Complex.im_ofReal_mul,
    one_div_mul_eq_div, one_div_mul_eq_div, one_div_mul_eq_div, one_div_mul_eq_div] at e
  unfold setupGivensCplxOf
  simp only [h.inv_eq, Format.Scaled.scale_complex, Format.Scaled.geOf_fin, decide_eq_true_eq, hlt, h2,
    if_false, if_true, hn, Bool.or_false, Bool.false_eq_true, h.up_once hx hy h1 h2 hrep.1 fuel hf,
    Option.bind_eq_bind, Option.bind_some, e]

/-- `(2 + 3i) * 2 ^ -600` and `(4 - i) * 2 ^ -600`, whose squares are too small for `double`. -/
example (hyp : FP binary64 → FP binary64 → FP binary64) (t : ℝ) (ht : t = (2 : ℝ) ^ (-600 : ℤ)) :
    ∃ c s1 s2 r1 r2,
    setupGivensCplxOf hyp 1 (fin ((2 : ℝ) ^ (-1022 : ℤ)) : FP binary64) (fin ((2 : ℝ) ^ (-485 : ℤ)))
      (fin (2 * t), fin (3 * t)) (fin (4 * t), fin (-t)) false =
        some (fin c, (fin s1, fin s2), (fin r1, fin r2)) := by
  have ht0 : 0 < t := by rw [ht]; exact Binary.pow_pos' _
  obtain ⟨n1, n2⟩ := Witness.pair_norms t
  obtain ⟨q1, q2⟩ := Witness.pair_rep (-600) (by norm_num) (by norm_num)
  rw [← ht] at q1 q2
  have e4 : 4 * t = (2 : ℝ) ^ (-598 : ℤ) := by
    rw [ht, show (-598 : ℤ) = 2 + -600 by norm_num, zpow_add₀ two_ne_zero]; norm_num
  have emm : ((2 : ℝ) ^ (-485 : ℤ)) ^ 2 = (2 : ℝ) ^ (-970 : ℤ) := by
    rw [← zpow_natCast, ← zpow_mul]; norm_num
  have ess : (2 : ℝ) ^ (-1022 : ℤ) ≤ 1 / 16 :=
    (zpow_le_zpow_right₀ one_le_two (show (-1022 : ℤ) ≤ -4 by norm_num)).trans (by norm_num)
  have ett : (2 : ℝ) ^ (-1022 : ℤ) * (2 : ℝ) ^ (-970 : ℤ) ≤ t ^ 2 := by
    rw [ht, ← zpow_natCast, ← zpow_mul, ← zpow_add₀ two_ne_zero]
    exact zpow_le_zpow_right₀ one_le_two (by norm_num)
  obtain ⟨c, s1, s2, r1, r2, e, _⟩ := C61_setup_givens_complex_small_accuracy_partial binary64_scaled
    binary64_safeMin ⟨2 * t, 3 * t⟩ ⟨4 * t, -t⟩ q1 q2 (fun q => by
      have := congrArg Complex.im q
      change -t = 0 at this
      linarith)
    (by rw [Witness.pair_largest ht0, e4, emm]; exact zpow_lt_zpow_right₀ one_lt_two (by norm_num))
    (by rw [Witness.pair_largest ht0, e4]; exact zpow_le_zpow_right₀ one_le_two (by norm_num))
    (by
      rw [n1, n2, emm]
      have h0 : 0 ≤ t ^ 2 := by positivity
      rcases le_total (17 * t ^ 2) ((2 : ℝ) ^ (-970 : ℤ)) with h | h
      · rw [max_eq_right h]; linarith
      · rw [max_eq_left h]
        have := mul_le_mul_of_nonneg_right ess h0
        linarith) hyp 1 le_rfl
  exact ⟨c, s1, s2, r1, r2, e⟩

/-- Large numbers, whose squares may overflow: `cs` and `sn` are finite and accurate, `r` is accurate, or
infinite if it exceeds the largest finite number.  Missing: first numbers that are tiny compared to the
second (and lengths near the largest finite number; see below for others). -/
theorem C61_setup_givens_complex_large_accuracy_partial (h : f.Scaled u η m) (hs : f.SafeMin u η m s)
    (x y : ℂ) (hx : f.CRep x) (hy : f.CRep y) (h1 : 1 / m ≤ largestPart x y)
    (hP : 16 * s * ‖y‖ ^ 2 ≤ ‖x‖ ^ 2) (hx0 : x ≠ 0) (hyp : FP f → FP f → FP f) (gNan : Bool) (fuel : Nat)
    (hf : 2 ≤ fuel) :
    ∃ c s1 s2 r1 r2,
      setupGivensCplxOf hyp fuel (fin s : FP f) (fin m) (fin x.re, fin x.im) (fin y.re, fin y.im) gNan =
        some (fin c, (fin s1, fin s2), (r1, r2)) ∧
      |c - rotationCos x y| ≤ 12 * u * rotationCos x y + 26 * η ∧
      |s1 - (rotationSin x y).re| ≤ 44 * u ∧ |s2 - (rotationSin x y).im| ≤ 44 * u ∧
      r1.Near (rotatedFirst x y).re (16 * u * pairLength x y) ∧
      r2.Near (rotatedFirst x y).im (16 * u * pairLength x y) := by
  have hrep : f.Rep (largestPart x y) :=
    max_rep (max_rep (h.abs_rep hx.1) (h.abs_rep hx.2)) (max_rep (h.abs_rep hy.1) (h.abs_rep hy.2))
  obtain ⟨X, Y, k, el, hk, hL, hL9, dX, dY, -⟩ := h.down_loop hx hy h1 hrep fuel hf
  have ht : 0 < m ^ k := pow_pos h.m_pos k
  have hR := Format.Scaled.half_le_largest hL9
  have hR2 : 81 / 100 ≤ ‖X‖ ^ 2 + ‖Y‖ ^ 2 := by
    have := pow_le_pow_left₀ (by norm_num) hR 2
    unfold pairLength at this
    rw [Real.sq_sqrt (by positivity)] at this
    linarith
  have hPX : 4 * s * max (‖Y‖ ^ 2) 1 ≤ ‖X‖ ^ 2 := by
    refine large_cond hs.u_le hs.pos (h.m_sq_small hs.le hs.u_le) hs.eta h.eta_le_u h.u_nonneg (norm_nonneg X)
      (norm_nonneg Y) (norm_nonneg _) (norm_nonneg _) ((abs_norm_sub_norm_le X _).trans dX)
      ((abs_norm_sub_norm_le Y _).trans dY) ?_ hR2
    rw [norm_smul_pos ht, norm_smul_pos ht, mul_pow, mul_pow]
    have := mul_le_mul_of_nonneg_left hP (show 0 ≤ (m ^ k) ^ 2 by positivity)
    linarith
  have hM : 0 < s * max (‖Y‖ ^ 2) 1 := mul_pos hs.pos (lt_of_lt_of_le one_pos (le_max_right _ _))
  obtain ⟨c, s1, s2, r1, r2, e, rest⟩ := h.large_normal hs hx hy hx0 hk hL hL9 dX dY
    (h.test_false hs hL (by linarith)) hyp (fin x.re, fin x.im) (fin y.re, fin y.im)
  refine ⟨c, s1, s2, r1, r2, ?_, rest⟩
  unfold setupGivensCplxOf
  simp only [h.inv_eq, Format.Scaled.scale_complex, Format.Scaled.geOf_fin, decide_eq_true_eq, h1,
    if_true, el, Option.bind_eq_bind, Option.bind_some, e]

/-- `(2 + 3i) * 2 ^ 1000` and `(4 - i) * 2 ^ 1000`, whose squares overflow. -/
example (hyp : FP binary64 → FP binary64 → FP binary64) (t : ℝ) (ht : t = (2 : ℝ) ^ (1000 : ℤ)) :
    ∃ c s1 s2 r1 r2,
    setupGivensCplxOf hyp 2 (fin ((2 : ℝ) ^ (-1022 : ℤ)) : FP binary64) (fin ((2 : ℝ) ^ (-485 : ℤ)))
      (fin (2 * t), fin (3 * t)) (fin (4 * t), fin (-t)) false =
        some (fin c, (fin s1, fin s2), (r1, r2)) := by
  have ht0 : 0 < t := by rw [ht]; exact Binary.pow_pos' _
  obtain ⟨n1, n2⟩ := Witness.pair_norms t
  obtain ⟨q1, q2⟩ := Witness.pair_rep 1000 (by norm_num) (by norm_num)
  rw [← ht] at q1 q2
  have ess : (2 : ℝ) ^ (-1022 : ℤ) ≤ 1 / 32 :=
    (zpow_le_zpow_right₀ one_le_two (show (-1022 : ℤ) ≤ -5 by norm_num)).trans (by norm_num)
  have ett : (2 : ℝ) ^ (485 : ℤ) ≤ t := by
    rw [ht]; exact zpow_le_zpow_right₀ one_le_two (by norm_num)
  obtain ⟨c, s1, s2, r1, r2, e, _⟩ := C61_setup_givens_complex_large_accuracy_partial binary64_scaled
    binary64_safeMin ⟨2 * t, 3 * t⟩ ⟨4 * t, -t⟩ q1 q2
    (by
      rw [Witness.pair_largest ht0, zpow_neg, one_div, inv_inv]
      exact ett.trans (by linarith only [ht0]))
    (by
      rw [n1, n2]
      have h0 : 0 ≤ t ^ 2 := by positivity
      have := mul_le_mul_of_nonneg_right ess h0
      linarith)
    (fun q => by
      have := congrArg Complex.re q
      change 2 * t = 0 at this
      linarith only [this, ht0]) hyp false 2 le_rfl
  exact ⟨c, s1, s2, r1, r2, e⟩

/-- The second number is zero, and the first is small (or zero): nothing is computed. -/
theorem C61_setup_givens_complex_second_zero_small (h : f.Scaled u η m) (x : ℂ) (hL : largestPart x 0 ≤ m)
    (hyp : FP f → FP f → FP f) (fuel : Nat) (safmin : FP f) :
    setupGivensCplxOf hyp fuel safmin (fin m) (fin x.re, fin x.im) (0, 0) false =
      some (1, (0, 0), (fin x.re, fin x.im)) := by
  have hlt : ¬ 1 / m ≤ largestPart x 0 := by have := h.inv_ge; have := h.m_le; linarith
  have hz : FloatOps.ne (fin (0 : ℂ).re : FP f) 0 = false ∧ FloatOps.ne (fin (0 : ℂ).im : FP f) 0 = false := by
    constructor <;> · change FP.ne (fin 0) (fin 0) = false; simp [FP.ne]
  change setupGivensCplxOf hyp fuel safmin (fin m) (fin x.re, fin x.im) (fin (0 : ℂ).re, fin (0 : ℂ).im) false = _
  unfold setupGivensCplxOf
  simp only [h.inv_eq, Format.Scaled.scale_complex, Format.Scaled.geOf_fin, decide_eq_true_eq, hlt,
    if_false, hL, if_true, hz.1, hz.2, Bool.not_false, Bool.and_self, Bool.true_or]

/-- `2 ^ -1074 * i` and zero. -/
example : setupGivensCplxOf (roundedHypot binary64) 2 (fin ((2 : ℝ) ^ (-1022 : ℤ)) : FP binary64)
      (fin ((2 : ℝ) ^ (-485 : ℤ))) (fin 0, fin ((2 : ℝ) ^ (-1074 : ℤ))) (0, 0) false =
    some (1, (0, 0), (fin 0, fin ((2 : ℝ) ^ (-1074 : ℤ)))) := by
  refine C61_setup_givens_complex_second_zero_small binary64_scaled ⟨0, (2 : ℝ) ^ (-1074 : ℤ)⟩ ?_ _ _ _
  unfold largestPart
  rw [Complex.zero_re, Complex.zero_im, abs_zero, max_self, abs_of_pos (Binary.pow_pos' _),
    max_eq_right (Binary.pow_pos' _).le, max_eq_left (Binary.pow_pos' _).le]
  exact zpow_le_zpow_right₀ one_le_two (by norm_num)

/-- **All finite numbers, the second of which may be zero**, that are not extremely small (the largest part
exceeds `safmn2 ^ 2`) and whose length is at most half the largest finite number: all results are finite and
accurate, also if the first number is tiny compared to the second.  `hypot` is assumed to be accurate.
Missing: extremely small numbers, for which `r` is wrong
(`C61_setup_givens_complex_extremely_small_r_false`), and lengths near overflow. -/
theorem C61_setup_givens_complex_finite_accuracy_partial (h : f.Scaled u η m) (hs : f.SafeMin u η m s)
    (x y : ℂ) (hx : f.CRep x) (hy : f.CRep y) (hx0 : x ≠ 0) (h1 : m ^ 2 < largestPart x y)
    (h2 : pairLength x y ≤ f.big / 2) (hyp : FP f → FP f → FP f) (hh : Hypot hyp u η) (fuel : Nat)
    (hf : 2 ≤ fuel) :
    ∃ c s1 s2 r1 r2,
      setupGivensCplxOf hyp fuel (fin s : FP f) (fin m) (fin x.re, fin x.im) (fin y.re, fin y.im) false =
        some (fin c, (fin s1, fin s2), (fin r1, fin r2)) ∧
      |c - rotationCos x y| ≤ 12 * u * rotationCos x y + 7 * (η / m) ∧
      |s1 - (rotationSin x y).re| ≤ 44 * u ∧ |s2 - (rotationSin x y).im| ≤ 44 * u ∧
      |r1 - (rotatedFirst x y).re| ≤ 30 * u * pairLength x y + 7 * η ∧
      |r2 - (rotatedFirst x y).im| ≤ 30 * u * pairLength x y + 7 * η := by
  have hm := h.m_pos
  have hm4 := h.m_le
  have hu := h.u_nonneg
  have hu' := hs.u_le
  have hη := h.eta_nonneg
  have hηu := h.eta_le_u
  have hb2 := h.two_le_big
  have hηm : 4 * η ≤ η / m := by
    rw [le_div_iff₀ hm]
    have := mul_le_mul_of_nonneg_left hm4 hη
    linarith
  have hηm0 : 0 ≤ η / m := by positivity
  obtain ⟨-, I2, I3, I4, I5⟩ := Format.Scaled.rotation_identity (y := y) hx0
  have hρ0 : 0 ≤ pairLength x y := Real.sqrt_nonneg _
  have uρ : u * pairLength x y ≤ 1 / 1024 * pairLength x y := mul_le_mul_of_nonneg_right hu' hρ0
  have uρ0 : 0 ≤ u * pairLength x y := by positivity
  have hC0 : 0 ≤ u * rotationCos x y := mul_nonneg hu I4
  have R1 : |(rotatedFirst x y).re| ≤ pairLength x y := by rw [← I3]; exact Complex.abs_re_le_norm _
  have R2 : |(rotatedFirst x y).im| ≤ pairLength x y := by rw [← I3]; exact Complex.abs_im_le_norm _
  have U1 := mul_le_mul_of_nonneg_left R1 hu
  have U2 := mul_le_mul_of_nonneg_left R2 hu
  by_cases hy0 : m < largestPart x y ∨ y ≠ 0
  · obtain ⟨X, Y, t, up, down, ht, e, hL, hL1, dX, dY, -, alt⟩ := h.scaled_pair (s := s) hx hy hy0 hyp fuel hf
    rw [e]
    cases htest : geOf (stdMax (abssqOf (fin Y.re, fin Y.im)) 1 * fin s : FP f)
        (abssqOf (fin X.re, fin X.im)) with
    | true =>
      obtain ⟨c, s1, s2, r1, r2, e', i1, i2, i3, i4, i5⟩ := h.tail_tiny hs hh ht hx hx0 h2 hL hL1 dX dY htest
        (fin m) up down
      exact ⟨c, s1, s2, r1, r2, by rw [e'], by linarith, by linarith, by linarith, i4, i5⟩
    | false =>
      rcases alt with ⟨rfl, rfl, rfl, rfl⟩ | ⟨eX, eY, rfl, rfl, -⟩ | ⟨-, -, -, -, c3⟩ | ⟨hk, rfl, rfl, hL9, dX', dY'⟩
      · obtain ⟨c, s1, s2, r1, r2, e', -, -, i1, i2, i3, i4, i5⟩ := h.tail_complex hs hL1
          (Format.Scaled.half_le_largest hL.le) htest hyp (fin m) (fin (1 / m)) (fin X.re, fin X.im)
          (fin Y.re, fin Y.im) 0 0
        refine ⟨c, s1, s2, r1, r2, ?_, by linarith, by linarith, by linarith, by linarith, by linarith⟩
        rw [e', if_neg (lt_irrefl 0), if_neg (lt_irrefl 0)]
      · obtain ⟨c, s1, s2, r1, r2, e', i1, i2, i3, i4, i5⟩ := h.small_normal hs eX eY hL hL1 htest hyp
          (fin x.re, fin x.im) (fin y.re, fin y.im)
        exact ⟨c, s1, s2, r1, r2, by rw [e'], by linarith, by linarith, by linarith, by linarith, by linarith⟩
      · exact absurd h1 (not_lt.2 c3)
      · obtain ⟨c, s1, s2, r1, r2, e', i1, i2, i3, i4, i5⟩ := h.large_normal hs hx hy hx0 hk hL1 hL9 dX' dY'
          htest hyp (fin x.re, fin x.im) (fin y.re, fin y.im)
        have fin1 : ∀ {r : FP f} {z : ℝ}, r.Near z (16 * u * pairLength x y) → |z| ≤ pairLength x y →
            ∃ v, r = fin v ∧ |v - z| ≤ 30 * u * pairLength x y + 7 * η := by
          intro r z hr hz
          cases r with
          | fin v => exact ⟨v, rfl, by have : |v - z| ≤ 16 * u * pairLength x y := hr; linarith⟩
          | inf b => have := hr.1; linarith
          | nan => exact hr.elim
        obtain ⟨v1, rfl, j1⟩ := fin1 i4 R1
        obtain ⟨v2, rfl, j2⟩ := fin1 i5 R2
        exact ⟨c, s1, s2, v1, v2, by rw [e'], by linarith, i2, i3, j1, j2⟩
  · obtain ⟨hL, hy0⟩ := not_or.1 hy0
    obtain rfl : y = 0 := not_not.1 hy0
    obtain ⟨c0, s0, r0⟩ := Format.Scaled.rotation_second_zero hx0
    refine ⟨1, 0, 0, x.re, x.im, C61_setup_givens_complex_second_zero_small h x (not_lt.1 hL) hyp fuel _,
      ?_, ?_, ?_, ?_, ?_⟩
    · rw [c0, sub_self, abs_zero]; positivity
    · rw [s0, Complex.zero_re, sub_self, abs_zero]; positivity
    · rw [s0, Complex.zero_im, sub_self, abs_zero]; positivity
    · rw [r0, sub_self, abs_zero]; positivity
    · rw [r0, sub_self, abs_zero]; positivity

/-- `2 ^ -700 * i` and `3 + 4i`: the square of the first number underflows. -/
example (t : ℝ) (ht : t = (2 : ℝ) ^ (-700 : ℤ)) : ∃ c s1 s2 r1 r2,
    setupGivensCplxOf (roundedHypot binary64) 2 (fin ((2 : ℝ) ^ (-1022 : ℤ)) : FP binary64)
      (fin ((2 : ℝ) ^ (-485 : ℤ))) (fin 0, fin t) (fin 3, fin 4) false =
        some (fin c, (fin s1, fin s2), (fin r1, fin r2)) ∧
    |s1 - (rotationSin ⟨0, t⟩ ⟨3, 4⟩).re| ≤ 44 * (2 : ℝ) ^ (-53 : ℤ) := by
  have ht0 : 0 < t := by rw [ht]; exact Binary.pow_pos' _
  have ht1 : t ≤ 1 := by rw [ht]; exact zpow_le_one_of_nonpos₀ one_le_two (by norm_num)
  have hL : largestPart ⟨0, t⟩ ⟨3, 4⟩ = 4 := by
    unfold largestPart
    rw [abs_zero, abs_of_pos ht0, max_eq_right ht0.le, abs_of_pos (show (0 : ℝ) < 3 by norm_num),
      abs_of_pos (show (0 : ℝ) < 4 by norm_num), max_eq_right (show (3 : ℝ) ≤ 4 by norm_num),
      max_eq_right (by linarith)]
  have hρ : pairLength ⟨0, t⟩ ⟨3, 4⟩ ≤ 6 := by
    unfold pairLength
    rw [Real.sqrt_le_left (by norm_num), norm_sq_parts, norm_sq_parts]
    nlinarith
  have r3 : binary64.Rep 3 := by
    have := Witness.three_rep 0 (by norm_num) (by norm_num)
    rwa [zpow_zero, mul_one] at this
  have r4 : binary64.Rep 4 := by
    have := Witness.pow_rep 2 (by norm_num) (by norm_num)
    rwa [show (2 : ℝ) ^ (2 : ℤ) = 4 by norm_num] at this
  have hmm : ((2 : ℝ) ^ (-485 : ℤ)) ^ 2 ≤ 1 := by
    rw [← zpow_natCast, ← zpow_mul]
    exact zpow_le_one_of_nonpos₀ one_le_two (by norm_num)
  have hbig : (12 : ℝ) ≤ binary64.big := by
    refine le_trans ?_ binary64_big_bounds.1
    calc (12 : ℝ) ≤ (2 : ℝ) ^ (4 : ℤ) := by norm_num
      _ ≤ _ := zpow_le_zpow_right₀ one_le_two (by norm_num)
  obtain ⟨c, s1, s2, r1, r2, e, -, i, -⟩ := C61_setup_givens_complex_finite_accuracy_partial binary64_scaled
    binary64_safeMin ⟨0, t⟩ ⟨3, 4⟩
    ⟨⟨binary64.zero, by rw [abs_zero]; linarith⟩, by rw [ht]; exact Witness.pow_rep _ (by norm_num) (by norm_num)⟩
    ⟨r3, r4⟩ (fun q => by
      have := congrArg Complex.im q
      change t = 0 at this
      linarith) (by rw [hL]; linarith) (by linarith) (roundedHypot binary64)
    (roundedHypot_spec binary64_scaled) 2 le_rfl
  exact ⟨c, s1, s2, r1, r2, e, i⟩

/-- **`cs` and `sn`** are finite and accurate for all finite numbers, however small, the first of which is not
zero (see `C61_setup_givens_complex_zero_first_accuracy`).  Missing: lengths near overflow (for them see
`C61_setup_givens_complex_large_accuracy_partial`). -/
theorem C61_setup_givens_complex_cosine_sine_accuracy_partial (h : f.Scaled u η m) (hs : f.SafeMin u η m s)
    (x y : ℂ) (hx : f.CRep x) (hy : f.CRep y) (hx0 : x ≠ 0)
    (h2 : pairLength x y ≤ f.big / 2) (hyp : FP f → FP f → FP f) (hh : Hypot hyp u η) (fuel : Nat)
    (hf : 2 ≤ fuel) :
    ∃ c s1 s2 r,
      setupGivensCplxOf hyp fuel (fin s : FP f) (fin m) (fin x.re, fin x.im) (fin y.re, fin y.im) false =
        some (fin c, (fin s1, fin s2), r) ∧
      |c - rotationCos x y| ≤ 12 * u * rotationCos x y + 7 * (η / m) ∧
      |s1 - (rotationSin x y).re| ≤ 44 * u ∧ |s2 - (rotationSin x y).im| ≤ 44 * u := by
  by_cases h1 : m ^ 2 < largestPart x y
  · obtain ⟨c, s1, s2, r1, r2, e, i1, i2, i3, -⟩ := C61_setup_givens_complex_finite_accuracy_partial h hs x y
      hx hy hx0 h1 h2 hyp hh fuel hf
    exact ⟨c, s1, s2, (fin r1, fin r2), e, i1, i2, i3⟩
  have hm := h.m_pos
  have hm4 := h.m_le
  have hu := h.u_nonneg
  have hη := h.eta_nonneg
  have hηm : η ≤ η / m := by
    rw [le_div_iff₀ hm]
    have := mul_le_mul_of_nonneg_left hm4 hη
    linarith
  have hLm : largestPart x y ≤ m := by
    have := not_lt.1 h1
    have : m ^ 2 ≤ 1 / 4 * m := by rw [sq]; exact mul_le_mul_of_nonneg_right hm4 hm.le
    linarith
  by_cases hy0 : y = 0
  · obtain rfl := hy0
    obtain ⟨c0, s0, -⟩ := Format.Scaled.rotation_second_zero hx0
    refine ⟨1, 0, 0, (fin x.re, fin x.im), C61_setup_givens_complex_second_zero_small h x hLm hyp fuel _,
      ?_, ?_, ?_⟩
    · rw [c0, sub_self, abs_zero]; positivity
    · rw [s0, Complex.zero_re, sub_self, abs_zero]; positivity
    · rw [s0, Complex.zero_im, sub_self, abs_zero]; positivity
  · have I4 := (Format.Scaled.rotation_identity (y := y) hx0).2.2.2.1
    have hC0 : 0 ≤ u * rotationCos x y := mul_nonneg hu I4
    obtain ⟨X, Y, t, up, down, ht, e, hL, hL1, dX, dY, -, alt⟩ :=
      h.scaled_pair (s := s) hx hy (.inr hy0) hyp fuel hf
    rw [e]
    cases htest : geOf (stdMax (abssqOf (fin Y.re, fin Y.im)) 1 * fin s : FP f)
        (abssqOf (fin X.re, fin X.im)) with
    | true =>
      obtain ⟨c, s1, s2, r1, r2, e', i1, i2, i3, -⟩ := h.tail_tiny hs hh ht hx hx0 h2 hL hL1 dX dY htest
        (fin m) up down
      exact ⟨c, s1, s2, _, by rw [e'], by linarith, by linarith, by linarith⟩
    | false =>
      obtain ⟨c, s1, s2, r1, r2, e', -, -, i1, i2, i3, -⟩ := h.tail_complex hs hL1
          (Format.Scaled.half_le_largest hL.le) htest hyp (fin m) (fin (1 / m)) (fin x.re, fin x.im)
          (fin y.re, fin y.im) up down
      rcases alt with ⟨rfl, rfl, rfl, rfl⟩ | ⟨rfl, rfl, rfl, rfl, -⟩ | ⟨rfl, rfl, rfl, rfl, -⟩ |
          ⟨hk, rfl, rfl, hL9, dX', dY'⟩
      · exact ⟨c, s1, s2, _, by rw [e'], by linarith, by linarith, by linarith⟩
      · have hp : (0 : ℝ) < 1 / m := by positivity
        rw [rotationCos_smul hp] at i1
        rw [rotationSin_smul hp] at i2 i3
        exact ⟨c, s1, s2, _, by rw [e'], by linarith, by linarith, by linarith⟩
      · have hp : (0 : ℝ) < 1 / m / m := by positivity
        rw [rotationCos_smul hp] at i1
        rw [rotationSin_smul hp] at i2 i3
        exact ⟨c, s1, s2, _, by rw [e'], by linarith, by linarith, by linarith⟩
      · obtain ⟨c, s1, s2, r1, r2, e', i1, i2, i3, -⟩ := h.large_normal hs hx hy hx0 hk hL1 hL9 dX' dY'
          htest hyp (fin x.re, fin x.im) (fin y.re, fin y.im)
        have : 4 * η ≤ η / m := by
          rw [le_div_iff₀ hm]
          have := mul_le_mul_of_nonneg_left hm4 hη
          linarith
        exact ⟨c, s1, s2, _, by rw [e'], by linarith, i2, i3⟩

/-- `(2 + 3i) * 2 ^ -1074` and `(4 - i) * 2 ^ -1074`. -/
example (t : ℝ) (ht : t = (2 : ℝ) ^ (-1074 : ℤ)) : ∃ c s1 s2 r,
    setupGivensCplxOf (roundedHypot binary64) 2 (fin ((2 : ℝ) ^ (-1022 : ℤ)) : FP binary64)
      (fin ((2 : ℝ) ^ (-485 : ℤ))) (fin (2 * t), fin (3 * t)) (fin (4 * t), fin (-t)) false =
        some (fin c, (fin s1, fin s2), r) ∧
    |s1 - (rotationSin ⟨2 * t, 3 * t⟩ ⟨4 * t, -t⟩).re| ≤ 44 * (2 : ℝ) ^ (-53 : ℤ) := by
  have ht0 : 0 < t := by rw [ht]; exact Binary.pow_pos' _
  have ht1 : t ≤ 1 := by rw [ht]; exact zpow_le_one_of_nonpos₀ one_le_two (by norm_num)
  obtain ⟨q1, q2⟩ := Witness.pair_rep (-1074) (by norm_num) (by norm_num)
  rw [← ht] at q1 q2
  have hρ : pairLength ⟨2 * t, 3 * t⟩ ⟨4 * t, -t⟩ ≤ 6 := by
    unfold pairLength
    rw [Real.sqrt_le_left (by norm_num), norm_sq_parts, norm_sq_parts]
    nlinarith
  have hbig : (12 : ℝ) ≤ binary64.big := by
    refine le_trans ?_ binary64_big_bounds.1
    calc (12 : ℝ) ≤ (2 : ℝ) ^ (4 : ℤ) := by norm_num
      _ ≤ _ := zpow_le_zpow_right₀ one_le_two (by norm_num)
  obtain ⟨c, s1, s2, r, e, -, i, -⟩ := C61_setup_givens_complex_cosine_sine_accuracy_partial binary64_scaled
    binary64_safeMin ⟨2 * t, 3 * t⟩ ⟨4 * t, -t⟩ q1 q2 (fun q => by
      have := congrArg Complex.re q
      change 2 * t = 0 at this
      linarith) (by linarith) (roundedHypot binary64) (roundedHypot_spec binary64_scaled) 2 le_rfl
  exact ⟨c, s1, s2, r, e, i⟩

/-- For extremely small numbers of similar magnitude `r` is **wrong**: it is near the right value divided by
`safmn2 ^ 2`. -/
theorem C61_setup_givens_complex_extremely_small_r_false (h : f.Scaled u η m) (hs : f.SafeMin u η m s)
    (x y : ℂ) (hx : f.CRep x) (hy : f.CRep y) (hy0 : y ≠ 0) (h1 : largestPart x y ≤ m ^ 2)
    (hxy : ‖y‖ ≤ ‖x‖) (hyp : FP f → FP f → FP f) (fuel : Nat) (hf : 2 ≤ fuel) :
    ∃ cs sn r1 r2,
      setupGivensCplxOf hyp fuel (fin s : FP f) (fin m) (fin x.re, fin x.im) (fin y.re, fin y.im) false =
        some (cs, sn, (fin r1, fin r2)) ∧
      |r1 - (rotatedFirst x y).re / m ^ 2| ≤ 12 * u * |(rotatedFirst x y).re / m ^ 2| + η ∧
      |r2 - (rotatedFirst x y).im / m ^ 2| ≤ 12 * u * |(rotatedFirst x y).im / m ^ 2| + η := by
  have hm := h.m_pos
  have hm4 := h.m_le
  have hmm : m ^ 2 ≤ 1 / 4 * m := by rw [sq]; exact mul_le_mul_of_nonneg_right hm4 hm.le
  obtain ⟨X, Y, t, up, down, ht, e, hL, hL1, dX, dY, -, alt⟩ :=
    h.scaled_pair (s := s) hx hy (.inr hy0) hyp fuel hf
  have hLX : largestPart X Y ≤ max ‖X‖ ‖Y‖ := by
    refine max_le (max_le ?_ ?_) (max_le ?_ ?_)
    · exact (Complex.abs_re_le_norm X).trans (le_max_left _ _)
    · exact (Complex.abs_im_le_norm X).trans (le_max_left _ _)
    · exact (Complex.abs_re_le_norm Y).trans (le_max_right _ _)
    · exact (Complex.abs_im_le_norm Y).trans (le_max_right _ _)
  have hp : (0 : ℝ) < 1 / m / m := by positivity
  obtain ⟨rfl, rfl, rfl, rfl⟩ : X = ((1 / m / m : ℝ) : ℂ) * x ∧ Y = ((1 / m / m : ℝ) : ℂ) * y ∧ up = 0 ∧
      down = 2 := by
    rcases alt with ⟨rfl, rfl, -⟩ | ⟨rfl, rfl, -⟩ | ⟨e1, e2, e3, e4, -⟩ | ⟨hk, rfl, rfl, hL9, dX', dY'⟩
    · linarith
    · rw [Format.Scaled.largestPart_smul (by positivity), one_div_mul_eq_div, lt_div_iff₀ hm] at hL
      linarith
    · exact ⟨e1, e2, e3, e4⟩
    · exfalso
      have hηu := h.eta_le_u
      have hu' := hs.u_le
      obtain ⟨l1, l2, l3, l4⟩ := largestPart_le h1
      have ht1 : m ^ up ≤ 1 := pow_le_one₀ hm.le (by linarith)
      have small : ∀ {Z z : ℂ}, ‖Z - ((m ^ up : ℝ) : ℂ) * z‖ ≤ 4 * η → |z.re| ≤ m ^ 2 → |z.im| ≤ m ^ 2 →
          ‖Z‖ ≤ 1 / 2 := by
        intro Z z d z1 z2
        have k1 := (abs_le.1 ((abs_norm_sub_norm_le Z _).trans d)).2
        have k2 := Complex.norm_le_abs_re_add_abs_im z
        have k3 := mul_le_mul_of_nonneg_right ht1 (norm_nonneg z)
        rw [norm_smul_pos ht] at k1
        linarith
      have k1 := small dX' l1 l2
      have k2 := small dY' l3 l4
      have k3 := max_le k1 k2
      linarith
  have hXY : ‖((1 / m / m : ℝ) : ℂ) * y‖ ≤ ‖((1 / m / m : ℝ) : ℂ) * x‖ := by
    rw [norm_smul_pos hp, norm_smul_pos hp]
    exact mul_le_mul_of_nonneg_left hxy hp.le
  rw [max_eq_left hXY] at hLX
  have hXm : m ^ 2 ≤ ‖((1 / m / m : ℝ) : ℂ) * x‖ ^ 2 := pow_le_pow_left₀ hm.le (hL.le.trans hLX) 2
  have hs2 : 2 * s ≤ m ^ 2 := by
    have k1 := hs.le
    have k2 := mul_le_mul_of_nonneg_right hs.u_le (sq_nonneg m)
    have k3 := sq_nonneg m
    linarith
  have hP : 2 * s * max (‖((1 / m / m : ℝ) : ℂ) * y‖ ^ 2) 1 ≤ ‖((1 / m / m : ℝ) : ℂ) * x‖ ^ 2 := by
    rw [mul_max_of_nonneg _ _ (by linarith [hs.pos])]
    refine max_le ?_ (by linarith)
    calc 2 * s * ‖((1 / m / m : ℝ) : ℂ) * y‖ ^ 2 ≤ 1 * ‖((1 / m / m : ℝ) : ℂ) * y‖ ^ 2 :=
          mul_le_mul_of_nonneg_right (by linarith) (sq_nonneg _)
      _ ≤ _ := by rw [one_mul]; exact pow_le_pow_left₀ (norm_nonneg _) hXY 2
  obtain ⟨c, s1, s2, r1, r2, e', -, -, -, -, -, i4, i5⟩ := h.tail_complex hs hL1
    (Format.Scaled.half_le_largest hL.le) (h.test_false hs hL1 hP) hyp (fin m) (fin (1 / m))
    (fin x.re, fin x.im) (fin y.re, fin y.im) 0 2
  refine ⟨fin c, (fin s1, fin s2), r1, r2, ?_, ?_, ?_⟩
  · rw [e, e', if_neg (lt_irrefl 0), if_pos two_pos]
    rfl
  · rw [rotatedFirst_smul hp, Complex.re_ofReal_mul] at i4
    rwa [show (rotatedFirst x y).re / m ^ 2 = 1 / m / m * (rotatedFirst x y).re by rw [sq]; field_simp]
  · rw [rotatedFirst_smul hp, Complex.im_ofReal_mul] at i5
    rwa [show (rotatedFirst x y).im / m ^ 2 = 1 / m / m * (rotatedFirst x y).im by rw [sq]; field_simp]

/-- `(4 - i) * 2 ^ -1074` and `(2 + 3i) * 2 ^ -1074`: `r` is near the right value times
`2 ^ 970`. -/
example (t : ℝ) (ht : t = (2 : ℝ) ^ (-1074 : ℤ)) : ∃ cs sn r1 r2,
    setupGivensCplxOf (roundedHypot binary64) 2 (fin ((2 : ℝ) ^ (-1022 : ℤ)) : FP binary64)
      (fin ((2 : ℝ) ^ (-485 : ℤ))) (fin (4 * t), fin (-t)) (fin (2 * t), fin (3 * t)) false =
        some (cs, sn, (fin r1, fin r2)) ∧
    |r1 - (rotatedFirst ⟨4 * t, -t⟩ ⟨2 * t, 3 * t⟩).re / ((2 : ℝ) ^ (-485 : ℤ)) ^ 2| ≤
      12 * (2 : ℝ) ^ (-53 : ℤ) * |(rotatedFirst ⟨4 * t, -t⟩ ⟨2 * t, 3 * t⟩).re / ((2 : ℝ) ^ (-485 : ℤ)) ^ 2| +
        (2 : ℝ) ^ (-1075 : ℤ) := by
  have ht0 : 0 < t := by rw [ht]; exact Binary.pow_pos' _
  obtain ⟨q1, q2⟩ := Witness.pair_rep (-1074) (by norm_num) (by norm_num)
  obtain ⟨n1, n2⟩ := Witness.pair_norms t
  rw [← ht] at q1 q2
  have hn : ‖(⟨2 * t, 3 * t⟩ : ℂ)‖ ≤ ‖(⟨4 * t, -t⟩ : ℂ)‖ := by
    refine (pow_le_pow_iff_left₀ (norm_nonneg _) (norm_nonneg _) two_ne_zero).1 ?_
    rw [n1, n2]; nlinarith
  have hL : largestPart ⟨4 * t, -t⟩ ⟨2 * t, 3 * t⟩ = 4 * t := by
    have := Witness.pair_largest ht0
    unfold largestPart at this ⊢
    rwa [max_comm]
  obtain ⟨cs, sn, r1, r2, e, i, -⟩ := C61_setup_givens_complex_extremely_small_r_false binary64_scaled
    binary64_safeMin ⟨4 * t, -t⟩ ⟨2 * t, 3 * t⟩ q2 q1 (fun q => by
      have := congrArg Complex.re q
      change 2 * t = 0 at this
      linarith) (by
      rw [hL, ht, ← zpow_natCast, ← zpow_mul, show (4 : ℝ) = (2 : ℝ) ^ (2 : ℤ) by norm_num,
        ← zpow_add₀ two_ne_zero]
      exact zpow_le_zpow_right₀ one_le_two (by norm_num)) hn (roundedHypot binary64) 2 le_rfl
  exact ⟨cs, sn, r1, r2, e, i⟩

/-- **The first number is zero**, the second any nonzero finite number, however large or small: `cs` is zero,
`sn` is `conj(y) / |y|` and `r` is `|y|`, up to a few rounding errors (`r` is infinite only if `|y|` exceeds
the largest finite number). -/
theorem C61_setup_givens_complex_zero_first_accuracy (h : f.Scaled u η m) (hs : f.SafeMin u η m s)
    (y : ℂ) (hy : f.CRep y) (hy0 : y ≠ 0) (hyp : FP f → FP f → FP f) (hh : Hypot hyp u η) (fuel : Nat)
    (hf : 2 ≤ fuel) :
    ∃ s1 s2 r,
      setupGivensCplxOf hyp fuel (fin s : FP f) (fin m) (0, 0) (fin y.re, fin y.im) false =
        some (0, (fin s1, fin s2), (r, 0)) ∧
      |s1 - y.re / ‖y‖| ≤ 5 * u ∧ |s2 - -y.im / ‖y‖| ≤ 5 * u ∧ r.Near ‖y‖ (2 * u * ‖y‖ + η) := by
  have hu := h.u_nonneg
  have hη := h.eta_le_u
  have h0 : f.CRep 0 := by
    have : f.Rep 0 := ⟨f.zero, by rw [abs_zero]; linarith [f.one_le_big]⟩
    exact ⟨this, this⟩
  obtain ⟨X, Y, t, up, down, ht, e, hL, hL1, dX, dY, hX, -⟩ := h.scaled_pair (s := s) h0 hy (.inr hy0) hyp fuel hf
  obtain rfl := hX rfl
  obtain ⟨-, -, l3, l4⟩ := largestPart_le hL1
  have hLY : largestPart 0 Y ≤ ‖Y‖ := by
    have h1 : (0 : ℝ) ≤ ‖Y‖ := norm_nonneg Y
    refine max_le (max_le ?_ ?_) (max_le (Complex.abs_re_le_norm Y) (Complex.abs_im_le_norm Y))
    · rw [Complex.zero_re, abs_zero]; exact h1
    · rw [Complex.zero_im, abs_zero]; exact h1
  have hY : m ≤ ‖Y‖ := hL.le.trans hLY
  have hq : 0 < ‖Y‖ := lt_of_lt_of_le h.m_pos hY
  have hn : 0 < ‖y‖ := norm_pos_iff.2 hy0
  obtain ⟨s1, s2, e', i1, i2⟩ := h.tail_zero hs hh hY l3 l4 (fin m) (fin (1 / m)) (fin y.re, fin y.im) up down
  have ht' : (t : ℂ) ≠ 0 := by exact_mod_cast ht.ne'
  have hn' : (‖y‖ : ℂ) ≠ 0 := by exact_mod_cast hn.ne'
  have k1 := direction_err (norm_pos_iff.1 hq) (mul_ne_zero ht' hy0)
    (dY.trans (mul_le_mul_of_nonneg_left hLY (by linarith [h.eta_nonneg])))
  have e2 : (t : ℂ) * y / (‖(t : ℂ) * y‖ : ℂ) = y / (‖y‖ : ℂ) := by
    rw [norm_smul_pos ht]; push_cast; field_simp
  have e3 : 2 * (5 * η * ‖Y‖ / ‖Y‖) = 10 * η := by field_simp; ring
  rw [e2, e3] at k1
  have k2 := (Complex.abs_re_le_norm _).trans k1
  have k3 := (Complex.abs_im_le_norm _).trans k1
  rw [Complex.sub_re, Complex.div_ofReal_re, Complex.div_ofReal_re] at k2
  rw [Complex.sub_im, Complex.div_ofReal_im, Complex.div_ofReal_im] at k3
  refine ⟨s1, s2, hyp (fin y.re) (fin y.im), e.trans (congrArg some e'), ?_, ?_, hh y⟩
  · have := abs_sub_le s1 (Y.re / ‖Y‖) (y.re / ‖y‖)
    linarith
  · have := abs_sub_le s2 (-Y.im / ‖Y‖) (-y.im / ‖y‖)
    have e4 : -Y.im / ‖Y‖ - -y.im / ‖y‖ = -(Y.im / ‖Y‖ - y.im / ‖y‖) := by ring
    rw [e4, abs_neg] at this
    linarith

/-- Zero and `(2 + 3i) * 2 ^ -1074`, two of the smallest numbers of `double`. -/
example (t : ℝ) (ht : t = (2 : ℝ) ^ (-1074 : ℤ)) : ∃ s1 s2 r,
    setupGivensCplxOf (roundedHypot binary64) 2 (fin ((2 : ℝ) ^ (-1022 : ℤ)) : FP binary64)
      (fin ((2 : ℝ) ^ (-485 : ℤ))) (0, 0) (fin (2 * t), fin (3 * t)) false =
        some (0, (fin s1, fin s2), (r, 0)) ∧
    |s1 - 2 * t / ‖(⟨2 * t, 3 * t⟩ : ℂ)‖| ≤ 5 * (2 : ℝ) ^ (-53 : ℤ) := by
  have ht0 : 0 < t := by rw [ht]; exact Binary.pow_pos' _
  obtain ⟨q1, -⟩ := Witness.pair_rep (-1074) (by norm_num) (by norm_num)
  rw [← ht] at q1
  obtain ⟨s1, s2, r, e, i, -⟩ := C61_setup_givens_complex_zero_first_accuracy binary64_scaled binary64_safeMin
    ⟨2 * t, 3 * t⟩ q1 (fun q => by
      have := congrArg Complex.re q
      change 2 * t = 0 at this
      linarith) (roundedHypot binary64) (roundedHypot_spec binary64_scaled) 2 le_rfl
  exact ⟨s1, s2, r, e, i⟩

/-- **The first number is tiny** compared to the second: the results are accurate for all magnitudes, also for
extremely small numbers.  Missing: lengths near overflow. -/
theorem C61_setup_givens_complex_tiny_first_accuracy_partial (h : f.Scaled u η m) (hs : f.SafeMin u η m s)
    (x y : ℂ) (hx : f.CRep x) (hy : f.CRep y) (hx0 : x ≠ 0) (hxy : 2 * ‖x‖ ^ 2 ≤ s * ‖y‖ ^ 2)
    (h2 : pairLength x y ≤ f.big / 2) (hyp : FP f → FP f → FP f) (hh : Hypot hyp u η) (fuel : Nat)
    (hf : 2 ≤ fuel) :
    ∃ c s1 s2 r1 r2,
      setupGivensCplxOf hyp fuel (fin s : FP f) (fin m) (fin x.re, fin x.im) (fin y.re, fin y.im) false =
        some (fin c, (fin s1, fin s2), (fin r1, fin r2)) ∧
      |c - rotationCos x y| ≤ 8 * u * rotationCos x y + 5 * (η / m) ∧
      |s1 - (rotationSin x y).re| ≤ 16 * u ∧ |s2 - (rotationSin x y).im| ≤ 16 * u ∧
      |r1 - (rotatedFirst x y).re| ≤ 30 * u * pairLength x y + 7 * η ∧
      |r2 - (rotatedFirst x y).im| ≤ 30 * u * pairLength x y + 7 * η := by
  have hy0 : y ≠ 0 := by
    rintro rfl
    have := pow_pos (norm_pos_iff.2 hx0) 2
    rw [norm_zero] at hxy
    norm_num at hxy
    linarith
  obtain ⟨X, Y, t, up, down, ht, e, hL, hL1, dX, dY, -⟩ := h.scaled_pair (s := s) hx hy (.inr hy0) hyp fuel hf
  rw [e]
  have htest := h.test_true hs hL1 (h.tiny_scaled hs ht dX dY hxy)
  obtain ⟨c, s1, s2, r1, r2, e', rest⟩ := h.tail_tiny hs hh ht hx hx0 h2 hL hL1 dX dY htest (fin m) up down
  exact ⟨c, s1, s2, r1, r2, by rw [e'], rest⟩

/-- `2 ^ -1074 * i` and `(3 + 4i) * 2 ^ -520`. -/
example (t v : ℝ) (ht : t = (2 : ℝ) ^ (-1074 : ℤ)) (hv : v = (2 : ℝ) ^ (-520 : ℤ)) : ∃ c s1 s2 r1 r2,
    setupGivensCplxOf (roundedHypot binary64) 2 (fin ((2 : ℝ) ^ (-1022 : ℤ)) : FP binary64)
      (fin ((2 : ℝ) ^ (-485 : ℤ))) (fin 0, fin t) (fin (3 * v), fin v) false =
        some (fin c, (fin s1, fin s2), (fin r1, fin r2)) ∧
    |s1 - (rotationSin ⟨0, t⟩ ⟨3 * v, v⟩).re| ≤ 16 * (2 : ℝ) ^ (-53 : ℤ) := by
  have ht0 : 0 < t := by rw [ht]; exact Binary.pow_pos' _
  have hv0 : 0 < v := by rw [hv]; exact Binary.pow_pos' _
  have ht1 : t ≤ 1 := by rw [ht]; exact zpow_le_one_of_nonpos₀ one_le_two (by norm_num)
  have hv1 : v ≤ 1 := by rw [hv]; exact zpow_le_one_of_nonpos₀ one_le_two (by norm_num)
  have ht2 : t ^ 2 ≤ (2 : ℝ) ^ (-1022 : ℤ) * v ^ 2 := by
    rw [ht, hv, ← zpow_natCast, ← zpow_mul, ← zpow_natCast, ← zpow_mul, ← zpow_add₀ two_ne_zero]
    exact zpow_le_zpow_right₀ one_le_two (by norm_num)
  have hρ : pairLength ⟨0, t⟩ ⟨3 * v, v⟩ ≤ 6 := by
    unfold pairLength
    rw [Real.sqrt_le_left (by norm_num), norm_sq_parts, norm_sq_parts]
    nlinarith
  have hbig : (12 : ℝ) ≤ binary64.big := by
    refine le_trans ?_ binary64_big_bounds.1
    calc (12 : ℝ) ≤ (2 : ℝ) ^ (4 : ℤ) := by norm_num
      _ ≤ _ := zpow_le_zpow_right₀ one_le_two (by norm_num)
  have hs := Binary.pow_pos' (-1022)
  obtain ⟨c, s1, s2, r1, r2, e, -, i, -⟩ := C61_setup_givens_complex_tiny_first_accuracy_partial binary64_scaled
    binary64_safeMin ⟨0, t⟩ ⟨3 * v, v⟩
    ⟨⟨binary64.zero, by rw [abs_zero]; linarith⟩, by rw [ht]; exact Witness.pow_rep _ (by norm_num) (by norm_num)⟩
    ⟨by rw [hv]; exact Witness.three_rep _ (by norm_num) (by norm_num),
      by rw [hv]; exact Witness.pow_rep _ (by norm_num) (by norm_num)⟩ (fun q => by
      have := congrArg Complex.im q
      change t = 0 at this
      linarith) (by
      rw [norm_sq_parts, norm_sq_parts]
      have := mul_nonneg hs.le (sq_nonneg v)
      generalize (2 : ℝ) ^ (-1022 : ℤ) = w at *
      nlinarith) (by linarith) (roundedHypot binary64)
    (roundedHypot_spec binary64_scaled) 2 le_rfl
  exact ⟨c, s1, s2, r1, r2, e, i⟩

end StdBLAS

import Verif.Spec.BinaryFormat

/-!
# Formats with a relative and an absolute rounding error

What `setup_givens_rotation` needs to know about a floating-point type: how large the rounding errors
are, and that the products with `safmn2` (here `m`) and `1 / safmn2` only change the exponent.
-/

namespace StdBLAS

noncomputable instance {f : Format} : Neg (FP f) := ⟨FP.neg⟩

/-- The format has unit roundoff `u` and absolute error `η` (half the smallest positive number), and
`m` is a power of its base that is small, but not too small. -/
structure Format.Scaled (f : Format) (u η m : ℝ) : Prop where
  /-- Every rounding has a small relative error, except for underflow. -/
  err : ∀ x, |f.rnd x - x| ≤ u * |x| + η
  /-- The numbers are symmetric. -/
  neg : ∀ x, f.rnd x = x → f.rnd (-x) = -x
  /-- A product with `m` is exact, except for underflow. -/
  down : ∀ x, f.rnd x = x → |f.rnd (x * m) - x * m| ≤ η
  /-- A product with `1 / m` is exact (as long as it does not overflow). -/
  up : ∀ x, f.rnd x = x → f.rnd (x / m) = x / m
  rep : f.rnd m = m
  m_pos : 0 < m
  m_le : m ≤ 1 / 4
  u_nonneg : 0 ≤ u
  u_le : u ≤ 1 / 64
  eta_nonneg : 0 ≤ η
  eta_le : η ≤ u * m ^ 2
  big_ge : 4 / m ^ 2 ≤ f.big
  big_le : f.big * m ^ 3 ≤ 1 / 2
  /-- Every positive number is larger than `m ^ 3`. -/
  small : ∀ x, f.rnd x = x → x ≠ 0 → m ^ 3 < |x|

/-- `x` is a finite number of the format. -/
def Format.Rep (f : Format) (x : ℝ) : Prop := f.rnd x = x ∧ |x| ≤ f.big

/-- `v` is within `e` of the real number `x`: a finite number that differs by at most `e`, or an
infinity of the right sign if a number beyond the largest finite one is that near. -/
def FP.Near {f : Format} : FP f → ℝ → ℝ → Prop
  | .fin y, x, e => |y - x| ≤ e
  | .inf s, x, e => f.big < |x| + e ∧ (s = true ↔ x < 0)
  | .nan, _, _ => False

namespace Binary
variable {p : ℕ} {q : ℤ}

theorem ulpExp_neg (x : ℝ) : ulpExp p q (-x) = ulpExp p q x := by unfold ulpExp; rw [abs_neg]

theorem rnd_err (x : ℝ) : |rnd p q x - x| ≤ (2 : ℝ) ^ (ulpExp p q x - 1) := by
  have hp := pow_pos' (ulpExp p q x)
  have h := abs_sub_round (x / (2 : ℝ) ^ ulpExp p q x)
  have e : rnd p q x - x =
      -((x / (2 : ℝ) ^ ulpExp p q x - round (x / (2 : ℝ) ^ ulpExp p q x)) *
        (2 : ℝ) ^ ulpExp p q x) := by
    unfold rnd
    field_simp
    ring
  rw [e, abs_neg, abs_mul, abs_of_pos hp, zpow_sub_one₀ two_ne_zero]
  nlinarith

theorem on_of_eq {x : ℝ} (h : rnd p q x = x) : On (ulpExp p q x) x := by
  have := rnd_on (p := p) (q := q) x
  rwa [h] at this

theorem log_mul_pow {x : ℝ} (hx : x ≠ 0) (k : ℤ) :
    Int.log 2 |x * (2 : ℝ) ^ k| = Int.log 2 |x| + k := by
  have hpos : 0 < |x * (2 : ℝ) ^ k| := abs_pos.2 (mul_ne_zero hx (pow_pos' k).ne')
  have e : |x * (2 : ℝ) ^ k| = |x| * (2 : ℝ) ^ k := by rw [abs_mul, abs_of_pos (pow_pos' k)]
  have h1 := lt_pow_log x
  have h2 := Int.zpow_log_le_self (b := 2) (R := ℝ) (by norm_num) (abs_pos.2 hx)
  have h2' : (2 : ℝ) ^ Int.log 2 |x| ≤ |x| := by exact_mod_cast h2
  apply le_antisymm
  · have := (Int.lt_zpow_iff_log_lt (b := 2) (R := ℝ) (by norm_num) hpos
      (x := Int.log 2 |x| + 1 + k)).1 (by
        push_cast
        rw [e, zpow_add₀ two_ne_zero _ k]
        exact mul_lt_mul_of_pos_right h1 (pow_pos' k))
    omega
  · have := (Int.zpow_le_iff_le_log (b := 2) (R := ℝ) (by norm_num) hpos
      (x := Int.log 2 |x| + k)).1 (by
        push_cast
        rw [e, zpow_add₀ two_ne_zero]
        exact mul_le_mul_of_nonneg_right h2' (pow_pos' k).le)
    omega

theorem on_mul {e : ℤ} {x : ℝ} (h : On e x) (k : ℤ) : On (e + k) (x * (2 : ℝ) ^ k) := by
  obtain ⟨j, rfl⟩ := h
  exact ⟨j, by rw [zpow_add₀ two_ne_zero]; ring⟩

/-- Every binary format with enough digits and exponents, and `m = 2 ^ -k`. -/
theorem scaled (p : ℕ) (q r k : ℤ) (hp : 1 ≤ p) (hq : q ≤ 0) (hr : 0 ≤ r) (hp6 : 6 ≤ p)
    (hk2 : 2 ≤ k) (hkq : q ≤ -k) (h3 : -3 * k < q) (h4 : 2 * k + 2 ≤ p - 1 + r)
    (h5 : p + r - 3 * k ≤ -1) (h6 : q - 1 ≤ -p - 2 * k) :
    (format p q r hp hq hr).Scaled ((2 : ℝ) ^ (-(p : ℤ))) ((2 : ℝ) ^ (q - 1)) ((2 : ℝ) ^ (-k)) where
  err x := by
    change |rnd p q x - x| ≤ _
    by_cases hx : x = 0
    · subst hx
      rw [rnd_zero, sub_zero, abs_zero, mul_zero, zero_add]
      exact (pow_pos' _).le
    refine (rnd_err x).trans ?_
    have hn : 0 ≤ (2 : ℝ) ^ (-(p : ℤ)) * |x| := mul_nonneg (pow_pos' _).le (abs_nonneg x)
    rcases le_total (Int.log 2 |x| + 1 - p) q with h | h
    · have : ulpExp p q x = q := max_eq_right h
      rw [this]; linarith
    · have : ulpExp p q x = Int.log 2 |x| + 1 - p := max_eq_left h
      rw [this]
      have h2 := Int.zpow_log_le_self (b := 2) (R := ℝ) (by norm_num) (abs_pos.2 hx)
      have h2' : (2 : ℝ) ^ Int.log 2 |x| ≤ |x| := by exact_mod_cast h2
      have e : (2 : ℝ) ^ (Int.log 2 |x| + 1 - p - 1) = (2 : ℝ) ^ (-(p : ℤ)) * 2 ^ Int.log 2 |x| := by
        rw [← zpow_add₀ two_ne_zero]; congr 1; ring
      rw [e]
      have := mul_le_mul_of_nonneg_left h2' (pow_pos' (-(p : ℤ))).le
      have := pow_pos' (q - 1)
      linarith
  neg x h := by
    refine rnd_eq ?_
    rw [ulpExp_neg]
    exact (on_of_eq h).neg
  down x h := by
    change |rnd p q _ - _| ≤ _
    by_cases hx : x = 0
    · subst hx
      rw [zero_mul, rnd_zero, sub_zero, abs_zero]
      exact (pow_pos' _).le
    have hl := log_mul_pow hx (-k)
    have ho := on_mul (on_of_eq h) (-k)
    rcases le_total q (Int.log 2 |x| + -k + 1 - p) with h' | h'
    · have e : rnd p q (x * (2 : ℝ) ^ (-k)) = x * (2 : ℝ) ^ (-k) := by
        refine rnd_eq (ho.mono ?_)
        unfold ulpExp
        rw [hl]
        omega
      rw [e, sub_self, abs_zero]
      exact (pow_pos' _).le
    · refine (rnd_err _).trans ?_
      have : ulpExp p q (x * (2 : ℝ) ^ (-k)) = q := by unfold ulpExp; rw [hl]; omega
      rw [this]
  up x h := by
    change rnd p q _ = _
    rw [zpow_neg, div_inv_eq_mul]
    by_cases hx : x = 0
    · subst hx; rw [zero_mul, rnd_zero]
    refine rnd_eq ((on_mul (on_of_eq h) k).mono ?_)
    unfold ulpExp
    rw [log_mul_pow hx]
    omega
  rep := by
    refine rnd_eq (on_pow ?_)
    unfold ulpExp
    rw [abs_of_pos (pow_pos' _), log_pow]
    omega
  m_pos := pow_pos' _
  m_le := by
    calc (2 : ℝ) ^ (-k) ≤ (2 : ℝ) ^ (-2 : ℤ) := zpow_le_zpow_right₀ one_le_two (by omega)
      _ = 1 / 4 := by norm_num
  u_nonneg := (pow_pos' _).le
  u_le := by
    calc (2 : ℝ) ^ (-(p : ℤ)) ≤ (2 : ℝ) ^ (-6 : ℤ) := zpow_le_zpow_right₀ one_le_two (by omega)
      _ = 1 / 64 := by norm_num
  eta_nonneg := (pow_pos' _).le
  eta_le := by
    rw [← zpow_natCast, ← zpow_mul, ← zpow_add₀ two_ne_zero]
    exact zpow_le_zpow_right₀ one_le_two (by push_cast; omega)
  big_ge := by
    change _ ≤ ((2 : ℝ) ^ p - 1) * (2 : ℝ) ^ r
    have e : (4 : ℝ) / ((2 : ℝ) ^ (-k)) ^ 2 = (2 : ℝ) ^ (2 * k + 2) := by
      rw [← zpow_natCast ((2 : ℝ) ^ (-k)), ← zpow_mul]
      have : (4 : ℝ) = (2 : ℝ) ^ (2 : ℤ) := by norm_num
      rw [this, ← zpow_sub₀ two_ne_zero]
      congr 1; push_cast; ring
    rw [e]
    calc (2 : ℝ) ^ (2 * k + 2) ≤ (2 : ℝ) ^ ((p : ℤ) - 1 + r) :=
          zpow_le_zpow_right₀ one_le_two (by omega)
      _ = ((2 : ℝ) ^ p / 2) * (2 : ℝ) ^ r := by
          rw [zpow_add₀ two_ne_zero, zpow_sub_one₀ two_ne_zero, zpow_natCast]; ring
      _ ≤ ((2 : ℝ) ^ p - 1) * (2 : ℝ) ^ r := by
          refine mul_le_mul_of_nonneg_right ?_ (pow_pos' r).le
          have : (2 : ℝ) ^ 1 ≤ 2 ^ p := pow_le_pow_right₀ one_le_two hp
          linarith
  big_le := by
    change ((2 : ℝ) ^ p - 1) * (2 : ℝ) ^ r * _ ≤ _
    have e : ((2 : ℝ) ^ (-k)) ^ 3 = (2 : ℝ) ^ (-3 * k) := by
      rw [← zpow_natCast ((2 : ℝ) ^ (-k)), ← zpow_mul]; congr 1; push_cast; ring
    rw [e]
    calc ((2 : ℝ) ^ p - 1) * (2 : ℝ) ^ r * (2 : ℝ) ^ (-3 * k)
        ≤ (2 : ℝ) ^ p * (2 : ℝ) ^ r * (2 : ℝ) ^ (-3 * k) := by
          refine mul_le_mul_of_nonneg_right ?_ (pow_pos' _).le
          exact mul_le_mul_of_nonneg_right (by linarith) (pow_pos' r).le
      _ = (2 : ℝ) ^ ((p : ℤ) + r - 3 * k) := by
          rw [← zpow_natCast, ← zpow_add₀ two_ne_zero, ← zpow_add₀ two_ne_zero]
          congr 1; ring
      _ ≤ (2 : ℝ) ^ (-1 : ℤ) := zpow_le_zpow_right₀ one_le_two (by omega)
      _ = 1 / 2 := by norm_num
  small x h hx := by
    have e : ((2 : ℝ) ^ (-k)) ^ 3 = (2 : ℝ) ^ (-3 * k) := by
      rw [← zpow_natCast ((2 : ℝ) ^ (-k)), ← zpow_mul]; congr 1; push_cast; ring
    rw [e]
    obtain ⟨j, hj⟩ := on_of_eq h
    have hj0 : j ≠ 0 := by rintro rfl; apply hx; rw [hj]; simp
    calc (2 : ℝ) ^ (-3 * k) < (2 : ℝ) ^ q := zpow_lt_zpow_right₀ one_lt_two h3
      _ ≤ (2 : ℝ) ^ ulpExp p q x := zpow_le_zpow_right₀ one_le_two (le_max_right _ _)
      _ = 1 * (2 : ℝ) ^ ulpExp p q x := (one_mul _).symm
      _ ≤ |(j : ℝ)| * (2 : ℝ) ^ ulpExp p q x := by
          refine mul_le_mul_of_nonneg_right ?_ (pow_pos' _).le
          have := Int.one_le_abs hj0
          exact_mod_cast this
      _ = |x| := by
          conv_rhs => rw [hj]
          rw [abs_mul, abs_of_pos (pow_pos' _)]

end Binary

/-- `double`, with the constants of the code: `safmn2` is `2 ^ -485`. -/
theorem binary64_scaled :
    binary64.Scaled ((2 : ℝ) ^ (-53 : ℤ)) ((2 : ℝ) ^ (-1075 : ℤ)) ((2 : ℝ) ^ (-485 : ℤ)) :=
  Binary.scaled 53 (-1074) 971 485 _ _ _ (by norm_num) (by norm_num) (by norm_num) (by norm_num)
    (by norm_num) (by norm_num) (by norm_num)

/-- `float`: `safmn2` is `2 ^ -51`. -/
theorem binary32_scaled :
    binary32.Scaled ((2 : ℝ) ^ (-24 : ℤ)) ((2 : ℝ) ^ (-150 : ℤ)) ((2 : ℝ) ^ (-51 : ℤ)) :=
  Binary.scaled 24 (-149) 104 51 _ _ _ (by norm_num) (by norm_num) (by norm_num) (by norm_num)
    (by norm_num) (by norm_num) (by norm_num)

end StdBLAS

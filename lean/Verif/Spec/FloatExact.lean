import Verif.Spec.Accurate

/-!
# Data on which floating-point arithmetic makes no rounding error

Integers, and more generally multiples of a fixed unit (prices in cents are not such data, multiples
of 1/64 are).  A `double` holds every integer up to `2^53`, so a sum of integers that stays below that
bound is computed without rounding, whatever the order of the additions.
-/

namespace StdBLAS

/-- The format has the multiples `k * G` of the unit `G`, `|k| ≤ N`. -/
structure Format.Grid (f : Format) (N : ℕ) (G : ℝ) : Prop where
  pos : 0 < G
  rep : ∀ k : ℤ, |k| ≤ N → f.rnd (k * G) = k * G ∧ |(k : ℝ) * G| ≤ f.big

/-- `x` is a multiple of `g`. -/
def Multiple (g x : ℝ) : Prop := ∃ k : ℤ, x = k * g

namespace FP
variable {f : Format}

/-- A finite number that is a multiple of `g`. -/
def On (g : ℝ) : FP f → Prop
  | .fin x => Multiple g x
  | _ => False

/-- `r` is computed from `inputs` without any rounding error: if the inputs are as required, and `w`,
the magnitudes of the terms of the exact value `e` added up, is at most `N * G`, then `r` is `e`. -/
def Exact (N : ℕ) (G : ℝ) (inputs : Prop) (r : FP f) (e w : ℝ) : Prop :=
  inputs → w ≤ N * G → r = .fin e

end FP

namespace Binary

/-- A binary format with `p` bits has all multiples of `2^e` up to `2^p * 2^e`. -/
theorem grid (p : ℕ) (q r e : ℤ) (hp : 1 ≤ p) (hq : q ≤ 0) (hr : 0 ≤ r) (h1 : q ≤ e) (h2 : e < r) :
    (format p q r hp hq hr).Grid (2 ^ p) ((2 : ℝ) ^ e) where
  pos := pow_pos' e
  rep k hk := by
    have hk' : |k| ≤ 2 ^ p := by exact_mod_cast hk
    constructor
    · change rnd p q ((k : ℝ) * (2 : ℝ) ^ e) = _
      by_cases h0 : k = 0
      · subst h0; simpa using rnd_zero
      have h0' : (k : ℝ) ≠ 0 := by exact_mod_cast h0
      have hkr : |(k : ℝ)| ≤ (2 : ℝ) ^ (p : ℤ) := by rw [zpow_natCast]; exact_mod_cast hk'
      have hx0 : (k : ℝ) * (2 : ℝ) ^ e ≠ 0 := mul_ne_zero h0' (pow_pos' e).ne'
      refine rnd_eq ?_
      have habs : |(k : ℝ) * (2 : ℝ) ^ e| = |(k : ℝ)| * (2 : ℝ) ^ e := by
        rw [abs_mul, abs_of_pos (pow_pos' e)]
      rcases hkr.lt_or_eq with h | h
      · have hlt : |(k : ℝ) * (2 : ℝ) ^ e| < (2 : ℝ) ^ ((p : ℤ) + e) := by
          rw [habs, zpow_add₀ two_ne_zero]
          exact mul_lt_mul_of_pos_right h (pow_pos' e)
        have := ulp_le (p := p) (q := q) hx0 hlt
        exact On.mono (by omega) ⟨k, rfl⟩
      · have habs' : |(k : ℝ) * (2 : ℝ) ^ e| = (2 : ℝ) ^ ((p : ℤ) + e) := by
          rw [habs, h, zpow_add₀ two_ne_zero]
        have hu : ulpExp p q ((k : ℝ) * (2 : ℝ) ^ e) ≤ p + e := by
          unfold ulpExp
          rw [habs', log_pow]
          omega
        rcases eq_or_eq_neg_of_abs_eq habs' with h' | h'
        · rw [h'] at hu ⊢; exact on_pow hu
        · rw [h'] at hu ⊢; exact (on_pow hu).neg
    · change _ ≤ (2 ^ p - 1) * (2 : ℝ) ^ r
      have hkr : |(k : ℝ)| ≤ 2 ^ p := by exact_mod_cast hk'
      rw [abs_mul, abs_of_pos (pow_pos' e)]
      obtain ⟨n, hn⟩ := Int.le.dest (show e + 1 ≤ r by omega)
      have h3 : (2 : ℝ) * (2 : ℝ) ^ e ≤ (2 : ℝ) ^ r := by
        rw [← hn, zpow_add₀ two_ne_zero, zpow_add₀ two_ne_zero, zpow_natCast, zpow_one]
        nlinarith [one_le_pow₀ (one_le_two : (1 : ℝ) ≤ 2) (n := n), pow_pos' e]
      have h4 : (2 : ℝ) ≤ 2 ^ p := by
        calc (2 : ℝ) = 2 ^ 1 := by norm_num
          _ ≤ 2 ^ p := pow_le_pow_right₀ (by norm_num) hp
      calc |(k : ℝ)| * (2 : ℝ) ^ e ≤ 2 ^ p * (2 : ℝ) ^ e :=
            mul_le_mul_of_nonneg_right hkr (pow_pos' e).le
        _ ≤ (2 ^ p - 1) * (2 * (2 : ℝ) ^ e) := by nlinarith [pow_pos' e]
        _ ≤ _ := mul_le_mul_of_nonneg_left h3 (by linarith)

end Binary

/-- `double` has the multiples of `2^e` up to `2^53 * 2^e`. -/
theorem binary64_grid (e : ℤ) (h1 : -1074 ≤ e) (h2 : e < 971) :
    binary64.Grid (2 ^ 53) ((2 : ℝ) ^ e) :=
  Binary.grid 53 (-1074) 971 e _ _ _ h1 h2

/-- `float` has the multiples of `2^e` up to `2^24 * 2^e`. -/
theorem binary32_grid (e : ℤ) (h1 : -149 ≤ e) (h2 : e < 104) :
    binary32.Grid (2 ^ 24) ((2 : ℝ) ^ e) :=
  Binary.grid 24 (-149) 104 e _ _ _ h1 h2

/-- `double` has the integers up to `2^53`. -/
theorem binary64_integers : binary64.Grid (2 ^ 53) (1 * 1) := by
  have := binary64_grid 0 (by norm_num) (by norm_num)
  rwa [zpow_zero, ← mul_one 1] at this

end StdBLAS

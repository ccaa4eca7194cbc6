import Mathlib.Data.Int.Log
import Mathlib.Algebra.Order.Round
import Mathlib.Tactic.FieldSimp
import Mathlib.Tactic.Positivity
import Mathlib.Tactic.NormNum
import Mathlib.Tactic.Ring
import Verif.Spec.Ieee

/-!
# Binary floating-point formats, with subnormal numbers

Round to nearest multiple of the unit in the last place (ties upwards).  `binary64` is the format of
`double`.
-/

namespace StdBLAS
namespace Binary

/-- Exponent of the unit in the last place of `x`: `p` significant digits, but not below `q`. -/
noncomputable def ulpExp (p : ℕ) (q : ℤ) (x : ℝ) : ℤ := max (Int.log 2 |x| + 1 - p) q

/-- The nearest multiple of the unit in the last place. -/
noncomputable def rnd (p : ℕ) (q : ℤ) (x : ℝ) : ℝ :=
  round (x / (2 : ℝ) ^ ulpExp p q x) * (2 : ℝ) ^ ulpExp p q x

variable {p : ℕ} {q : ℤ}

theorem pow_pos' (e : ℤ) : (0 : ℝ) < (2 : ℝ) ^ e := zpow_pos two_pos _

theorem round_mono {a b : ℝ} (h : a ≤ b) : round a ≤ round b := by
  rw [round_eq, round_eq]
  exact Int.floor_le_floor (by linarith)

/-- `x` is a multiple of `2 ^ e`. -/
def On (e : ℤ) (x : ℝ) : Prop := ∃ k : ℤ, x = k * (2 : ℝ) ^ e

theorem On.mono {e e' : ℤ} {x : ℝ} (he : e ≤ e') (h : On e' x) : On e x := by
  obtain ⟨k, rfl⟩ := h
  obtain ⟨n, rfl⟩ := Int.le.dest he
  refine ⟨k * 2 ^ n, ?_⟩
  rw [zpow_add₀ two_ne_zero, zpow_natCast]
  push_cast
  ring

theorem On.neg {e : ℤ} {x : ℝ} (h : On e x) : On e (-x) := by
  obtain ⟨k, rfl⟩ := h
  exact ⟨-k, by push_cast; ring⟩

theorem on_pow {e e' : ℤ} (he : e ≤ e') : On e ((2 : ℝ) ^ e') :=
  On.mono he ⟨1, by simp⟩

theorem on_int {e : ℤ} (he : e ≤ 0) (k : ℤ) : On e (k : ℝ) := On.mono he ⟨k, by simp⟩

theorem rnd_on (x : ℝ) : On (ulpExp p q x) (rnd p q x) := ⟨_, rfl⟩

theorem le_rnd {x N : ℝ} (hN : On (ulpExp p q x) N) (h : N ≤ x) : N ≤ rnd p q x := by
  obtain ⟨k, rfl⟩ := hN
  unfold rnd
  have hp := pow_pos' (ulpExp p q x)
  refine mul_le_mul_of_nonneg_right ?_ hp.le
  have : (k : ℝ) ≤ x / (2 : ℝ) ^ ulpExp p q x := (le_div_iff₀ hp).2 h
  have h2 := round_mono this
  rw [round_intCast] at h2
  exact_mod_cast h2

theorem rnd_le {x N : ℝ} (hN : On (ulpExp p q x) N) (h : x ≤ N) : rnd p q x ≤ N := by
  obtain ⟨k, rfl⟩ := hN
  unfold rnd
  have hp := pow_pos' (ulpExp p q x)
  refine mul_le_mul_of_nonneg_right ?_ hp.le
  have : x / (2 : ℝ) ^ ulpExp p q x ≤ k := (div_le_iff₀ hp).2 h
  have h2 := round_mono this
  rw [round_intCast] at h2
  exact_mod_cast h2

theorem rnd_eq {x : ℝ} (h : On (ulpExp p q x) x) : rnd p q x = x :=
  le_antisymm (rnd_le h le_rfl) (le_rnd h le_rfl)

/-- If the unit of `y` is larger than that of `x`, a power of two separates `|x|` and `|y|`. -/
theorem separate {x y : ℝ} (hp : 1 ≤ p) (hx : x ≠ 0) (hy0 : y ≠ 0)
    (h : ulpExp p q x < ulpExp p q y) :
    ∃ m : ℤ, |x| < (2 : ℝ) ^ m ∧ (2 : ℝ) ^ m ≤ |y| ∧ ulpExp p q y ≤ m := by
  have hy : Int.log 2 |x| < Int.log 2 |y| ∧ ulpExp p q y = Int.log 2 |y| + 1 - p := by
    unfold ulpExp at *
    omega
  refine ⟨Int.log 2 |y|, ?_, ?_, by omega⟩
  · have := (Int.lt_zpow_iff_log_lt (b := 2) (R := ℝ) (by norm_num) (abs_pos.2 hx)
      (x := Int.log 2 |y|)).2 hy.1
    exact_mod_cast this
  · have := Int.zpow_log_le_self (b := 2) (R := ℝ) (by norm_num) (abs_pos.2 hy0)
    exact_mod_cast this

theorem on_zero (e : ℤ) : On e 0 := ⟨0, by simp⟩

theorem rnd_zero : rnd p q 0 = 0 := rnd_eq (on_zero _)

theorem rnd_mono (hp : 1 ≤ p) : Monotone (rnd p q) := by
  intro x y hxy
  by_cases hx : x = 0
  · subst hx; rw [rnd_zero]; exact le_rnd (on_zero _) hxy
  by_cases hy : y = 0
  · subst hy; rw [rnd_zero]; exact rnd_le (on_zero _) hxy
  rcases lt_trichotomy (ulpExp p q x) (ulpExp p q y) with h | h | h
  · obtain ⟨m, h1, h2, h3⟩ := separate hp hx hy h
    have hy0 : 0 < y := by
      rcases lt_or_gt_of_ne hy with hn | hn
      · rw [abs_of_neg hn] at h2
        rw [abs_of_neg (by linarith)] at h1
        linarith
      · exact hn
    rw [abs_of_pos hy0] at h2
    have h4 : x < 2 ^ m := lt_of_le_of_lt (le_abs_self _) h1
    exact (rnd_le (on_pow (by omega)) h4.le).trans (le_rnd (on_pow h3) h2)
  · unfold rnd
    rw [h]
    refine mul_le_mul_of_nonneg_right ?_ (pow_pos' _).le
    exact_mod_cast round_mono (div_le_div_of_nonneg_right hxy (pow_pos' _).le)
  · obtain ⟨m, h1, h2, h3⟩ := separate hp hy hx h
    have hx0 : x < 0 := by
      rcases lt_or_gt_of_ne hx with hn | hn
      · exact hn
      · rw [abs_of_pos hn] at h2
        rw [abs_of_pos (by linarith)] at h1
        linarith
    rw [abs_of_neg hx0] at h2
    have h4 : -y < 2 ^ m := lt_of_le_of_lt (neg_le_abs _) h1
    exact (rnd_le (on_pow h3).neg (by linarith)).trans
      (le_rnd (on_pow (by omega)).neg (by linarith))

theorem log_pow (m : ℤ) : Int.log 2 ((2 : ℝ) ^ m) = m := by
  have := Int.log_zpow (b := 2) (R := ℝ) (by norm_num) m
  exact_mod_cast this

theorem ulp_le {x : ℝ} {m : ℤ} (hx : x ≠ 0) (h : |x| < (2 : ℝ) ^ m) :
    ulpExp p q x ≤ max (m - p) q := by
  have := (Int.lt_zpow_iff_log_lt (b := 2) (R := ℝ) (by norm_num) (abs_pos.2 hx) (x := m)).1
    (by exact_mod_cast h)
  unfold ulpExp
  omega

theorem lt_pow_log (x : ℝ) : |x| < (2 : ℝ) ^ (Int.log 2 |x| + 1) := by
  have := Int.lt_zpow_succ_log_self (b := 2) (R := ℝ) (by norm_num) |x|
  exact_mod_cast this

theorem rnd_idem (hp : 1 ≤ p) (x : ℝ) : rnd p q (rnd p q x) = rnd p q x := by
  by_cases hz : rnd p q x = 0
  · rw [hz, rnd_zero]
  refine rnd_eq ?_
  generalize hm : max (Int.log 2 |x| + 1) (ulpExp p q x) = m
  have hxm : |x| < (2 : ℝ) ^ m :=
    lt_of_lt_of_le (lt_pow_log x) (zpow_le_zpow_right₀ one_le_two (by omega))
  have hem : ulpExp p q x ≤ m := by omega
  have hq : q ≤ ulpExp p q x := le_max_right _ _
  have hle : |rnd p q x| ≤ (2 : ℝ) ^ m := by
    rw [abs_le]
    have := abs_lt.1 hxm
    exact ⟨le_rnd (on_pow hem).neg this.1.le, rnd_le (on_pow hem) this.2.le⟩
  rcases hle.lt_or_eq with h | h
  · refine On.mono ?_ (rnd_on x)
    have := ulp_le (p := p) (q := q) hz h
    have h2 : Int.log 2 |x| + 1 - p ≤ ulpExp p q x := le_max_left _ _
    omega
  · have e : ulpExp p q (rnd p q x) ≤ m := by
      unfold ulpExp at *
      rw [h, log_pow]
      omega
    rcases eq_or_eq_neg_of_abs_eq h with h' | h'
    · generalize rnd p q x = z at *
      rw [h'] at e ⊢
      exact on_pow e
    · generalize rnd p q x = z at *
      rw [h'] at e ⊢
      exact (on_pow e).neg

/-- The integers up to `2 ^ p` are numbers of the format. -/
theorem rnd_int (hp : 1 ≤ p) (hq : q ≤ 0) (k : ℤ) (hk : |k| ≤ 2 ^ p) : rnd p q k = k := by
  by_cases h0 : k = 0
  · subst h0; simpa using rnd_zero
  have h0' : (k : ℝ) ≠ 0 := by exact_mod_cast h0
  have hk' : |(k : ℝ)| ≤ (2 : ℝ) ^ (p : ℤ) := by
    rw [zpow_natCast]; exact_mod_cast hk
  refine rnd_eq ?_
  rcases hk'.lt_or_eq with h | h
  · have := ulp_le (p := p) (q := q) h0' h
    exact on_int (by omega) k
  · have e : ulpExp p q (k : ℝ) ≤ p := by
      unfold ulpExp
      rw [h, log_pow]
      omega
    rcases eq_or_eq_neg_of_abs_eq h with h' | h'
    · rw [h'] at e ⊢; exact on_pow e
    · rw [h'] at e ⊢; exact (on_pow e).neg

/-- The format with `p` significant digits, smallest positive number `2 ^ q` and largest finite
number `(2 ^ p - 1) * 2 ^ r`. -/
noncomputable def format (p : ℕ) (q r : ℤ) (hp : 1 ≤ p) (hq : q ≤ 0) (hr : 0 ≤ r) : Format where
  rnd := rnd p q
  big := (2 ^ p - 1) * (2 : ℝ) ^ r
  mono := rnd_mono hp
  idem := rnd_idem hp
  zero := rnd_zero
  one := by
    have := rnd_int hp hq 1 (by simpa using one_le_pow₀ (by norm_num))
    simpa using this
  rnd_big := by
    have h1 : (1 : ℝ) < 2 ^ p := one_lt_pow₀ (by norm_num) (by omega)
    have hpos : 0 < ((2 : ℝ) ^ p - 1) * (2 : ℝ) ^ r := mul_pos (by linarith) (pow_pos' r)
    refine rnd_eq (On.mono (e' := r) ?_ ⟨2 ^ p - 1, by push_cast; ring⟩)
    have hlt : |((2 : ℝ) ^ p - 1) * (2 : ℝ) ^ r| < (2 : ℝ) ^ ((p : ℤ) + r) := by
      rw [abs_of_pos hpos, zpow_add₀ two_ne_zero, zpow_natCast]
      exact mul_lt_mul_of_pos_right (by linarith) (pow_pos' r)
    have := ulp_le (p := p) (q := q) hpos.ne' hlt
    omega
  one_le_big := by
    have h1 : (2 : ℝ) ≤ 2 ^ p := by
      calc (2 : ℝ) = 2 ^ 1 := by norm_num
        _ ≤ 2 ^ p := pow_le_pow_right₀ (by norm_num) hp
    have h2 : (1 : ℝ) ≤ (2 : ℝ) ^ r := one_le_zpow₀ (by norm_num) hr
    nlinarith

end Binary

/-- `double`. -/
noncomputable def binary64 : Format :=
  Binary.format 53 (-1074) 971 (by norm_num) (by norm_num) (by norm_num)

/-- `float`. -/
noncomputable def binary32 : Format :=
  Binary.format 24 (-149) 104 (by norm_num) (by norm_num) (by norm_num)

end StdBLAS

import Verif.Lemmas.GivensExact
import Verif.Lemmas.GivensSpecial
import Verif.Props.Givens

/-!
# C61: `setup_givens_rotation` in floating-point arithmetic

`f` is a floating-point format with infinities and NaN, `u` its unit roundoff, `η` half its smallest
positive number and `m` the constant `safmn2` of the code (`2 ^ -485` for `double`).  `ρ` is the
length `√(x² + y²)` of the vector.  `none` means that a loop of the code does not end within `fuel`
iterations.
-/

namespace StdBLAS
open FP
variable {f : Format} {u η m : ℝ}

/-- The sign that the code gives to the rotation: `cs` is positive if `|x| > |y|`. -/
noncomputable def rotationSign (x y : ℝ) : ℝ := open Classical in
  if |y| < |x| ∧ x < 0 then -1 else 1

/-- For all finite numbers, of any magnitude: the call ends (two iterations of a loop suffice), `cs`
and `sn` are finite and as accurate as if computed without overflow and with underflow only at the
end, and `r` is accurate, or infinite if the length exceeds the largest finite number. -/
theorem C61_setup_givens_real_accuracy (h : f.Scaled u η m) (x y : ℝ) (hx : f.Rep x) (hy : f.Rep y)
    (hx0 : x ≠ 0) (hy0 : y ≠ 0) (fuel : Nat) (hf : 2 ≤ fuel) :
    ∃ c s r, setupGivensOf fuel (fin m : FP f) (fin x) (fin y) = some (fin c, fin s, r) ∧
      |c - rotationSign x y * x / √(x ^ 2 + y ^ 2)| ≤ 10 * u * |x / √(x ^ 2 + y ^ 2)| + 4 * η ∧
      |s - rotationSign x y * y / √(x ^ 2 + y ^ 2)| ≤ 10 * u * |y / √(x ^ 2 + y ^ 2)| + 4 * η ∧
      r.Near (rotationSign x y * √(x ^ 2 + y ^ 2)) (7 * u * √(x ^ 2 + y ^ 2) + 2 * η) := by
  obtain ⟨c, s, r, e, hc, hs, hr⟩ := h.core hx hy hx0 fuel hf
  have n1 : FloatOps.ne (fin y : FP f) 0 = true := by
    change FP.ne (fin y) (fin 0) = true; simp [FP.ne, hy0]
  have n2 : FloatOps.ne (fin x : FP f) 0 = true := by
    change FP.ne (fin x) (fin 0) = true; simp [FP.ne, hx0]
  have l1 : FloatOps.lt (FloatOps.abs (fin y : FP f)) (FloatOps.abs (fin x)) = decide (|y| < |x|) :=
    rfl
  have l2 : FloatOps.lt (fin c : FP f) 0 = decide (c < 0) := rfl
  have hρ : 0 < √(x ^ 2 + y ^ 2) := Real.sqrt_pos.2 (by positivity)
  unfold setupGivensOf
  rw [n1, n2, e]
  simp only [Bool.not_true, Bool.false_eq_true, if_false, Option.bind_eq_bind, Option.bind_some, l1,
    l2, Bool.and_eq_true, decide_eq_true_eq]
  by_cases hxy : |y| < |x|
  · have hsign := h.cosine_sign hxy hc
    by_cases hc0 : c < 0
    · have hx' := hsign.1 hc0
      have es : rotationSign x y = -1 := if_pos ⟨hxy, hx'⟩
      refine ⟨-c, -s, -r, by rw [if_pos ⟨hxy, hc0⟩]; rfl, ?_, ?_, ?_⟩
      · rw [es, show -c - -1 * x / √(x ^ 2 + y ^ 2) = -(c - x / √(x ^ 2 + y ^ 2)) by ring, abs_neg]
        exact hc
      · rw [es, show -s - -1 * y / √(x ^ 2 + y ^ 2) = -(s - y / √(x ^ 2 + y ^ 2)) by ring, abs_neg]
        exact hs
      · rw [es]
        cases r with
        | fin z =>
          change |-z - _| ≤ _
          rw [show -z - -1 * √(x ^ 2 + y ^ 2) = -(z - √(x ^ 2 + y ^ 2)) by ring, abs_neg]
          exact hr
        | inf t =>
          refine ⟨?_, ?_⟩
          · rw [abs_mul, abs_neg, abs_one, one_mul]; exact hr.1
          · have ht : t = false := by
              cases t with
              | false => rfl
              | true => exact absurd (hr.2.1 rfl) (not_lt.2 hρ.le)
            subst ht
            simp only [Bool.not_false, true_iff]
            linarith
        | nan => exact hr
    · have hx' : ¬ x < 0 := fun q => hc0 (hsign.2 q)
      have es : rotationSign x y = 1 := if_neg fun q => hx' q.2
      refine ⟨c, s, r, by rw [if_neg fun q => hc0 q.2], ?_, ?_, ?_⟩
      · rw [es, one_mul]; exact hc
      · rw [es, one_mul]; exact hs
      · rw [es, one_mul]; exact hr
  · have es : rotationSign x y = 1 := if_neg fun q => hxy q.1
    refine ⟨c, s, r, by rw [if_neg fun q => hxy q.1], ?_, ?_, ?_⟩
    · rw [es, one_mul]; exact hc
    · rw [es, one_mul]; exact hs
    · rw [es, one_mul]; exact hr

namespace Witness
/-- Powers of two are finite numbers of type `double`. -/
theorem pow_rep (e : ℤ) (h1 : -1074 ≤ e) (h2 : e ≤ 1023) : binary64.Rep ((2 : ℝ) ^ e) := by
  refine ⟨binary64_pow e h1, ?_⟩
  rw [abs_of_pos (Binary.pow_pos' e)]
  exact (zpow_le_zpow_right₀ one_le_two h2).trans binary64_big_bounds.1

theorem neg_pow_rep (e : ℤ) (h1 : -1074 ≤ e) (h2 : e ≤ 1023) : binary64.Rep (-(2 : ℝ) ^ e) :=
  ⟨binary64_scaled.neg _ (pow_rep e h1 h2).1, by rw [abs_neg]; exact (pow_rep e h1 h2).2⟩
end Witness

/-- The number `-(2 ^ 1023)`, whose square overflows, and `2 ^ -1074`, the smallest positive number of
type `double`. -/
example : ∃ c s r, setupGivensOf 2 (fin ((2 : ℝ) ^ (-485 : ℤ)) : FP binary64)
      (fin (-(2 : ℝ) ^ (1023 : ℤ))) (fin ((2 : ℝ) ^ (-1074 : ℤ))) = some (fin c, fin s, r) := by
  obtain ⟨c, s, r, e, _⟩ := C61_setup_givens_real_accuracy binary64_scaled _ _
    (Witness.neg_pow_rep 1023 (by norm_num) (by norm_num))
    (Witness.pow_rep (-1074) (by norm_num) (by norm_num)) (neg_ne_zero.2 (Binary.pow_pos' _).ne')
    (Binary.pow_pos' _).ne' 2 le_rfl
  exact ⟨c, s, r, e⟩

/-- The result is a rotation up to rounding (`c² + s²` is nearly one) and makes the second component
nearly zero: `-s x + c y` is small compared to the length of the vector. -/
theorem C61_setup_givens_real_rotation (h : f.Scaled u η m) (x y : ℝ) (hx : f.Rep x) (hy : f.Rep y)
    (hx0 : x ≠ 0) (hy0 : y ≠ 0) (fuel : Nat) (hf : 2 ≤ fuel) :
    ∃ c s r, setupGivensOf fuel (fin m : FP f) (fin x) (fin y) = some (fin c, fin s, r) ∧
      |c ^ 2 + s ^ 2 - 1| ≤ 26 * u ∧
      |-s * x + c * y| ≤ 11 * u * √(x ^ 2 + y ^ 2) ∧
      |c * x + s * y - rotationSign x y * √(x ^ 2 + y ^ 2)| ≤ 11 * u * √(x ^ 2 + y ^ 2) := by
  obtain ⟨c, s, r, e, hc, hs, _⟩ := C61_setup_givens_real_accuracy h x y hx hy hx0 hy0 fuel hf
  refine ⟨c, s, r, e, ?_⟩
  have hσ : rotationSign x y ^ 2 = 1 := by unfold rotationSign; split_ifs <;> norm_num
  have hσ1 : |rotationSign x y| = 1 := by unfold rotationSign; split_ifs <;> simp
  generalize rotationSign x y = σ at *
  have hρ : 0 < √(x ^ 2 + y ^ 2) := Real.sqrt_pos.2 (by positivity)
  have hρ2 : √(x ^ 2 + y ^ 2) ^ 2 = x ^ 2 + y ^ 2 := Real.sq_sqrt (by positivity)
  generalize √(x ^ 2 + y ^ 2) = ρ at *
  have hu := h.u_nonneg
  have hu' := h.u_le
  have hη := h.eta_nonneg
  have hη' := h.eta_le_u
  obtain ⟨p, rfl⟩ : ∃ p, x = p * ρ := ⟨x / ρ, by field_simp⟩
  obtain ⟨q, rfl⟩ : ∃ q, y = q * ρ := ⟨y / ρ, by field_simp⟩
  have hpq : p ^ 2 + q ^ 2 = 1 := by
    have : (p ^ 2 + q ^ 2) * ρ ^ 2 = 1 * ρ ^ 2 := by linear_combination -hρ2
    exact mul_right_cancel₀ (by positivity) this
  rw [mul_div_assoc, mul_div_cancel_right₀ _ hρ.ne'] at hc hs
  obtain ⟨a, rfl⟩ : ∃ a, c = σ * p + a := ⟨c - σ * p, by ring⟩
  obtain ⟨b, rfl⟩ : ∃ b, s = σ * q + b := ⟨s - σ * q, by ring⟩
  rw [add_sub_cancel_left] at hc hs
  obtain ⟨sum1, sum2, sum3⟩ := rotation_err hu hu' hη hη' hpq hc hs
  refine ⟨?_, ?_, ?_⟩
  · have e : (σ * p + a) ^ 2 + (σ * q + b) ^ 2 - 1 =
        2 * (σ * (a * p) + σ * (b * q)) + (a ^ 2 + b ^ 2) := by
      linear_combination (p ^ 2 + q ^ 2) * hσ + hpq
    have i1 : |σ * (a * p) + σ * (b * q)| ≤ 10 * u + 8 * η := by
      refine (abs_add_le _ _).trans ?_
      rw [abs_mul, abs_mul, abs_mul, abs_mul, hσ1, one_mul, one_mul]
      exact sum1
    rw [e]
    refine (abs_add_le _ _).trans ?_
    rw [abs_mul, abs_of_nonneg (show 0 ≤ a ^ 2 + b ^ 2 by positivity), abs_two]
    linarith
  · have e : -(σ * q + b) * (p * ρ) + (σ * p + a) * (q * ρ) = (a * q - b * p) * ρ := by ring
    rw [e, abs_mul, abs_of_pos hρ]
    refine mul_le_mul_of_nonneg_right ?_ hρ.le
    refine (abs_sub _ _).trans ?_
    rw [abs_mul, abs_mul]
    linarith
  · have e : (σ * p + a) * (p * ρ) + (σ * q + b) * (q * ρ) - σ * ρ = (a * p + b * q) * ρ := by
      linear_combination σ * ρ * hpq
    rw [e, abs_mul, abs_of_pos hρ]
    refine mul_le_mul_of_nonneg_right ?_ hρ.le
    refine (abs_add_le _ _).trans ?_
    rw [abs_mul, abs_mul]
    linarith

example : ∃ c s r, setupGivensOf 2 (fin ((2 : ℝ) ^ (-485 : ℤ)) : FP binary64)
      (fin (-(2 : ℝ) ^ (1000 : ℤ))) (fin ((2 : ℝ) ^ (999 : ℤ))) = some (fin c, fin s, r) ∧
      |c ^ 2 + s ^ 2 - 1| ≤ 26 * (2 : ℝ) ^ (-53 : ℤ) := by
  obtain ⟨c, s, r, e, h1, _⟩ := C61_setup_givens_real_rotation binary64_scaled _ _
    (Witness.neg_pow_rep 1000 (by norm_num) (by norm_num))
    (Witness.pow_rep 999 (by norm_num) (by norm_num)) (neg_ne_zero.2 (Binary.pow_pos' _).ne')
    (Binary.pow_pos' _).ne' 2 le_rfl
  exact ⟨c, s, r, e, h1⟩

/-! ## Zeros, infinities and NaN -/

/-- If the second number is zero nothing is rotated, whatever the first number is. -/
theorem C61_setup_givens_real_second_zero (fuel : Nat) (safmn2 x : FP f) :
    setupGivensOf fuel safmn2 x 0 = some (1, 0, x) := by
  have : FloatOps.ne (0 : FP f) 0 = false := by
    change FP.ne (fin 0) (fin 0) = false; simp [FP.ne]
  unfold setupGivensOf
  rw [this]
  rfl

/-- If the first number is zero and the second is not, the components are exchanged; the second may
be infinite or NaN. -/
theorem C61_setup_givens_real_first_zero (fuel : Nat) (safmn2 y : FP f) (hy : y ≠ 0) :
    setupGivensOf fuel safmn2 0 y = some (0, 1, y) := by
  have h0 : FloatOps.ne (0 : FP f) 0 = false := by
    change FP.ne (fin 0) (fin 0) = false; simp [FP.ne]
  have h1 : FloatOps.ne y 0 = true := ne_zero_true hy
  unfold setupGivensOf
  rw [h0, h1]
  rfl

example : setupGivensOf 2 (fin ((2 : ℝ) ^ (-485 : ℤ)) : FP binary64) 0 (inf true) =
    some (0, 1, inf true) := C61_setup_givens_real_first_zero _ _ _ (by rintro ⟨⟩)

/-- A NaN in the first number is not lost (unless the second is zero): all results are NaN. -/
theorem C61_setup_givens_real_first_nan (h : f.Scaled u η m) (y : FP f) (hy : y ≠ 0) (fuel : Nat) :
    setupGivensOf fuel (fin m : FP f) nan y = some (nan, nan, nan) := by
  rw [setup_ne (by rintro ⟨⟩) hy]
  have e : givensCore fuel (fin m : FP f) nan y = some (nan, nan, nan) := by
    unfold givensCore
    simp only [h.inv_eq]
    have s : stdMax (FloatOps.abs (nan : FP f)) (FloatOps.abs y) = nan := rfl
    rw [s, geOf_nan, nan_geOf]
    simp only [Bool.false_eq_true, if_false, rotation_nan_left]
  exact setup_nan _ _ e

/-- Nor is a NaN in the second number, unless the first is zero or infinite. -/
theorem C61_setup_givens_real_second_nan (h : f.Scaled u η m) (x : ℝ) (hx : f.Rep x) (hx0 : x ≠ 0)
    (fuel : Nat) (hf : 2 ≤ fuel) :
    setupGivensOf fuel (fin m : FP f) (fin x) nan = some (nan, nan, nan) := by
  rw [setup_ne (fin_ne_zero hx0) (by rintro ⟨⟩)]
  have e : givensCore fuel (fin m : FP f) (fin x) nan = some (nan, nan, nan) := by
    unfold givensCore
    simp only [h.inv_eq]
    have s : stdMax (FloatOps.abs (fin x : FP f)) (FloatOps.abs nan) = fin |x| := rfl
    rw [s]
    simp only [Format.Scaled.geOf_fin, decide_eq_true_eq]
    split_ifs with h1 h2
    · obtain ⟨a, k, e⟩ := h.rescale_down_nan hx h1 fuel hf
      rw [e]
      simp only [Option.bind_eq_bind, Option.bind_some, rotation_nan_right, back_nan]
    · obtain ⟨a, k, e⟩ := h.rescale_up_nan hx hx0 h2 fuel hf
      rw [e]
      simp only [Option.bind_eq_bind, Option.bind_some, rotation_nan_right, back_nan]
    · rw [rotation_nan_right]
  exact setup_nan _ _ e

example : setupGivensOf 2 (fin ((2 : ℝ) ^ (-485 : ℤ)) : FP binary64) (fin ((2 : ℝ) ^ (900 : ℤ))) nan =
    some (nan, nan, nan) :=
  C61_setup_givens_real_second_nan binary64_scaled _ (Witness.pow_rep 900 (by norm_num) (by norm_num))
    (Binary.pow_pos' _).ne' 2 le_rfl

/-- The call never returns if the first number is infinite and the second is not zero: the loop that
makes the numbers smaller cannot make an infinity smaller. -/
theorem C61_setup_givens_real_first_infinite_false (h : f.Scaled u η m) (b : Bool) (y : FP f)
    (hy : y ≠ 0) (fuel : Nat) : setupGivensOf fuel (fin m : FP f) (inf b) y = none := by
  rw [setup_ne (by rintro ⟨⟩) hy]
  have s : stdMax (FloatOps.abs (inf b : FP f)) (FloatOps.abs y) = inf false := stdMax_inf_left _
  have e : givensCore fuel (fin m : FP f) (inf b) y = none := by
    unfold givensCore
    simp only [h.inv_eq]
    rw [s, inf_geOf]
    simp only [if_true, h.loop_left fuel b y 0, Option.bind_eq_bind, Option.bind_none]
  rw [e]
  rfl

/-- Nor if the second number is infinite and the first is neither zero nor NaN. -/
theorem C61_setup_givens_real_second_infinite_false (h : f.Scaled u η m) (b : Bool) (x : FP f)
    (hx : x ≠ 0) (hn : x ≠ nan) (fuel : Nat) :
    setupGivensOf fuel (fin m : FP f) x (inf b) = none := by
  rw [setup_ne hx (by rintro ⟨⟩)]
  have s : stdMax (FloatOps.abs x) (FloatOps.abs (inf b : FP f)) = inf false :=
    stdMax_inf_right (abs_ne_nan hn)
  have e : givensCore fuel (fin m : FP f) x (inf b) = none := by
    unfold givensCore
    simp only [h.inv_eq]
    rw [s, inf_geOf]
    simp only [if_true, h.loop_right fuel b x hn 0, Option.bind_eq_bind, Option.bind_none]
  rw [e]
  rfl

/-- For `double`: `setup_givens_rotation(inf, 1.0)` never returns. -/
example (fuel : Nat) : setupGivensOf fuel (fin ((2 : ℝ) ^ (-485 : ℤ)) : FP binary64) (inf false) 1 =
    none :=
  C61_setup_givens_real_first_infinite_false binary64_scaled false 1
    (by change (fin 1 : FP binary64) ≠ fin 0; simp) fuel

/-- A value that a variable of the type can have. -/
def IsNumber (x : FP f) : Prop := ∀ r, x = fin r → f.Rep r

/-- Exactly when the call returns: not if one number is infinite and the other is not zero; the only
other exception is a NaN first number. -/
theorem C61_setup_givens_real_returns (h : f.Scaled u η m) (x y : FP f) (hx : IsNumber x)
    (hy : IsNumber y) :
    (∃ fuel res, setupGivensOf fuel (fin m : FP f) x y = some res) ↔
      ¬((∃ b, x = inf b) ∧ y ≠ 0 ∨ (∃ b, y = inf b) ∧ x ≠ 0 ∧ x ≠ nan) := by
  constructor
  · rintro ⟨fuel, res, e⟩ (⟨⟨b, rfl⟩, hy0⟩ | ⟨⟨b, rfl⟩, hx0, hn⟩)
    · rw [C61_setup_givens_real_first_infinite_false h b y hy0] at e; exact nomatch e
    · rw [C61_setup_givens_real_second_infinite_false h b x hx0 hn] at e; exact nomatch e
  · intro hn
    by_cases hy0 : y = 0
    · subst hy0; exact ⟨2, _, C61_setup_givens_real_second_zero _ _ _⟩
    by_cases hx0 : x = 0
    · subst hx0; exact ⟨2, _, C61_setup_givens_real_first_zero _ _ _ hy0⟩
    cases x with
    | nan => exact ⟨2, _, C61_setup_givens_real_first_nan h y hy0 2⟩
    | inf b => exact absurd (Or.inl ⟨⟨b, rfl⟩, hy0⟩) hn
    | fin a =>
      have ha0 : a ≠ 0 := fun q => hx0 (by rw [q]; rfl)
      cases y with
      | nan => exact ⟨2, _, C61_setup_givens_real_second_nan h a (hx a rfl) ha0 2 le_rfl⟩
      | inf b => exact absurd (Or.inr ⟨⟨b, rfl⟩, hx0, by rintro ⟨⟩⟩) hn
      | fin c =>
        have hc0 : c ≠ 0 := fun q => hy0 (by rw [q]; rfl)
        obtain ⟨_, _, _, e, _⟩ := C61_setup_givens_real_accuracy h a c (hx a rfl) (hy c rfl) ha0 hc0 2
          le_rfl
        exact ⟨2, _, e⟩

/-! ## The complex version -/

/-- The complex version never returns if a real or imaginary part is infinite and none is NaN, even if
the second number is zero. -/
theorem C61_setup_givens_complex_infinite_false (h : f.Scaled u η m) (hyp : FP f → FP f → FP f)
    (safmin : FP f) (x y : FP f × FP f) (gNan : Bool)
    (hn : x.1 ≠ nan ∧ x.2 ≠ nan ∧ y.1 ≠ nan ∧ y.2 ≠ nan)
    (hi : ∃ b, x.1 = inf b ∨ x.2 = inf b ∨ y.1 = inf b ∨ y.2 = inf b) (fuel : Nat) :
    setupGivensCplxOf hyp fuel safmin (fin m) x y gNan = none := by
  have s : stdMax (abs1Of x.1 x.2) (abs1Of y.1 y.2) = inf false := by
    obtain ⟨b, hb⟩ := hi
    have n1 := stdMax_ne_nan (abs_ne_nan hn.1) (FP.abs x.2)
    unfold abs1Of
    rcases hb with hb | hb | hb | hb
    · rw [hb]
      have : stdMax (FloatOps.abs (inf b : FP f)) (FloatOps.abs x.2) = inf false := stdMax_inf_left _
      rw [this]
      exact stdMax_inf_left _
    · rw [hb]
      have : stdMax (FloatOps.abs x.1) (FloatOps.abs (inf b : FP f)) = inf false :=
        stdMax_inf_right (abs_ne_nan hn.1)
      rw [this]
      exact stdMax_inf_left _
    · rw [hb]
      have : stdMax (FloatOps.abs (inf b : FP f)) (FloatOps.abs y.2) = inf false := stdMax_inf_left _
      rw [this]
      exact stdMax_inf_right n1
    · rw [hb]
      have : stdMax (FloatOps.abs y.1) (FloatOps.abs (inf b : FP f)) = inf false :=
        stdMax_inf_right (abs_ne_nan hn.2.2.1)
      rw [this]
      exact stdMax_inf_right n1
  unfold setupGivensCplxOf
  simp only [h.inv_eq]
  rw [s, inf_geOf]
  simp only [if_true, h.loop_cplx, Option.bind_eq_bind, Option.bind_none]

/-- For `complex<double>`: `setup_givens_rotation(complex(inf, 0), complex(0, 0))` never returns. -/
example (hyp : FP binary64 → FP binary64 → FP binary64) (safmin : FP binary64) (fuel : Nat) :
    setupGivensCplxOf hyp fuel safmin (fin ((2 : ℝ) ^ (-485 : ℤ))) (inf false, 0) (0, 0) false = none :=
  C61_setup_givens_complex_infinite_false binary64_scaled hyp safmin _ _ false
    ⟨by rintro ⟨⟩, by rintro ⟨⟩, by rintro ⟨⟩, by rintro ⟨⟩⟩ ⟨false, Or.inl rfl⟩ fuel

/-- For finite numbers it returns: two iterations of a loop suffice.  Missing: the property demands it
for all numbers, which is false, and error bounds. -/
theorem C61_setup_givens_complex_returns_partial (h : f.Scaled u η m) (hyp : FP f → FP f → FP f)
    (safmin : FP f) (a b c d : ℝ) (ha : f.Rep a) (hb : f.Rep b) (hc : f.Rep c) (hd : f.Rep d)
    (gNan : Bool) (fuel : Nat) (hf : 2 ≤ fuel) :
    ∃ res, setupGivensCplxOf hyp fuel safmin (fin m) (fin a, fin b) (fin c, fin d) gNan = some res := by
  have s : stdMax (abs1Of (fin a : FP f) (fin b)) (abs1Of (fin c) (fin d)) =
      fin (max (max |a| |b|) (max |c| |d|)) := by
    unfold abs1Of
    rw [Format.Scaled.scale_fin, Format.Scaled.scale_fin, Format.Scaled.stdMax_fin]
  have hrep : f.Rep (max (max |a| |b|) (max |c| |d|)) := by
    refine max_rep (max_rep ?_ ?_) (max_rep ?_ ?_)
    · exact h.abs_rep ha
    · exact h.abs_rep hb
    · exact h.abs_rep hc
    · exact h.abs_rep hd
  unfold setupGivensCplxOf
  simp only [h.inv_eq]
  rw [s]
  simp only [Format.Scaled.geOf_fin, decide_eq_true_eq]
  split_ifs with h1 h2 h3
  · obtain ⟨fs, gs, k, e⟩ := h.cplx_down hrep fuel hf (fin a, fin b) (fin c, fin d) h1
    rw [e]
    exact ⟨_, rfl⟩
  · exact ⟨_, rfl⟩
  · have hpos : 0 < max (max |a| |b|) (max |c| |d|) := by
      by_contra hn
      have hc0 : |c| ≤ 0 := ((le_max_left _ _).trans (le_max_right _ _)).trans (not_lt.1 hn)
      have hd0 : |d| ≤ 0 := ((le_max_right _ _).trans (le_max_right _ _)).trans (not_lt.1 hn)
      have hc1 : c = 0 := abs_nonpos_iff.1 hc0
      have hd1 : d = 0 := abs_nonpos_iff.1 hd0
      subst hc1 hd1
      apply h3
      have : FloatOps.ne (fin 0 : FP f) 0 = false := by
        change FP.ne (fin 0) (fin 0) = false; simp [FP.ne]
      simp only [this]
      rfl
    obtain ⟨fs, gs, k, e⟩ := h.cplx_up hrep hpos fuel hf (fin a, fin b) (fin c, fin d) h2
    rw [e]
    exact ⟨_, rfl⟩
  · exact ⟨_, rfl⟩

example (hyp : FP binary64 → FP binary64 → FP binary64) (safmin : FP binary64) :
    ∃ res, setupGivensCplxOf hyp 2 safmin (fin ((2 : ℝ) ^ (-485 : ℤ)))
      (fin ((2 : ℝ) ^ (1023 : ℤ)), fin ((2 : ℝ) ^ (-1074 : ℤ)))
      (fin ((2 : ℝ) ^ (0 : ℤ)), fin (-(2 : ℝ) ^ (1 : ℤ))) false = some res :=
  C61_setup_givens_complex_returns_partial binary64_scaled hyp safmin _ _ _ _
    (Witness.pow_rep 1023 (by norm_num) (by norm_num))
    (Witness.pow_rep (-1074) (by norm_num) (by norm_num))
    (Witness.pow_rep 0 (by norm_num) (by norm_num))
    (Witness.neg_pow_rep 1 (by norm_num) (by norm_num)) false 2 le_rfl

/-- Without rounding the complex version is the function of C14, whatever the numbers and constants are:
only rounding, overflow and underflow can make its results differ from what `C14_setup_givens_complex_partial`
says. -/
theorem C61_setup_givens_complex_exact (fuel : Nat) (safmin safmn2 : ℝ) (x y : ℂ) :
    setupGivensCplxOf hypot fuel safmin safmn2 (x.re, x.im) (y.re, y.im) false =
      (setupGivensComplex fuel safmin safmn2 x y).map fun t =>
        (t.1, (t.2.1.re, t.2.1.im), (t.2.2.re, t.2.2.im)) :=
  setupGivensCplxOf_real fuel safmin safmn2 x y

/-- The same for the real version and C13. -/
theorem C61_setup_givens_real_exact (fuel : Nat) (safmn2 x y : ℝ) :
    setupGivensOf fuel safmn2 x y = setupGivensReal fuel safmn2 x y :=
  setupGivensOf_real fuel safmn2 x y

/-- The rotation of `(3 + 4i, 5 - i)` without rounding makes the second component exactly zero. -/
example : ∃ N, ∀ fuel, N ≤ fuel → ∃ c s1 s2 r1 r2, setupGivensCplxOf hypot fuel (1 / 16) (1 / 4 : ℝ) (3, 4)
      (5, -1) false = some (c, (s1, s2), (r1, r2)) ∧
      -(starRingEnd ℂ) ⟨s1, s2⟩ * (⟨3, 4⟩ : ℂ) + (c : ℂ) * ⟨5, -1⟩ = 0 := by
  obtain ⟨N, hN⟩ := C14_setup_givens_complex_partial (1 / 16) (1 / 4) ⟨3, 4⟩ ⟨5, -1⟩ (by norm_num)
    (by norm_num) (by norm_num) (by norm_num)
  refine ⟨N, fun fuel hf => ?_⟩
  obtain ⟨c, s, r, e, h, _⟩ := hN fuel hf
  refine ⟨c, s.re, s.im, r.re, r.im, ?_, h⟩
  rw [C61_setup_givens_complex_exact fuel (1 / 16) (1 / 4) ⟨3, 4⟩ ⟨5, -1⟩, e]
  rfl

end StdBLAS

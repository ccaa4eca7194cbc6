import Verif.Lemmas.GivensFloat

/-! # Error analysis of the complex `setup_givens_rotation` -/

namespace StdBLAS
open FP

section
variable {u η : ℝ}

theorem squares_err_abs {A B S a2 b2 Q : ℝ} (hQ : Q = a2 + b2) (ha : 0 ≤ a2) (hb : 0 ≤ b2) (hu : 0 ≤ u)
    (hu' : u ≤ 1 / 1024) (hη : 0 ≤ η) (hA : |A - a2| ≤ u * a2 + η) (hB : |B - b2| ≤ u * b2 + η)
    (hS : |S - (A + B)| ≤ u * (A + B) + η) : |S - Q| ≤ 3 * u * Q + 4 * η := by
  subst hQ
  have huQ : 0 ≤ u * (a2 + b2) := by positivity
  have huη : u * η ≤ 1 / 1024 * η := mul_le_mul_of_nonneg_right hu' hη
  rw [abs_le] at *
  have h1 : u * (A + B) ≤ u * (a2 + b2 + u * (a2 + b2) + 2 * η) :=
    mul_le_mul_of_nonneg_left (by linarith [hA.2, hB.2]) hu
  have h2 : u * (u * (a2 + b2)) ≤ 1 / 1024 * (u * (a2 + b2)) := mul_le_mul_of_nonneg_right hu' huQ
  constructor <;> linarith [hA.1, hA.2, hB.1, hB.2, hS.1, hS.2]

/-- The quotient of the squared magnitudes. -/
theorem ratio_step {P Q F G t : ℝ} (hu : 0 ≤ u) (hu' : u ≤ 1 / 1024) (hηu : η ≤ u) (hP : 0 < P)
    (hQ : 0 ≤ Q) (hF : |F - P| ≤ 15 / 2 * u * P) (hG : |G - Q| ≤ 3 * u * Q + 5 * u * P)
    (ht : |t - G / F| ≤ u * |G / F| + η) :
    |G / F - Q / P| ≤ 11 * u * (1 + Q / P) ∧ |t - Q / P| ≤ 13 * u * (1 + Q / P) := by
  have hq0 : 0 ≤ Q / P := div_nonneg hQ hP.le
  have eF : |F / P - 1| ≤ 15 / 2 * u := by
    rw [show F / P - 1 = (F - P) / P by field_simp, abs_div, abs_of_pos hP, div_le_iff₀ hP]; exact hF
  have eG : |G / P - Q / P| ≤ 3 * u * (Q / P) + 5 * u := by
    rw [← sub_div, abs_div, abs_of_pos hP, div_le_iff₀ hP]
    have : (3 * u * (Q / P) + 5 * u) * P = 3 * u * Q + 5 * u * P := by field_simp
    rw [this]; exact hG
  have e : G / F = (G / P) / (F / P) := by field_simp
  rw [e] at ht ⊢
  generalize F / P = F' at *
  generalize G / P = G' at *
  generalize Q / P = q at *
  have hF' : 0.99 ≤ F' := by have := (abs_le.1 eF).1; linarith
  have hFp : 0 < F' := by linarith
  have h0 : 0 ≤ u * q := mul_nonneg hu hq0
  have k1 : |G' / F' - q| ≤ 11 * u * (1 + q) := by
    rw [show G' / F' - q = (G' - q * F') / F' by field_simp, abs_div, abs_of_pos hFp,
      div_le_iff₀ hFp]
    have : |G' - q * F'| ≤ 21 / 2 * u * q + 5 * u := by
      rw [show G' - q * F' = (G' - q) - q * (F' - 1) by ring]
      refine (abs_sub _ _).trans ?_
      rw [abs_mul, abs_of_nonneg hq0]
      have := mul_le_mul_of_nonneg_left eF hq0
      linarith
    have h9 := mul_le_mul_of_nonneg_left hF' (show 0 ≤ 11 * u * (1 + q) by positivity)
    linarith
  refine ⟨k1, ?_⟩
  have k2 : |G' / F'| ≤ q + 11 * u * (1 + q) := by
    have := abs_sub_abs_le_abs_sub (G' / F') q
    rw [abs_of_nonneg hq0] at this
    linarith
  have k3 := mul_le_mul_of_nonneg_left k2 hu
  have k4 : u * (11 * u * (1 + q)) ≤ 1 / 1024 * (11 * u * (1 + q)) :=
    mul_le_mul_of_nonneg_right hu' (by positivity)
  have k5 := abs_sub_le t (G' / F') q
  linarith

theorem one_add_step {q t v : ℝ} (hu : 0 ≤ u) (hu' : u ≤ 1 / 1024) (hηu : η ≤ u / 16) (hq : 0 ≤ q)
    (ht : |t - q| ≤ 13 * u * (1 + q)) (hv : |v - (1 + t)| ≤ u * |1 + t| + η) :
    |v - (1 + q)| ≤ 15 * u * (1 + q) := by
  have h0 : 0 ≤ u * q := mul_nonneg hu hq
  have k1 : |1 + t| ≤ (1 + q) + 13 * u * (1 + q) := by
    have := abs_add_le (1 + q) (t - q)
    rw [show 1 + q + (t - q) = 1 + t by ring, abs_of_nonneg (show 0 ≤ 1 + q by linarith)] at this
    linarith
  have k3 := mul_le_mul_of_nonneg_left k1 hu
  have k4 : u * (13 * u * (1 + q)) ≤ 1 / 1024 * (13 * u * (1 + q)) :=
    mul_le_mul_of_nonneg_right hu' (by positivity)
  have k5 := abs_sub_le v (1 + t) (1 + q)
  rw [show 1 + t - (1 + q) = t - q by ring] at k5
  linarith

theorem sqrt_step {E v w : ℝ} (hu : 0 ≤ u) (hu' : u ≤ 1 / 1024) (hηu : η ≤ u / 16) (hE : 1 ≤ E)
    (hv : |v - E ^ 2| ≤ 15 * u * E ^ 2) (hw : |w - √v| ≤ u * √v + η) : |w - E| ≤ 10 * u * E := by
  have hE0 : 0 < E := by linarith
  have hE2 : 0 < E ^ 2 := by positivity
  have uE2 : u * E ^ 2 ≤ 1 / 1024 * E ^ 2 := mul_le_mul_of_nonneg_right hu' hE2.le
  have hv1 : (31 / 32 * E) ^ 2 ≤ v := by
    have := (abs_le.1 hv).1
    rw [mul_pow]
    linarith
  have hv0 : 0 ≤ v := (sq_nonneg _).trans hv1
  have k0 : 31 / 32 * E ≤ √v := Real.le_sqrt_of_sq_le hv1
  have k1 : |√v - E| ≤ 8 * u * E := by
    have e : (√v - E) * (√v + E) = v - E ^ 2 := by
      have := Real.sq_sqrt hv0
      linear_combination this
    have h2 : |√v - E| * (√v + E) ≤ 15 * u * E ^ 2 := by
      rw [← abs_of_nonneg (show 0 ≤ √v + E by linarith), ← abs_mul, e]; exact hv
    have h3 : |√v - E| * (63 / 32 * E) ≤ |√v - E| * (√v + E) :=
      mul_le_mul_of_nonneg_left (by linarith) (abs_nonneg _)
    have h5 : 0 ≤ u * E * E := by positivity
    have h4 : |√v - E| * E ≤ 8 * u * E * E := by linarith
    exact le_of_mul_le_mul_right h4 hE0
  have k2 : √v ≤ E + 8 * u * E := by linarith [(abs_le.1 k1).2]
  have k3 := mul_le_mul_of_nonneg_left k2 hu
  have k4 : u * (8 * u * E) ≤ 1 / 1024 * (8 * u * E) :=
    mul_le_mul_of_nonneg_right hu' (by positivity)
  have k5 := abs_sub_le w (√v) E
  have k6 : u * 1 ≤ u * E := mul_le_mul_of_nonneg_left hE hu
  linarith

theorem inverse_step {E w c : ℝ} (hu : 0 ≤ u) (hu' : u ≤ 1 / 1024) (hE : 1 ≤ E)
    (hw : |w - E| ≤ 10 * u * E) (hc : |c - 1 / w| ≤ u * |1 / w| + η) :
    0 < w ∧ |c - 1 / E| ≤ 12 * u * (1 / E) + η := by
  have hE0 : 0 < E := by linarith
  have hw0 : 63 / 64 * E ≤ w := by have := (abs_le.1 hw).1; nlinarith
  have hwp : 0 < w := by linarith
  refine ⟨hwp, ?_⟩
  have k1 : |1 / w - 1 / E| ≤ 10.5 * u * (1 / E) := by
    rw [show 1 / w - 1 / E = (1 / E) * ((E - w) / w) by field_simp, abs_mul,
      abs_of_pos (show 0 < 1 / E by positivity), mul_comm]
    refine mul_le_mul_of_nonneg_right ?_ (by positivity)
    rw [abs_div, abs_of_pos hwp, div_le_iff₀ hwp, abs_sub_comm]
    refine hw.trans ?_
    have := mul_le_mul_of_nonneg_left hw0 (show 0 ≤ 10.5 * u by positivity)
    have h3 : 0 ≤ u * E := by positivity
    linarith
  have hI : 0 < 1 / E := by positivity
  rw [abs_of_pos (show 0 < 1 / w by positivity)] at hc
  have k2 : 1 / w ≤ 1 / E + 10.5 * u * (1 / E) := by linarith [(abs_le.1 k1).2]
  have k3 := mul_le_mul_of_nonneg_left k2 hu
  have k4 : u * (10.5 * u * (1 / E)) ≤ 1 / 1024 * (10.5 * u * (1 / E)) :=
    mul_le_mul_of_nonneg_right hu' (by positivity)
  have k5 := abs_sub_le c (1 / w) (1 / E)
  have h3 : 0 ≤ u * (1 / E) := by positivity
  linarith

theorem product_step {E w a r : ℝ} (hu : 0 ≤ u) (hu' : u ≤ 1 / 1024) (hE : 0 ≤ E)
    (hw : |w - E| ≤ 10 * u * E) (hr : |r - w * a| ≤ u * |w * a| + η) :
    |r - E * a| ≤ 12 * u * (E * |a|) + η := by
  have k1 : |w * a - E * a| ≤ 10 * u * (E * |a|) := by
    rw [← sub_mul, abs_mul]
    have := mul_le_mul_of_nonneg_right hw (abs_nonneg a)
    linarith
  have k2 : |w * a| ≤ E * |a| + 10 * u * (E * |a|) := by
    have := abs_sub_abs_le_abs_sub (w * a) (E * a)
    rw [abs_mul E a, abs_of_nonneg hE] at this
    linarith
  have h3 : 0 ≤ E * |a| := by positivity
  have k3 := mul_le_mul_of_nonneg_left k2 hu
  have k4 : u * (10 * u * (E * |a|)) ≤ 1 / 1024 * (10 * u * (E * |a|)) :=
    mul_le_mul_of_nonneg_right hu' (by positivity)
  have k5 := abs_sub_le r (w * a) (E * a)
  have h4 : 0 ≤ u * (E * |a|) := by positivity
  linarith

theorem sum_step {P Q F G d : ℝ} (hu : 0 ≤ u) (hu' : u ≤ 1 / 1024) (hP : 0 ≤ P) (hQ : 0 ≤ Q)
    (hη : η ≤ 3 / 2 * (u * P)) (hF : |F - P| ≤ 15 / 2 * u * P)
    (hG : |G - Q| ≤ 3 * u * Q + 5 * u * P)
    (hd : |d - (F + G)| ≤ u * |F + G| + η) :
    |F + G - (P + Q)| ≤ 13 * u * (P + Q) ∧ |d - (P + Q)| ≤ 16 * u * (P + Q) := by
  have huP : 0 ≤ u * P := mul_nonneg hu hP
  have huQ : 0 ≤ u * Q := mul_nonneg hu hQ
  have k1 : |F + G - (P + Q)| ≤ 13 * u * (P + Q) := by
    rw [show F + G - (P + Q) = (F - P) + (G - Q) by ring]
    refine (abs_add_le _ _).trans ?_
    linarith
  refine ⟨k1, ?_⟩
  have k2 : |F + G| ≤ (P + Q) + 13 * u * (P + Q) := by
    have := abs_sub_abs_le_abs_sub (F + G) (P + Q)
    rw [abs_of_nonneg (show 0 ≤ P + Q by linarith)] at this
    linarith
  have k3 := mul_le_mul_of_nonneg_left k2 hu
  have k4 : u * (13 * u * (P + Q)) ≤ 1 / 1024 * (13 * u * (P + Q)) :=
    mul_le_mul_of_nonneg_right hu' (by positivity)
  have k5 := abs_sub_le d (F + G) (P + Q)
  linarith

/-- A component of `r / d`. -/
theorem divide_step {D d k r κ : ℝ} (hu : 0 ≤ u) (hu' : u ≤ 1 / 1024) (hη : 0 ≤ η) (hD : 0 < D)
    (hd : |d - D| ≤ 16 * u * D) (hr : |r - k| ≤ 12 * u * |k| + η)
    (hκ : |κ - r / d| ≤ u * |r / d| + η) :
    0 < d ∧ |κ - k / D| ≤ 31 * u * |k / D| + 2 * (η / D) + η := by
  have hd0 : 63 / 64 * D ≤ d := by have := (abs_le.1 hd).1; nlinarith
  have hdp : 0 < d := by linarith
  refine ⟨hdp, ?_⟩
  have ek : |k / D| = |k| / D := by rw [abs_div, abs_of_pos hD]
  have k1 : |r / d - k / D| ≤ 29 * u * (|k| / D) + 1.02 * (η / D) := by
    have e : r / d - k / D = ((r - k) - (k / D) * (d - D)) / d := by field_simp; ring
    rw [e, abs_div, abs_of_pos hdp, div_le_iff₀ hdp]
    have h1 : |r - k - k / D * (d - D)| ≤ 28 * u * |k| + η := by
      refine (abs_sub _ _).trans ?_
      rw [abs_mul, ek]
      have := mul_le_mul_of_nonneg_left hd (show 0 ≤ |k| / D by positivity)
      have e2 : |k| / D * (16 * u * D) = 16 * u * |k| := by field_simp
      linarith
    refine h1.trans ?_
    have e2 : (29 * u * (|k| / D) + 1.02 * (η / D)) * (63 / 64 * D) =
        (29 * u * |k| + 1.02 * η) * (63 / 64) := by field_simp
    have h2 := mul_le_mul_of_nonneg_left hd0
      (show 0 ≤ 29 * u * (|k| / D) + 1.02 * (η / D) by positivity)
    rw [e2] at h2
    have h3 : 0 ≤ u * |k| := by positivity
    linarith
  rw [ek]
  have hk : 0 ≤ |k| / D := by positivity
  have hηD : 0 ≤ η / D := by positivity
  have k2 : |r / d| ≤ |k| / D + (29 * u * (|k| / D) + 1.02 * (η / D)) := by
    have := abs_sub_abs_le_abs_sub (r / d) (k / D)
    rw [ek] at this
    linarith
  generalize |k| / D = K at *
  generalize η / D = Z at *
  have k3 := mul_le_mul_of_nonneg_left k2 hu
  have k4 : u * (29 * u * K) ≤ 1 / 1024 * (29 * u * K) :=
    mul_le_mul_of_nonneg_right hu' (by positivity)
  have k6 : u * Z ≤ 1 / 1024 * Z := mul_le_mul_of_nonneg_right hu' hηD
  have k5 := abs_sub_le κ (r / d) (k / D)
  have h4 : 0 ≤ u * K := by positivity
  linarith

/-- One of the four products of the last complex multiplication: `ζ` bounds the underflow. -/
theorem last_product {ζ κ k c p : ℝ} (hu : 0 ≤ u) (hu' : u ≤ 1 / 1024) (hζ : 0 ≤ ζ)
    (hκ : |κ - k| ≤ 31 * u * |k| + ζ) (hp : |p - κ * c| ≤ u * |κ * c| + η) :
    |p - k * c| ≤ 33 * u * |k * c| + (2 * (ζ * |c|) + η) := by
  have k1 : |κ * c - k * c| ≤ 31 * u * |k * c| + ζ * |c| := by
    rw [← sub_mul, abs_mul, abs_mul k c]
    have := mul_le_mul_of_nonneg_right hκ (abs_nonneg c)
    linarith
  have k2 := abs_sub_abs_le_abs_sub (κ * c) (k * c)
  have hz : 0 ≤ ζ * |c| := by positivity
  have hk : 0 ≤ |k * c| := abs_nonneg _
  have k3 := mul_le_mul_of_nonneg_left (show |κ * c| ≤ |k * c| + (31 * u * |k * c| + ζ * |c|) by linarith) hu
  have k4 : u * (31 * u * |k * c|) ≤ 1 / 1024 * (31 * u * |k * c|) :=
    mul_le_mul_of_nonneg_right hu' (by positivity)
  have k6 : u * (ζ * |c|) ≤ 1 / 1024 * (ζ * |c|) := mul_le_mul_of_nonneg_right hu' hz
  have k5 := abs_sub_le p (κ * c) (k * c)
  have h4 : 0 ≤ u * |k * c| := by positivity
  linarith

/-- The sum (or difference) of two of them. -/
theorem last_sum {ζ p p' x x' s : ℝ} (hu : 0 ≤ u) (hu' : u ≤ 1 / 1024) (hηu : η ≤ u / 16)
    (hζ : ζ ≤ 2 * u) (hx : |x| + |x'| ≤ 1) (hp : |p - x| ≤ 33 * u * |x| + ζ)
    (hp' : |p' - x'| ≤ 33 * u * |x'| + ζ) (hs : |s - (p + p')| ≤ u * |p + p'| + η) :
    |p + p'| ≤ 2 ∧ |s - (x + x')| ≤ 40 * u := by
  have k1 : |p + p' - (x + x')| ≤ 33 * u * (|x| + |x'|) + 2 * ζ := by
    rw [show p + p' - (x + x') = (p - x) + (p' - x') by ring]
    refine (abs_add_le _ _).trans ?_
    linarith
  have k0 : 33 * u * (|x| + |x'|) ≤ 33 * u * 1 := mul_le_mul_of_nonneg_left hx (by positivity)
  have k2 := abs_sub_abs_le_abs_sub (p + p') (x + x')
  have k3 := abs_add_le x x'
  have k4 : |p + p'| ≤ 1 + 37 * u := by linarith
  refine ⟨by linarith, ?_⟩
  have k5 := mul_le_mul_of_nonneg_left k4 hu
  have k6 : u * (37 * u) ≤ 1 / 1024 * (37 * u) := mul_le_mul_of_nonneg_right hu' (by positivity)
  have k7 := abs_sub_le s (p + p') (x + x')
  linarith

end

namespace Format.Scaled
variable {f : Format} {u η m : ℝ} (h : f.Scaled u η m)
include h

/-- The last two multiplications: the four products and the two sums. -/
theorem cmul_step (hu' : u ≤ 1 / 1024) {ζ κ κ' K K' c d : ℝ} (hζ : 0 ≤ ζ)
    (hκ : |κ - K| ≤ 31 * u * |K| + ζ) (hκ' : |κ' - K'| ≤ 31 * u * |K'| + ζ)
    (hc : ζ * |c| ≤ 15 / 16 * u) (hd : ζ * |d| ≤ 15 / 16 * u) (hs : |K * c| + |K' * d| ≤ 1) :
    ∃ p p' s s', (fin κ * fin c : FP f) = fin p ∧ (fin κ' * fin d : FP f) = fin p' ∧
      (fin p + fin p' : FP f) = fin s ∧ |s - (K * c + K' * d)| ≤ 40 * u ∧
      (fin p - fin p' : FP f) = fin s' ∧ |s' - (K * c - K' * d)| ≤ 40 * u := by
  have hu := h.u_nonneg
  have hη := h.eta_nonneg
  have hηu := h.eta_le_u
  have hbig := h.two_le_big
  have hK : |K * c| ≤ 1 := by linarith [abs_nonneg (K' * d)]
  have hK' : |K' * d| ≤ 1 := by linarith [abs_nonneg (K * c)]
  have fin1 : ∀ {κ K c : ℝ}, |κ - K| ≤ 31 * u * |K| + ζ → ζ * |c| ≤ 15 / 16 * u → |K * c| ≤ 1 →
      |κ * c| ≤ f.big := by
    intro κ K c hκ hc hK
    have k1 : |κ * c - K * c| ≤ 31 * u * |K * c| + ζ * |c| := by
      rw [← sub_mul, abs_mul, abs_mul K c]
      have := mul_le_mul_of_nonneg_right hκ (abs_nonneg c)
      linarith
    have k2 := abs_sub_abs_le_abs_sub (κ * c) (K * c)
    have k3 : 31 * u * |K * c| ≤ 31 * u * 1 := mul_le_mul_of_nonneg_left hK (by positivity)
    linarith
  have b1 := fin1 hκ hc hK
  have b2 := fin1 hκ' hd hK'
  have e1 := last_product hu hu' hζ hκ (h.err (κ * c))
  have e2 := last_product hu hu' hζ hκ' (h.err (κ' * d))
  have z1 : |f.rnd (κ * c) - K * c| ≤ 33 * u * |K * c| + 2 * u := by linarith
  have z2 : |f.rnd (κ' * d) - K' * d| ≤ 33 * u * |K' * d| + 2 * u := by linarith
  obtain ⟨b3, e3⟩ := last_sum (ζ := 2 * u) hu hu' hηu le_rfl hs z1 z2 (h.err (f.rnd (κ * c) + f.rnd (κ' * d)))
  have z2' : |-f.rnd (κ' * d) - -(K' * d)| ≤ 33 * u * |-(K' * d)| + 2 * u := by
    rw [neg_sub_neg, abs_sub_comm, abs_neg]; exact z2
  obtain ⟨b4, e4⟩ := last_sum (ζ := 2 * u) hu hu' hηu le_rfl (by rw [abs_neg]; exact hs) z1 z2'
    (h.err (f.rnd (κ * c) + -f.rnd (κ' * d)))
  exact ⟨_, _, _, _, h.ofReal_le b1, h.ofReal_le b2, h.ofReal_le (b3.trans hbig), e3,
    h.ofReal_le (b4.trans hbig), by rw [sub_eq_add_neg (K * c)]; exact e4⟩

theorem div_le {x y : ℝ} (hy : 0 < y) (hx : |x / y| ≤ f.big) :
    (fin x / fin y : FP f) = fin (f.rnd (x / y)) := by
  change FP.div (fin x) (fin y) = _
  unfold FP.div
  simp only [hy.ne', if_false]
  exact h.ofReal_le hx

theorem sqrt_le {x : ℝ} (hx : 0 ≤ x) (hb : x ≤ f.big) :
    FloatOps.sqrt (fin x : FP f) = fin (f.rnd (√x)) := by
  change FP.sqrt (fin x) = _
  unfold FP.sqrt
  simp only [not_lt.2 hx, if_false]
  refine h.ofReal_le ?_
  rw [abs_of_nonneg (Real.sqrt_nonneg _)]
  have h1 : (1 : ℝ) ≤ f.big := f.one_le_big
  rw [Real.sqrt_le_left (by linarith)]
  nlinarith

/-- The squared magnitude. -/
theorem abssq_fin (hu' : u ≤ 1 / 1024) {a b : ℝ} (ha : |a| ≤ 1 / m) (hb : |b| ≤ 1 / m) :
    ∃ G, abssqOf (fin a, fin b) = (fin G : FP f) ∧ 0 ≤ G ∧
      |G - (a ^ 2 + b ^ 2)| ≤ 3 * u * (a ^ 2 + b ^ 2) + 4 * η := by
  have hm := h.m_pos
  have hu := h.u_nonneg
  have hη := h.eta_nonneg
  have hηu := h.eta_le_u
  have hq : (1 / m) ^ 2 = 1 / m ^ 2 := by field_simp
  have h16 : 16 ≤ 1 / m ^ 2 := by
    rw [le_div_iff₀ (by positivity)]; have := h.m_sq_le; linarith
  have hbig : 4 * (1 / m ^ 2) ≤ f.big := by have := h.big_ge; rw [mul_one_div]; exact this
  have ha2 : a ^ 2 ≤ 1 / m ^ 2 := by
    rw [← hq, ← sq_abs a]; exact pow_le_pow_left₀ (abs_nonneg a) ha 2
  have hb2 : b ^ 2 ≤ 1 / m ^ 2 := by
    rw [← hq, ← sq_abs b]; exact pow_le_pow_left₀ (abs_nonneg b) hb 2
  have na : 0 ≤ a ^ 2 := sq_nonneg a
  have nb : 0 ≤ b ^ 2 := sq_nonneg b
  have eA := h.err (a ^ 2)
  have eB := h.err (b ^ 2)
  rw [abs_of_nonneg na] at eA
  rw [abs_of_nonneg nb] at eB
  have nA : 0 ≤ f.rnd (a ^ 2) := rnd_nonneg na
  have nB : 0 ≤ f.rnd (b ^ 2) := rnd_nonneg nb
  have e1 : (fin a * fin a : FP f) = fin (f.rnd (a ^ 2)) := by
    rw [sq]; exact h.ofReal_le (by rw [← sq, abs_of_nonneg na]; linarith)
  have e2 : (fin b * fin b : FP f) = fin (f.rnd (b ^ 2)) := by
    rw [sq]; exact h.ofReal_le (by rw [← sq, abs_of_nonneg nb]; linarith)
  have ua : u * a ^ 2 ≤ 1 / 1024 * a ^ 2 := mul_le_mul_of_nonneg_right hu' na
  have ub : u * b ^ 2 ≤ 1 / 1024 * b ^ 2 := mul_le_mul_of_nonneg_right hu' nb
  have hAB : f.rnd (a ^ 2) + f.rnd (b ^ 2) ≤ f.big := by
    linarith [(abs_le.1 eA).2, (abs_le.1 eB).2]
  have hn : 0 ≤ f.rnd (a ^ 2) + f.rnd (b ^ 2) := by linarith
  have e3 : (fin (f.rnd (a ^ 2)) + fin (f.rnd (b ^ 2)) : FP f) =
      fin (f.rnd (f.rnd (a ^ 2) + f.rnd (b ^ 2))) :=
    h.ofReal_le (by rw [abs_of_nonneg hn]; exact hAB)
  have eS := h.err (f.rnd (a ^ 2) + f.rnd (b ^ 2))
  rw [abs_of_nonneg hn] at eS
  refine ⟨_, ?_, rnd_nonneg hn, squares_err_abs rfl na nb hu hu' hη eA eB eS⟩
  unfold abssqOf
  rw [e1, e2, e3]

theorem m_sq_small {s : ℝ} (hsm : s ≤ 2 * u * m ^ 2) (hu' : u ≤ 1 / 1024) : s ≤ 1 / 16 := by
  have h1 : u * m ^ 2 ≤ 1 / 1024 * m ^ 2 := mul_le_mul_of_nonneg_right hu' (sq_nonneg m)
  have := h.m_sq_le
  linarith

/-- What a failed test for a tiny `f2` means for the exact squares. -/
theorem tail_test (hu' : u ≤ 1 / 1024) {s P Q F2 G2 : ℝ} (hs : 0 < s) (hs16 : s ≤ 1 / 16)
    (hηs : η ≤ u * s) (hP0 : 0 ≤ P) (hQ0 : 0 ≤ Q) (nG : 0 ≤ G2) (hGb : G2 ≤ f.big)
    (bF : |F2 - P| ≤ 3 * u * P + 4 * η) (bG : |G2 - Q| ≤ 3 * u * Q + 4 * η)
    (ht : geOf (stdMax (fin G2) 1 * fin s : FP f) (fin F2) = false) : s * max Q 1 ≤ 10 / 9 * P := by
  have hu := h.u_nonneg
  have hη := h.eta_nonneg
  have hb := f.one_le_big
  have hM0 : 0 ≤ max G2 1 * s := mul_nonneg (le_max_of_le_left nG) hs.le
  have e1 : (stdMax (fin G2) 1 * fin s : FP f) = fin (f.rnd (max G2 1 * s)) := by
    have : stdMax (fin G2 : FP f) 1 = fin (max G2 1) := Format.Scaled.stdMax_fin _ _
    rw [this]
    refine h.ofReal_le ?_
    rw [abs_of_nonneg hM0]
    have := mul_le_mul (max_le hGb hb) hs16 hs.le (by linarith)
    linarith
  rw [e1, Format.Scaled.geOf_fin, decide_eq_false_iff_not, not_le] at ht
  have k0 := h.err (max G2 1 * s)
  rw [abs_of_nonneg hM0] at k0
  have k1 : u * (max G2 1 * s) ≤ 1 / 1024 * (max G2 1 * s) := mul_le_mul_of_nonneg_right hu' hM0
  have uP : u * P ≤ 1 / 1024 * P := mul_le_mul_of_nonneg_right hu' hP0
  have uQ : u * Q ≤ 1 / 1024 * Q := mul_le_mul_of_nonneg_right hu' hQ0
  have us : u * s ≤ 1 / 1024 * s := mul_le_mul_of_nonneg_right hu' hs.le
  have k2 : s * max Q 1 ≤ 100 / 99 * (max G2 1 * s) + η := by
    have h1 := le_max_left G2 1
    have h2 := le_max_right G2 1
    have h3 : Q ≤ 100 / 99 * max G2 1 + 5 * η := by linarith [(abs_le.1 bG).1]
    have h4 := mul_le_mul_of_nonneg_right h3 hs.le
    have h5 := mul_le_mul_of_nonneg_right h2 hs.le
    have h6 := mul_le_mul_of_nonneg_left hs16 hη
    rw [mul_max_of_nonneg _ _ hs.le]
    refine max_le (by linarith) (by linarith)
  have k3 : s ≤ s * max Q 1 := le_mul_of_one_le_right hs.le (le_max_right _ _)
  linarith [(abs_le.1 k0).1, (abs_le.1 bF).2]

/-- `sqrt(1 + g2 / f2)`. -/
theorem tail_root (hu' : u ≤ 1 / 1024) {s P Q F2 G2 E : ℝ} (hsb : 3 ≤ s * f.big) (hP0 : 0 < P)
    (hQ0 : 0 ≤ Q) (h64 : 64 ≤ f.big) (hMs : s * max Q 1 ≤ 10 / 9 * P) (hF0 : 99 / 100 * P ≤ F2)
    (nG : 0 ≤ G2) (hG1 : G2 ≤ 101 / 100 * max Q 1) (bF : |F2 - P| ≤ 15 / 2 * u * P)
    (bG : |G2 - Q| ≤ 3 * u * Q + 5 * u * P) (hE1 : 1 ≤ E) (eE : 1 + Q / P = E ^ 2) :
    ∃ w, FloatOps.sqrt (1 + fin G2 / fin F2 : FP f) = fin w ∧ |w - E| ≤ 10 * u * E := by
  have hu := h.u_nonneg
  have hηu := h.eta_le_u
  have hFp : 0 < F2 := by linarith
  have hr1 : G2 / F2 ≤ f.big / 2 := by
    rw [div_le_iff₀ hFp]
    have h0 : (1 : ℝ) ≤ max Q 1 := le_max_right _ _
    have h1 : max Q 1 * 3 ≤ 10 / 9 * P * f.big := by
      have h2 : max Q 1 * 3 ≤ max Q 1 * (s * f.big) := mul_le_mul_of_nonneg_left hsb (by linarith)
      have h3 : s * max Q 1 * f.big ≤ 10 / 9 * P * f.big := mul_le_mul_of_nonneg_right hMs (by linarith)
      linarith
    have h4 := mul_le_mul_of_nonneg_left hF0 (show 0 ≤ f.big / 2 by linarith)
    have h5 : 0 ≤ P * f.big := mul_nonneg hP0.le (by linarith)
    linarith
  have hr0 : 0 ≤ G2 / F2 := by positivity
  have e2 : (fin G2 / fin F2 : FP f) = fin (f.rnd (G2 / F2)) :=
    h.div_le hFp (by rw [abs_of_nonneg hr0]; linarith)
  obtain ⟨-, b2⟩ := ratio_step hu hu' (by linarith) hP0 hQ0 bF bG (h.err (G2 / F2))
  have ht0 : 0 ≤ f.rnd (G2 / F2) := rnd_nonneg hr0
  have ht1 : f.rnd (G2 / F2) ≤ 3 / 4 * f.big := by
    have := (abs_le.1 (h.err (G2 / F2))).2
    rw [abs_of_nonneg hr0] at this
    have h2 := mul_le_mul hu' hr1 hr0 (by norm_num)
    linarith
  rw [e2]
  generalize f.rnd (G2 / F2) = t at *
  have e3 : (1 + fin t : FP f) = fin (f.rnd (1 + t)) :=
    h.ofReal_le (by rw [abs_of_nonneg (by linarith)]; linarith)
  have b3 := one_add_step hu hu' hηu (div_nonneg hQ0 hP0.le) b2 (h.err (1 + t))
  have hv0 : 0 ≤ f.rnd (1 + t) := rnd_nonneg (by linarith)
  have hv1 : f.rnd (1 + t) ≤ f.big := by
    have := f.mono (show 1 + t ≤ f.big by linarith)
    rwa [f.rnd_big] at this
  rw [e3]
  generalize f.rnd (1 + t) = v at *
  rw [eE] at b3
  refine ⟨_, h.sqrt_le hv0 hv1, ?_⟩
  have := h.err (√v)
  rw [abs_of_nonneg (Real.sqrt_nonneg _)] at this
  exact sqrt_step hu hu' hηu hE1 b3 this

/-- A component of `r / d`. -/
theorem tail_quot (hu' : u ≤ 1 / 1024) {ρ D k r : ℝ} (hηρ : η ≤ u / 4 * ρ ^ 2) (hsb : 4 ≤ ρ ^ 2 * f.big)
    (hρ0 : 0 < ρ) (h64 : 64 ≤ f.big) (b9 : |D - ρ ^ 2| ≤ 16 * u * ρ ^ 2)
    (hk : |k| ≤ ρ) (hr : |r - k| ≤ 12 * u * |k| + η) :
    (fin r / fin D : FP f) = fin (f.rnd (r / D)) ∧
      |f.rnd (r / D) - k / ρ ^ 2| ≤ 31 * u * |k / ρ ^ 2| + (2 * (η / ρ ^ 2) + η) := by
  have hu := h.u_nonneg
  have hη := h.eta_nonneg
  obtain ⟨hD0, b⟩ := divide_step hu hu' hη (show 0 < ρ ^ 2 by positivity) b9 hr (h.err (r / D))
  refine ⟨h.div_le hD0 ?_, by linarith⟩
  rw [abs_div, abs_of_pos hD0, div_le_iff₀ hD0]
  have hI : ρ ≤ f.big / 4 * ρ ^ 2 := by
    rcases le_total 1 ρ with h1 | h1
    · have h2 : ρ ≤ ρ ^ 2 := by nlinarith only [h1]
      have h3 : 1 * ρ ^ 2 ≤ f.big / 4 * ρ ^ 2 := mul_le_mul_of_nonneg_right (by linarith) (by positivity)
      linarith
    · linarith
  have h1 := abs_sub_abs_le_abs_sub r k
  have h2 : 12 * u * |k| ≤ 12 / 1024 * ρ :=
    (mul_le_mul_of_nonneg_left hk (by positivity)).trans
      ((mul_le_mul_of_nonneg_right (show 12 * u ≤ 12 / 1024 by linarith) hρ0.le))
  have h3 : 63 / 64 * ρ ^ 2 ≤ D := by
    have : u * ρ ^ 2 ≤ 1 / 1024 * ρ ^ 2 := mul_le_mul_of_nonneg_right hu' (by positivity)
    linarith [(abs_le.1 b9).1]
  have h4 := mul_le_mul_of_nonneg_left h3 (show 0 ≤ f.big by linarith)
  have h7 : u / 4 * ρ ^ 2 ≤ f.big / 4 * ρ ^ 2 :=
    mul_le_mul_of_nonneg_right (by linarith) (by positivity)
  linarith

/-- The underflow of `r / d` stays small when multiplied by a component of `gs`. -/
theorem tail_under {ρ c : ℝ} (hηρ' : η ≤ u / 4 * ρ ^ 2) (hρ0 : 0 < ρ)
    (hc : |c| ≤ 1 / m) (hcρ : |c| ≤ ρ) : (2 * (η / ρ ^ 2) + η) * |c| ≤ 15 / 16 * u := by
  have hu := h.u_nonneg
  have hη := h.eta_nonneg
  have hηu := h.eta_le_u
  have hηρ : η / ρ ^ 2 ≤ u / 4 := by
    rw [div_le_iff₀ (by positivity)]
    exact hηρ'
  have h1 : η * |c| ≤ u / 4 := by
    have h2 := mul_le_mul_of_nonneg_left hc hη
    have h3 : η * (1 / m) ≤ u * m := by
      rw [mul_one_div, div_le_iff₀ h.m_pos]
      have := h.eta_le
      linarith
    have h4 := mul_le_mul_of_nonneg_left h.m_le hu
    linarith
  have h5 : η / ρ ^ 2 * |c| ≤ u / 4 := by
    rcases le_total 1 ρ with h6 | h6
    · have h7 : η / ρ ^ 2 * |c| ≤ η / ρ ^ 2 * ρ := mul_le_mul_of_nonneg_left hcρ (by positivity)
      have h8 : η / ρ ^ 2 * ρ = η / ρ := by field_simp
      have h9 : η / ρ ≤ η := div_le_self hη h6
      linarith
    · have h7 : η / ρ ^ 2 * |c| ≤ u / 4 * 1 :=
        mul_le_mul hηρ (hcρ.trans h6) (abs_nonneg _) (by positivity)
      linarith
  linarith

omit h in
theorem cauchy_two (a b c d : ℝ) :
    |a| * |c| + |b| * |d| ≤ √(a ^ 2 + b ^ 2) * √(c ^ 2 + d ^ 2) := by
  rw [← Real.sqrt_mul (by positivity)]
  refine Real.le_sqrt_of_sq_le ?_
  have e : (a ^ 2 + b ^ 2) * (c ^ 2 + d ^ 2) - (|a| * |c| + |b| * |d|) ^ 2 =
      (|a| * |d| - |b| * |c|) ^ 2 := by
    rw [← sq_abs a, ← sq_abs b, ← sq_abs c, ← sq_abs d]; ring
  linarith [sq_nonneg (|a| * |d| - |b| * |c|)]

/-- Everything after the squared magnitudes are known. -/
theorem tail_rest (hu' : u ≤ 1 / 1024) {s a b c d F2 G2 : ℝ} (hs0 : 0 ≤ s) (hηs : η ≤ u * s)
    (hsb : 3 ≤ s * f.big) (h64 : 64 ≤ f.big) (hc : |c| ≤ 1 / m)
    (hd : |d| ≤ 1 / m) {p q ρ : ℝ} (hp0 : 0 < p) (hqρ : q ≤ ρ) (hpρ : p ≤ ρ)
    (hρb : ρ ≤ f.big / 2) (hρb' : ρ ^ 2 ≤ f.big / 2) (hρ2 : ρ ^ 2 = p ^ 2 + q ^ 2)
    (hηρ : η ≤ u / 4 * ρ ^ 2) (hρbig : 4 ≤ ρ ^ 2 * f.big)
    (hMs : s * max (q ^ 2) 1 ≤ 10 / 9 * p ^ 2)
    (hap : |a| ≤ p) (hbp : |b| ≤ p) (hcq : |c| ≤ q) (hdq : |d| ≤ q)
    (cs1 : |a| * |c| + |b| * |d| ≤ p * q) (cs2 : |b| * |c| + |a| * |d| ≤ p * q)
    (nG : 0 ≤ G2) (bF : |F2 - p ^ 2| ≤ 3 * u * p ^ 2 + 4 * η) (bG : |G2 - q ^ 2| ≤ 3 * u * q ^ 2 + 4 * η) :
    ∃ w cs s1 s2 r1 r2 D : ℝ, FloatOps.sqrt (1 + fin G2 / fin F2 : FP f) = fin w ∧
      (fin w * fin a : FP f) = fin r1 ∧ (fin w * fin b : FP f) = fin r2 ∧ (1 / fin w : FP f) = fin cs ∧
      (fin F2 + fin G2 : FP f) = fin D ∧
      cmulOf (fin r1 / fin D, fin r2 / fin D) (fin c, fin (-d)) = ((fin s1, fin s2) : FP f × FP f) ∧
      f.Rep r1 ∧ f.Rep r2 ∧
      |cs - p / ρ| ≤ 12 * u * (p / ρ) + η ∧
      |s1 - (a * c + b * d) / (p * ρ)| ≤ 40 * u ∧
      |s2 - (b * c - a * d) / (p * ρ)| ≤ 40 * u ∧
      |r1 - ρ / p * a| ≤ 12 * u * (ρ / p * |a|) + η ∧
      |r2 - ρ / p * b| ≤ 12 * u * (ρ / p * |b|) + η := by
  have hu := h.u_nonneg
  have hη := h.eta_nonneg
  have hηu := h.eta_le_u
  have hρ0 : 0 < ρ := lt_of_lt_of_le hp0 hpρ
  have hP0 : 0 < p ^ 2 := by positivity
  have hQ0 : 0 ≤ q ^ 2 := by positivity
  have hηP : 4 * η ≤ 9 / 2 * (u * p ^ 2) := by
    have hps : s ≤ 10 / 9 * p ^ 2 :=
      (le_mul_of_one_le_right hs0 (le_max_right (q ^ 2) 1)).trans hMs
    have := mul_le_mul_of_nonneg_left hps hu
    linarith only [this, hηs, mul_nonneg hu hP0.le]
  have uP : u * p ^ 2 ≤ 1 / 1024 * p ^ 2 := mul_le_mul_of_nonneg_right hu' hP0.le
  have uP0 : 0 ≤ u * p ^ 2 := mul_nonneg hu hP0.le
  have uQ : u * q ^ 2 ≤ 1 / 1024 * q ^ 2 := mul_le_mul_of_nonneg_right hu' hQ0
  have bF' : |F2 - p ^ 2| ≤ 15 / 2 * u * p ^ 2 := by linarith only [bF, hηP, uP0]
  have bG' : |G2 - q ^ 2| ≤ 3 * u * q ^ 2 + 5 * u * p ^ 2 := by linarith only [bG, hηP, uP0]
  have hF0 : 99 / 100 * p ^ 2 ≤ F2 := by linarith only [(abs_le.1 bF').1, uP, hP0]
  have hG1 : G2 ≤ 101 / 100 * max (q ^ 2) 1 := by
    linarith only [(abs_le.1 bG).2, uQ, hηu, hu', le_max_left (q ^ 2) 1, le_max_right (q ^ 2) 1, hQ0]
  have hE1 : 1 ≤ ρ / p := by rw [le_div_iff₀ hp0]; linarith only [hpρ]
  have hE0 : 0 < ρ / p := by linarith only [hE1]
  have eE : 1 + q ^ 2 / p ^ 2 = (ρ / p) ^ 2 := by rw [div_pow, hρ2]; field_simp
  obtain ⟨w, e4, b4⟩ := h.tail_root hu' hsb hP0 hQ0 h64 hMs hF0 nG hG1 bF' bG' hE1 eE
  obtain ⟨hw0, b5⟩ := inverse_step hu hu' hE1 b4 (h.err (1 / w))
  have hwE : 63 / 64 * (ρ / p) ≤ w ∧ w ≤ 65 / 64 * (ρ / p) := by
    have h1 : u * (ρ / p) ≤ 1 / 1024 * (ρ / p) := mul_le_mul_of_nonneg_right hu' (by linarith)
    constructor <;> linarith only [(abs_le.1 b4).1, (abs_le.1 b4).2, h1, hE0]
  have e5 : (1 / fin w : FP f) = fin (f.rnd (1 / w)) := by
    refine h.div_le hw0 ?_
    rw [abs_of_pos (by positivity), div_le_iff₀ hw0]
    have h1 : f.big * (63 / 64) ≤ f.big * w :=
      mul_le_mul_of_nonneg_left (by linarith only [hwE.1, hE1]) (by linarith only [h64])
    linarith only [h1, h64]
  rw [one_div_div] at b5
  have hka : ∀ {a : ℝ}, |a| ≤ p → ρ / p * |a| ≤ ρ := by
    intro a hap
    rw [div_mul_eq_mul_div, div_le_iff₀ hp0]
    exact mul_le_mul_of_nonneg_left hap hρ0.le
  have hwa : ∀ {a : ℝ}, |a| ≤ p → |w * a| ≤ f.big := by
    intro a hap
    rw [abs_mul, abs_of_pos hw0]
    have h1 := mul_le_mul_of_nonneg_right hwE.2 (abs_nonneg a)
    have h2 := hka hap
    linarith only [h1, h2, hρb, hρ0]
  have rr : ∀ {a : ℝ}, |a| ≤ p → (fin w * fin a : FP f) = fin (f.rnd (w * a)) ∧
      |f.rnd (w * a) - ρ / p * a| ≤ 12 * u * (ρ / p * |a|) + η :=
    fun hap => ⟨h.ofReal_le (hwa hap), product_step hu hu' hE0.le b4 (h.err _)⟩
  obtain ⟨e6, b6⟩ := rr hap
  obtain ⟨e7, b7⟩ := rr hbp
  have rep6 : f.Rep (f.rnd (w * a)) := ⟨f.idem _, h.abs_rnd_le f.rnd_big (hwa hap)⟩
  have rep7 : f.Rep (f.rnd (w * b)) := ⟨f.idem _, h.abs_rnd_le f.rnd_big (hwa hbp)⟩
  generalize f.rnd (w * a) = r1 at *
  generalize f.rnd (w * b) = r2 at *
  obtain ⟨b8, b9⟩ := sum_step hu hu' hP0.le hQ0
    (show η ≤ 3 / 2 * (u * p ^ 2) by linarith only [hηP, hη]) bF' bG' (h.err (F2 + G2))
  have e8 : (fin F2 + fin G2 : FP f) = fin (f.rnd (F2 + G2)) := by
    refine h.ofReal_le ?_
    rw [abs_of_nonneg (by linarith only [nG, hF0, hP0])]
    linarith only [(abs_le.1 b8).2, uP, uQ, hρ2, hρb', hP0, hQ0]
  generalize f.rnd (F2 + G2) = D at *
  rw [← hρ2] at b9
  have kab : ∀ {a : ℝ}, |a| ≤ p → |ρ / p * a| ≤ ρ := by
    intro a hap
    rw [abs_mul, abs_of_pos hE0]
    exact hka hap
  have b6' : |r1 - ρ / p * a| ≤ 12 * u * |ρ / p * a| + η := by
    rw [abs_mul (ρ / p), abs_of_pos hE0]; exact b6
  have b7' : |r2 - ρ / p * b| ≤ 12 * u * |ρ / p * b| + η := by
    rw [abs_mul (ρ / p), abs_of_pos hE0]; exact b7
  obtain ⟨e9, b10⟩ := h.tail_quot hu' hηρ hρbig hρ0 h64 b9 (kab hap) b6'
  obtain ⟨e10, b11⟩ := h.tail_quot hu' hηρ hρbig hρ0 h64 b9 (kab hbp) b7'
  have hζ : 0 ≤ 2 * (η / ρ ^ 2) + η := by positivity
  have hzc := h.tail_under hηρ hρ0 hc (hcq.trans hqρ)
  have hzd := h.tail_under hηρ hρ0 hd (hdq.trans hqρ)
  have hpq : p * q / (p * ρ) ≤ 1 := by
    rw [div_le_one (by positivity)]
    exact mul_le_mul_of_nonneg_left hqρ hp0.le
  have kk : ∀ a c : ℝ, ρ / p * a / ρ ^ 2 * c = a * c / (p * ρ) := by
    intro a c; field_simp
  have ak : ∀ a c : ℝ, |a * c / (p * ρ)| = |a| * |c| / (p * ρ) := by
    intro a c; rw [abs_div, abs_mul, abs_of_pos (show 0 < p * ρ by positivity)]
  obtain ⟨p1, p1', -, s1, c1, c1', -, -, d1, b12⟩ := h.cmul_step hu' (d := -d) hζ b10 b11 hzc
    (by rw [abs_neg]; exact hzd) (by
      rw [kk, kk, ak, ak, abs_neg, ← add_div]
      exact (div_le_div_of_nonneg_right cs1 (by positivity)).trans hpq)
  obtain ⟨p2, p2', s2, -, c2, c2', d2, b13, -⟩ := h.cmul_step hu' (c := -d) (d := c) hζ b10 b11
    (by rw [abs_neg]; exact hzd) hzc (by
      rw [kk, kk, ak, ak, ← add_div, abs_neg, add_comm]
      exact (div_le_div_of_nonneg_right cs2 (by positivity)).trans hpq)
  refine ⟨w, f.rnd (1 / w), s1, s2, r1, r2, D, e4, e6, e7, e5, e8, ?_, rep6, rep7, b5, ?_, ?_, b6, b7⟩
  · rw [e9, e10]
    refine Prod.ext ?_ ?_
    · change fin _ * fin c - fin _ * fin (-d) = fin s1
      rw [c1, c1', d1]
    · change fin _ * fin (-d) + fin _ * fin c = fin s2
      rw [c2, c2', d2]
  · rw [kk, kk, ← sub_div] at b12
    rwa [show a * c + b * d = a * c - b * -d by ring]
  · rw [kk, kk, ← add_div] at b13
    rwa [show b * c - a * d = a * -d + b * c by ring]

/-- Everything in the most common case: `f2` is much larger than `max(g2, 1) * safmin`. -/
theorem tail_mid (hu' : u ≤ 1 / 1024) (hbig : 8 / m ^ 2 ≤ f.big) {s a b c d : ℝ} (hs : 0 < s)
    (hηs : η ≤ u * s) (hsm : s ≤ 2 * u * m ^ 2) (hsb : 3 ≤ s * f.big) (ha : |a| ≤ 1 / m) (hb : |b| ≤ 1 / m) (hc : |c| ≤ 1 / m)
    (hd : |d| ≤ 1 / m) (hρm : m ^ 2 ≤ a ^ 2 + b ^ 2 + (c ^ 2 + d ^ 2))
    (hP : geOf (stdMax (abssqOf (fin c, fin d)) 1 * fin s : FP f) (abssqOf (fin a, fin b)) = false)
    (hyp : FP f → FP f → FP f) (sm sx : FP f) (F G : FP f × FP f) (up down : Nat) {p ρ : ℝ}
    (hp : p = √(a ^ 2 + b ^ 2)) (hρ : ρ = √(a ^ 2 + b ^ 2 + (c ^ 2 + d ^ 2))) :
    ∃ cs s1 s2 r1 r2, givensTailOf hyp (fin s) sm sx F G (fin a, fin b) (fin c, fin d) up down =
        (fin cs, (fin s1, fin s2),
          if 0 < up then (rescaleBackOf sx up (fin r1), rescaleBackOf sx up (fin r2))
          else if 0 < down then
            (rescaleBackOf sm (2 - down) (fin r1), rescaleBackOf sm (2 - down) (fin r2))
          else (fin r1, fin r2)) ∧
      f.Rep r1 ∧ f.Rep r2 ∧
      |cs - p / ρ| ≤ 12 * u * (p / ρ) + η ∧
      |s1 - (a * c + b * d) / (p * ρ)| ≤ 40 * u ∧
      |s2 - (b * c - a * d) / (p * ρ)| ≤ 40 * u ∧
      |r1 - ρ / p * a| ≤ 12 * u * (ρ / p * |a|) + η ∧
      |r2 - ρ / p * b| ≤ 12 * u * (ρ / p * |b|) + η := by
  have hm := h.m_pos
  have h16 : 16 ≤ 1 / m ^ 2 := by
    rw [le_div_iff₀ (by positivity)]; have := h.m_sq_le; linarith
  have hbig' : 8 * (1 / m ^ 2) ≤ f.big := by rw [mul_one_div]; exact hbig
  have sqle : ∀ {t : ℝ}, |t| ≤ 1 / m → t ^ 2 ≤ 1 / m ^ 2 := by
    intro t ht
    have hq : (1 / m) ^ 2 = 1 / m ^ 2 := by field_simp
    rw [← hq, ← sq_abs t]; exact pow_le_pow_left₀ (abs_nonneg t) ht 2
  have hPle : a ^ 2 + b ^ 2 ≤ 2 * (1 / m ^ 2) := by linarith only [sqle ha, sqle hb]
  have hQle : c ^ 2 + d ^ 2 ≤ 2 * (1 / m ^ 2) := by linarith only [sqle hc, sqle hd]
  clear sqle
  obtain ⟨F2, eF, nF, bF⟩ := h.abssq_fin hu' ha hb
  obtain ⟨G2, eG, nG, bG⟩ := h.abssq_fin hu' hc hd
  have hap : |a| ≤ p := by rw [hp]; exact Real.abs_le_sqrt (by linarith only [sq_nonneg b])
  have hbp : |b| ≤ p := by rw [hp]; exact Real.abs_le_sqrt (by linarith only [sq_nonneg a])
  have hcq : |c| ≤ √(c ^ 2 + d ^ 2) := Real.abs_le_sqrt (by linarith only [sq_nonneg d])
  have hdq : |d| ≤ √(c ^ 2 + d ^ 2) := Real.abs_le_sqrt (by linarith only [sq_nonneg c])
  have cs1 := cauchy_two a b c d
  have cs2 := cauchy_two b a c d
  rw [add_comm (b ^ 2)] at cs2
  have hq2 : √(c ^ 2 + d ^ 2) ^ 2 = c ^ 2 + d ^ 2 := Real.sq_sqrt (by positivity)
  have hp2 : p ^ 2 = a ^ 2 + b ^ 2 := by rw [hp]; exact Real.sq_sqrt (by positivity)
  have hρ2 : ρ ^ 2 = a ^ 2 + b ^ 2 + (c ^ 2 + d ^ 2) := by rw [hρ]; exact Real.sq_sqrt (by positivity)
  have hqρ : √(c ^ 2 + d ^ 2) ≤ ρ := by
    rw [hρ]; exact Real.sqrt_le_sqrt (by linarith only [sq_nonneg a, sq_nonneg b])
  have hpρ : p ≤ ρ := by
    rw [hp, hρ]; exact Real.sqrt_le_sqrt (by linarith only [sq_nonneg c, sq_nonneg d])
  have hmax1 : 1 ≤ max (c ^ 2 + d ^ 2) 1 := le_max_right _ _
  have hP' := hP
  rw [eF, eG] at hP'
  have hMs := h.tail_test hu' hs (h.m_sq_small hsm hu') hηs (by positivity) (by positivity) nG
    (by
      have h0 : 0 ≤ c ^ 2 + d ^ 2 := by positivity
      have h1 : u * (c ^ 2 + d ^ 2) ≤ 1 / 1024 * (c ^ 2 + d ^ 2) := mul_le_mul_of_nonneg_right hu' h0
      linarith only [(abs_le.1 bG).2, h1, hQle, hbig', h.eta_le_u, h.u_le, h16]) bF bG hP'
  have hp0 : 0 < p := by
    rw [hp]
    refine Real.sqrt_pos.2 ?_
    have : 0 < s * max (c ^ 2 + d ^ 2) 1 := by positivity
    linarith only [this, hMs]
  rw [← hp] at cs1 cs2
  clear hp hρ
  generalize √(c ^ 2 + d ^ 2) = q at *
  rw [← hp2, ← hq2] at hρ2
  rw [← hp2] at hPle bF hMs hρm
  rw [← hq2] at hQle bG hMs hmax1 hρm
  rw [← hρ2] at hρm
  have hηρ : η ≤ u / 4 * ρ ^ 2 := by
    have h1 := mul_le_mul_of_nonneg_left hsm h.u_nonneg
    have h2 : u * (u * m ^ 2) ≤ 1 / 1024 * (u * m ^ 2) :=
      mul_le_mul_of_nonneg_right hu' (mul_nonneg h.u_nonneg (by positivity))
    have h3 := mul_le_mul_of_nonneg_left hρm h.u_nonneg
    have h4 : 0 ≤ u * m ^ 2 := mul_nonneg h.u_nonneg (by positivity)
    linarith only [h1, h2, h3, h4, hηs]
  have hρbig : 4 ≤ ρ ^ 2 * f.big := by
    have h1 := mul_le_mul hρm hbig' (by positivity) (by positivity)
    have h2 : m ^ 2 * (8 * (1 / m ^ 2)) = 8 := by field_simp
    linarith only [h1, h2]
  have hρb' : ρ ^ 2 ≤ f.big / 2 := by linarith only [hρ2, hPle, hQle, hbig']
  have hρb : ρ ≤ f.big / 2 := by
    rcases le_total ρ 1 with h1 | h1
    · linarith only [h1, h16, hbig']
    · have : ρ ≤ ρ ^ 2 := by nlinarith only [h1]
      linarith only [this, hρb']
  obtain ⟨w, cs, s1, s2, r1, r2, D, e1, e2, e3, e4, e5, e6, rest⟩ := h.tail_rest hu' hs.le hηs hsb
    (by linarith only [hbig', h16]) hc hd hp0 hqρ hpρ hρb hρb' hρ2 hηρ hρbig (by linarith only [hMs]) hap hbp hcq hdq
    cs1 cs2 nG bF bG
  refine ⟨cs, s1, s2, r1, r2, ?_, rest⟩
  unfold givensTailOf
  rw [eF, eG] at hP
  simp only [eF, eG, hP, Bool.false_eq_true, if_false, e1, e2, e3, e4, e5]
  exact Prod.ext rfl (Prod.ext e6 rfl)

end Format.Scaled

end StdBLAS

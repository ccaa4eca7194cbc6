import Verif.Lemmas.GivensComplexTiny

/-!
# The complex `setup_givens_rotation` for a tiny first number
-/

namespace StdBLAS
open FP

namespace Format.Scaled
variable {f : Format} {u η m s : ℝ} (h : f.Scaled u η m)
include h

/-- The squares of the scaled numbers do not overflow. -/
theorem abssq_le (hs : f.SafeMin u η m s) {Y : ℂ} (h1 : |Y.re| ≤ 1 / m) (h2 : |Y.im| ≤ 1 / m) :
    ∃ G, abssqOf (fin Y.re, fin Y.im) = (fin G : FP f) ∧ 0 ≤ G ∧ G ≤ f.big ∧
      |G - ‖Y‖ ^ 2| ≤ 3 * u * ‖Y‖ ^ 2 + 4 * η := by
  have hm := h.m_pos
  have hu := h.u_nonneg
  have hu' := hs.u_le
  have hηu := h.eta_le_u
  obtain ⟨G, e, hG0, hG⟩ := h.abssq_fin hs.u_le h1 h2
  have hq : (1 / m) ^ 2 = 1 / m ^ 2 := by field_simp
  have a2 : Y.re ^ 2 ≤ 1 / m ^ 2 := by
    rw [← hq, ← sq_abs]; exact pow_le_pow_left₀ (abs_nonneg _) h1 2
  have b2 : Y.im ^ 2 ≤ 1 / m ^ 2 := by
    rw [← hq, ← sq_abs]; exact pow_le_pow_left₀ (abs_nonneg _) h2 2
  have hbig : 8 * (1 / m ^ 2) ≤ f.big := by have := hs.big; rw [mul_one_div]; exact this
  have hb2 := h.two_le_big
  refine ⟨G, e, hG0, ?_, by rw [norm_sq_parts]; exact hG⟩
  have k1 : u * (Y.re ^ 2 + Y.im ^ 2) ≤ 1 / 1024 * (Y.re ^ 2 + Y.im ^ 2) :=
    mul_le_mul_of_nonneg_right hu' (by positivity)
  linarith [(abs_le.1 hG).2]

/-- The test for a tiny `f2`. -/
theorem test_value (hs : f.SafeMin u η m s) {F G : ℝ} (hG0 : 0 ≤ G) (hGb : G ≤ f.big) :
    geOf (stdMax (fin G) 1 * fin s : FP f) (fin F) = decide (F ≤ f.rnd (max G 1 * s)) ∧
      |f.rnd (max G 1 * s) - max G 1 * s| ≤ u * (max G 1 * s) + η := by
  have hb := f.one_le_big
  have hs16 : s ≤ 1 / 16 := h.m_sq_small hs.le hs.u_le
  have hM0 : 0 ≤ max G 1 * s := mul_nonneg (le_max_of_le_left hG0) hs.pos.le
  have hM : max G 1 * s ≤ f.big := by
    have k2 := mul_le_mul (max_le hGb hb) hs16 hs.pos.le (by linarith)
    linarith
  have e1 : (stdMax (fin G) 1 * fin s : FP f) = fin (f.rnd (max G 1 * s)) := by
    have : stdMax (fin G : FP f) 1 = fin (max G 1) := Format.Scaled.stdMax_fin _ _
    rw [this]
    exact h.ofReal_le (by rw [abs_of_nonneg hM0]; exact hM)
  rw [e1, Format.Scaled.geOf_fin]
  refine ⟨rfl, ?_⟩
  have := h.err (max G 1 * s)
  rwa [abs_of_nonneg hM0] at this

/-- The computation if the test for a tiny `f2` succeeds. -/
theorem tail_tiny (hs : f.SafeMin u η m s) {hyp : FP f → FP f → FP f}
    (hh : Hypot hyp u η) {x y X Y : ℂ} {t : ℝ} (ht : 0 < t) (hx : f.CRep x) (hx0 : x ≠ 0)
    (hρ : pairLength x y ≤ f.big / 2) (hL : m < largestPart X Y) (hL1 : largestPart X Y ≤ 1 / m)
    (dX : ‖X - (t : ℂ) * x‖ ≤ 5 * η * largestPart X Y) (dY : ‖Y - (t : ℂ) * y‖ ≤ 5 * η * largestPart X Y)
    (htest : geOf (stdMax (abssqOf (fin Y.re, fin Y.im)) 1 * fin s : FP f) (abssqOf (fin X.re, fin X.im)) =
      true) (sm : FP f) (up down : Nat) :
    ∃ c s1 s2 r1 r2,
      givensTailOf hyp (fin s) sm (fin (1 / m)) (fin x.re, fin x.im) (fin y.re, fin y.im)
          (fin X.re, fin X.im) (fin Y.re, fin Y.im) up down =
        (fin c, (fin s1, fin s2), (fin r1, fin r2)) ∧
      |c - rotationCos x y| ≤ 8 * u * rotationCos x y + 5 * (η / m) ∧
      |s1 - (rotationSin x y).re| ≤ 16 * u ∧ |s2 - (rotationSin x y).im| ≤ 16 * u ∧
      |r1 - (rotatedFirst x y).re| ≤ 30 * u * pairLength x y + 7 * η ∧
      |r2 - (rotatedFirst x y).im| ≤ 30 * u * pairLength x y + 7 * η := by
  have hm := h.m_pos
  have hm4 := h.m_le
  have hu := h.u_nonneg
  have hu' := hs.u_le
  have hη0 := h.eta_nonneg
  obtain ⟨l1, l2, l3, l4⟩ := largestPart_le hL1
  obtain ⟨F, eF, hF0, hFb, hF⟩ := h.abssq_le hs l1 l2
  obtain ⟨G, eG, hG0, hGb, hG⟩ := h.abssq_le hs l3 l4
  have htest' := htest
  rw [eF, eG, (h.test_value hs hG0 hGb).1, decide_eq_true_eq] at htest'
  have hP := tiny_test_bound hu' hs.pos (h.m_sq_small hs.le hs.u_le) hη0 hs.eta (sq_nonneg _) (sq_nonneg _) hG0
    hF hG (by linarith [(abs_le.1 (h.test_value hs (F := F) hG0 hGb).2).2]) htest'
  obtain ⟨hY, hPQ, hLY⟩ := tiny_lengths hu hu' hm hm4 hs.pos hs.le hL hP
  have hq : 0 < ‖Y‖ := lt_of_lt_of_le hm hY
  have hY0 : Y ≠ 0 := norm_pos_iff.1 hq
  -- underflow is negligible
  have hηm : η ≤ u / 512 * m ^ 2 := by
    have h1 := mul_le_mul_of_nonneg_left hs.le hu
    have h2 : u * (u * m ^ 2) ≤ 1 / 1024 * (u * m ^ 2) := mul_le_mul_of_nonneg_right hu' (by positivity)
    have h4 := hs.eta
    linarith
  have hm2 : m ^ 2 ≤ 1 / 4 * m := by nlinarith
  have hηm1 : η ≤ u / 2048 * m := by
    have := mul_le_mul_of_nonneg_left hm2 (show 0 ≤ u / 512 by positivity)
    linarith
  have hη8 : η ≤ u / 8192 := by
    have := mul_le_mul_of_nonneg_left h.m_sq_le (show 0 ≤ u / 512 by positivity)
    linarith
  have hηq : η ≤ u / 1024 * ‖Y‖ := by
    have := mul_le_mul_of_nonneg_left hY (show 0 ≤ u / 1024 by positivity)
    have : 0 ≤ u / 2048 * m := by positivity
    linarith
  have hηq2 : 4 * η ≤ u / 128 * ‖Y‖ ^ 2 := by
    have h1 := pow_le_pow_left₀ hm.le hY 2
    have := mul_le_mul_of_nonneg_left h1 (show 0 ≤ u / 128 by positivity)
    linarith
  have dX' : ‖X - (t : ℂ) * x‖ ≤ 5 * η * ‖Y‖ := dX.trans (mul_le_mul_of_nonneg_left hLY (by positivity))
  have dY' : ‖Y - (t : ℂ) * y‖ ≤ 5 * η * ‖Y‖ := dY.trans (mul_le_mul_of_nonneg_left hLY (by positivity))
  have hy0 : y ≠ 0 := by
    rintro rfl
    rw [mul_zero, sub_zero] at dY'
    have : η * ‖Y‖ ≤ u / 8192 * ‖Y‖ := mul_le_mul_of_nonneg_right hη8 hq.le
    have : u * ‖Y‖ ≤ 1 / 1024 * ‖Y‖ := mul_le_mul_of_nonneg_right hu' hq.le
    linarith
  have hxy := tiny_original ht hu hu' hη0 hη8 hPQ dX' dY'
  obtain ⟨T1, T2, T3⟩ := tiny_target ht hu hu' hx0 hy0 hY0 hxy dX' dY'
  obtain ⟨I1, I2, I3, I4, I5⟩ := rotation_identity (y := y) hx0
  obtain ⟨n1, n2⟩ := norm_le_pairLength x y
  have hρ0 : 0 ≤ pairLength x y := Real.sqrt_nonneg _
  have hXY : ‖X‖ ≤ ‖Y‖ := by
    refine le_of_sq_le_sq ?_ hq.le
    have := mul_le_mul_of_nonneg_right hu' (sq_nonneg ‖Y‖)
    linarith [sq_nonneg ‖Y‖]
  -- the numbers of the program
  obtain ⟨p, ep, hp⟩ := h.hypot_fin hh (h.norm_le_big l1 l2)
  obtain ⟨w, ew, hw⟩ := h.tiny_root hu' hq hG0 hGb hηq hηq2 hG
  obtain ⟨ec, hc⟩ := h.tiny_cos hu' (norm_nonneg X) hq hXY hp hw
    (by linarith [mul_nonneg hu hq.le])
  obtain ⟨a, b, ed, ha, hb⟩ := h.tiny_direction hs hh hx hx0 (n1.trans hρ)
  obtain ⟨e1, i1⟩ := h.quotient_err hq (Complex.abs_re_le_norm Y) hw (by linarith)
  obtain ⟨e2, i2⟩ := h.quotient_err (a := -Y.im) hq (by rw [abs_neg]; exact Complex.abs_im_le_norm Y) hw
    (by linarith)
  have uu : u * u ≤ 1 / 1024 * u := mul_le_mul_of_nonneg_right hu' hu
  obtain ⟨s1, s2, es, j1, j2⟩ := h.complex_product hu' (Z := x / (‖x‖ : ℂ))
    (W := (starRingEnd ℂ) Y / (‖Y‖ : ℂ)) (α := 7 / 2 * u) (β := 4 * u) (R := 1) zero_le_one (by positivity)
    (by positivity) (by rw [Complex.div_ofReal_re]; exact ha) (by rw [Complex.div_ofReal_im]; exact hb)
    (by rw [Complex.div_ofReal_re, Complex.conj_re]; exact i1.trans (by linarith))
    (by rw [Complex.div_ofReal_im, Complex.conj_im]; exact i2.trans (by linarith))
    (by rw [norm_div, Complex.norm_real, norm_norm, div_self (norm_pos_iff.2 hx0).ne'])
    (by rw [norm_div, RCLike.norm_conj, Complex.norm_real, norm_norm, div_self hq.ne'])
    (by linarith) (by
      have := h.inv_ge
      have := h.big_ge_inv
      linarith)
  have S1 : |s1 - (rotationSin x y).re| ≤ 16 * u := by
    have k1 := (Complex.abs_re_le_norm _).trans T2
    rw [Complex.sub_re] at k1
    have := abs_sub_le s1 (x / (‖x‖ : ℂ) * ((starRingEnd ℂ) Y / (‖Y‖ : ℂ))).re (rotationSin x y).re
    linarith
  have S2 : |s2 - (rotationSin x y).im| ≤ 16 * u := by
    have k1 := (Complex.abs_im_le_norm _).trans T2
    rw [Complex.sub_im] at k1
    have := abs_sub_le s2 (x / (‖x‖ : ℂ) * ((starRingEnd ℂ) Y / (‖Y‖ : ℂ))).im (rotationSin x y).im
    linarith
  have C1 : |f.rnd (p / w) - rotationCos x y| ≤ 8 * u * rotationCos x y + 5 * (η / m) := by
    have k1 := abs_sub_le (f.rnd (p / w)) (‖X‖ / ‖Y‖) (rotationCos x y)
    have k2 : u * (‖X‖ / ‖Y‖) ≤ u * (rotationCos x y + (6 / 5 * u * rotationCos x y + 10 * η)) :=
      mul_le_mul_of_nonneg_left (by linarith [(abs_le.1 T1).2]) hu
    have k3 : u * (u * rotationCos x y) ≤ 1 / 1024 * (u * rotationCos x y) :=
      mul_le_mul_of_nonneg_right hu' (by positivity)
    have k4 : u * η ≤ 1 / 1024 * η := mul_le_mul_of_nonneg_right hu' hη0
    have k5 : η / ‖Y‖ ≤ η / m := div_le_div_of_nonneg_left hη0 hm hY
    have k6 : 4 * η ≤ η / m := by
      rw [le_div_iff₀ hm]
      have := mul_le_mul_of_nonneg_left hm4 hη0
      linarith
    have : 0 ≤ u * rotationCos x y := by positivity
    linarith
  have hηmu : η / m ≤ u / 2048 := by rw [div_le_iff₀ hm]; exact hηm1
  have hcos : rotationCos x y ≤ 1 / 16 := by
    unfold rotationCos
    rw [div_le_iff₀ (lt_of_lt_of_le (norm_pos_iff.2 hx0) n1)]
    linarith
  have C2 : |f.rnd (p / w) - rotationCos x y| ≤ u := by
    have : u * rotationCos x y ≤ u * (1 / 16) := mul_le_mul_of_nonneg_left hcos hu
    linarith
  have zero : ∀ v : ℝ, |v - v| ≤ 0 := fun v => by rw [sub_self, abs_zero]
  have uρ : u * pairLength x y ≤ 1 / 1024 * pairLength x y := mul_le_mul_of_nonneg_right hu' hρ0
  have big4 : 4 ≤ f.big := h.inv_ge.trans h.big_ge_inv
  obtain ⟨g1, g2, eg, q1, q2⟩ := h.complex_product hu' (Z := rotationSin x y) (W := y) (α := 16 * u)
    (β := 0) hρ0 (by positivity) le_rfl S1 S2 (zero _) (zero _) I2 n2
    (by linarith) (by linarith)
  have f1 := h.tiny_first hu' hρ0 C2 I4 I5 ((Complex.abs_re_le_norm x).trans T3) hρ
  have f2 := h.tiny_first hu' hρ0 C2 I4 I5 ((Complex.abs_im_le_norm x).trans T3) hρ
  have R1 : rotationCos x y * x.re + (rotationSin x y * y).re = (rotatedFirst x y).re := by
    rw [← I1, Complex.add_re, Complex.re_ofReal_mul]
  have R2 : rotationCos x y * x.im + (rotationSin x y * y).im = (rotatedFirst x y).im := by
    rw [← I1, Complex.add_im, Complex.im_ofReal_mul]
  obtain ⟨er1, ir1⟩ := h.tiny_last hu' hρ0 f1.2 (w := g1) (W := (rotationSin x y * y).re) (by linarith only [q1])
    (by rw [R1, ← I3]; exact Complex.abs_re_le_norm _) hρ
  obtain ⟨er2, ir2⟩ := h.tiny_last hu' hρ0 f2.2 (w := g2) (W := (rotationSin x y * y).im) (by linarith only [q2])
    (by rw [R2, ← I3]; exact Complex.abs_im_le_norm _) hρ
  rw [R1] at ir1
  rw [R2] at ir2
  refine ⟨_, s1, s2, _, _, ?_, C1, S1, S2, ir1, ir2⟩
  have hz := ne_zero_test (f := f) hx0
  have en : (-fin Y.im : FP f) = fin (-Y.im) := rfl
  unfold givensTailOf
  simp only [htest, if_true, hz, Bool.false_eq_true, if_false, ed]
  simp only [eG, ew, ep, ec, e1, en, e2, es, eg, f1.1, f2.1, er1, er2]

/-- The test for a tiny `f2` fails if the first number is not tiny. -/
theorem test_false (hs : f.SafeMin u η m s) {X Y : ℂ} (hL1 : largestPart X Y ≤ 1 / m)
    (hP : 2 * s * max (‖Y‖ ^ 2) 1 ≤ ‖X‖ ^ 2) :
    geOf (stdMax (abssqOf (fin Y.re, fin Y.im)) 1 * fin s : FP f) (abssqOf (fin X.re, fin X.im)) = false := by
  obtain ⟨l1, l2, l3, l4⟩ := largestPart_le hL1
  obtain ⟨F, eF, hF0, hFb, hF⟩ := h.abssq_le hs l1 l2
  obtain ⟨G, eG, hG0, hGb, hG⟩ := h.abssq_le hs l3 l4
  by_contra htest
  rw [Bool.not_eq_false, eF, eG, (h.test_value hs hG0 hGb).1, decide_eq_true_eq] at htest
  have hP' := tiny_test_bound hs.u_le hs.pos (h.m_sq_small hs.le hs.u_le) h.eta_nonneg hs.eta (sq_nonneg _)
    (sq_nonneg _) hG0 hF hG (by linarith [(abs_le.1 (h.test_value hs (F := F) hG0 hGb).2).2]) htest
  have : 0 < s * max (‖Y‖ ^ 2) 1 := mul_pos hs.pos (lt_of_lt_of_le one_pos (le_max_right _ _))
  linarith

/-- It succeeds if the first number is tiny. -/
theorem test_true (hs : f.SafeMin u η m s) {X Y : ℂ} (hL1 : largestPart X Y ≤ 1 / m)
    (hP : ‖X‖ ^ 2 ≤ 4 / 5 * (s * max (‖Y‖ ^ 2) 1)) :
    geOf (stdMax (abssqOf (fin Y.re, fin Y.im)) 1 * fin s : FP f) (abssqOf (fin X.re, fin X.im)) = true := by
  obtain ⟨l1, l2, l3, l4⟩ := largestPart_le hL1
  obtain ⟨F, eF, hF0, hFb, hF⟩ := h.abssq_le hs l1 l2
  obtain ⟨G, eG, hG0, hGb, hG⟩ := h.abssq_le hs l3 l4
  by_contra htest
  rw [Bool.not_eq_true, eF, eG] at htest
  have := h.tail_test hs.u_le hs.pos (h.m_sq_small hs.le hs.u_le) hs.eta (sq_nonneg _) (sq_nonneg _) hG0 hGb
    hF hG htest
  have : 0 < s * max (‖Y‖ ^ 2) 1 := mul_pos hs.pos (lt_of_lt_of_le one_pos (le_max_right _ _))
  linarith

omit h in
/-- The rotation for a second number that is zero. -/
theorem rotation_second_zero {x : ℂ} (hx0 : x ≠ 0) :
    rotationCos x 0 = 1 ∧ rotationSin x 0 = 0 ∧ rotatedFirst x 0 = x := by
  have hn : 0 < ‖x‖ := norm_pos_iff.2 hx0
  have hρ : pairLength x 0 = ‖x‖ := by
    unfold pairLength
    rw [norm_zero, zero_pow two_ne_zero, add_zero, Real.sqrt_sq hn.le]
  refine ⟨?_, ?_, ?_⟩
  · unfold rotationCos; rw [hρ, div_self hn.ne']
  · unfold rotationSin; simp
  · unfold rotatedFirst; rw [hρ, div_self hn.ne', Complex.ofReal_one, one_mul]

/-- A first number that is tiny stays so when both numbers are scaled. -/
theorem tiny_scaled (hs : f.SafeMin u η m s) {x y X Y : ℂ} {t : ℝ} (ht : 0 < t)
    (dX : ‖X - (t : ℂ) * x‖ ≤ 5 * η * largestPart X Y) (dY : ‖Y - (t : ℂ) * y‖ ≤ 5 * η * largestPart X Y)
    (hxy : 2 * ‖x‖ ^ 2 ≤ s * ‖y‖ ^ 2) : ‖X‖ ^ 2 ≤ 4 / 5 * (s * max (‖Y‖ ^ 2) 1) := by
  have hL : largestPart X Y ≤ ‖X‖ + ‖Y‖ := by
    have hp := norm_nonneg X
    have hq := norm_nonneg Y
    refine max_le (max_le ?_ ?_) (max_le ?_ ?_)
    · linarith [Complex.abs_re_le_norm X]
    · linarith [Complex.abs_im_le_norm X]
    · linarith [Complex.abs_re_le_norm Y]
    · linarith [Complex.abs_im_le_norm Y]
  have hη := h.eta_nonneg
  have hpos := hs.pos
  have hs1 := h.m_sq_small hs.le hs.u_le
  have hηs := hs.eta.trans (mul_le_mul_of_nonneg_right hs.u_le hpos.le)
  have hd := mul_le_mul_of_nonneg_left hL (show 0 ≤ 5 * η by linarith)
  have a1 := ((abs_norm_sub_norm_le X _).trans dX).trans hd
  have a2 := ((abs_norm_sub_norm_le Y _).trans dY).trans hd
  rw [norm_smul_pos ht] at a1 a2
  have hxy' : 2 * (t * ‖x‖) ^ 2 ≤ s * (t * ‖y‖) ^ 2 := by
    have := mul_le_mul_of_nonneg_left hxy (sq_nonneg t)
    rw [mul_pow, mul_pow]; linarith
  have hp0 : 0 ≤ t * ‖x‖ := by positivity
  have hq0 : 0 ≤ t * ‖y‖ := by positivity
  have hp := norm_nonneg X
  have hq := norm_nonneg Y
  generalize t * ‖x‖ = p0 at *
  generalize t * ‖y‖ = q0 at *
  generalize ‖X‖ = p at *
  generalize ‖Y‖ = q at *
  clear dX dY hL hd hxy
  obtain ⟨σ, hσ, rfl⟩ : ∃ σ, 0 < σ ∧ s = σ ^ 2 := ⟨√s, Real.sqrt_pos.2 hpos, (Real.sq_sqrt hpos.le).symm⟩
  have hσ4 : σ ≤ 1 / 4 := by
    have h : σ ^ 2 ≤ (1 / 4) ^ 2 := by linarith
    exact (pow_le_pow_iff_left₀ hσ.le (by norm_num) two_ne_zero).1 h
  have hη4 : η ≤ σ / 4096 := by
    have := mul_le_mul_of_nonneg_left hσ4 hσ.le
    rw [sq] at hηs
    linarith
  have b1 : p0 ≤ 3 / 4 * (σ * q0) := by
    refine (pow_le_pow_iff_left₀ hp0 (by positivity) two_ne_zero).1 ?_
    have : (3 / 4 * (σ * q0)) ^ 2 = 9 / 16 * (σ ^ 2 * q0 ^ 2) := by ring
    rw [this]
    have : 0 ≤ σ ^ 2 * q0 ^ 2 := by positivity
    linarith
  have c1 := (_root_.abs_le.1 a1).2
  have c2 := (_root_.abs_le.1 a2).1
  have e1 : 5 * η * (p + q) ≤ σ / 512 * (p + q) :=
    mul_le_mul_of_nonneg_right (by linarith) (by linarith)
  have e2 : σ * p ≤ 1 / 4 * p := mul_le_mul_of_nonneg_right hσ4 hp
  have e3 : σ * q ≤ 1 / 4 * q := mul_le_mul_of_nonneg_right hσ4 hq
  have e4 : q0 ≤ q + σ / 512 * (p + q) := by linarith
  have e5 : q0 ≤ 1001 / 1000 * q + 1 / 1000 * p := by linarith
  have e6 := mul_le_mul_of_nonneg_left e5 hσ.le
  have hσq : 0 ≤ σ * q := by positivity
  have hp' : p ≤ q := by linarith
  have e7 := mul_le_mul_of_nonneg_left hp' hσ.le
  have e8 : p ≤ 7 / 8 * (σ * q) := by linarith
  have e9 := pow_le_pow_left₀ hp e8 2
  have e10 := mul_le_mul_of_nonneg_left (le_max_left (q ^ 2) 1) hpos.le
  have : (7 / 8 * (σ * q)) ^ 2 = 49 / 64 * (σ ^ 2 * q ^ 2) := by ring
  have : 0 ≤ σ ^ 2 * q ^ 2 := by positivity
  linarith

/-- The computation for large numbers, if the test for a tiny `f2` fails. -/
theorem large_normal (hs : f.SafeMin u η m s) {x y X Y : ℂ} (hx : f.CRep x) (hy : f.CRep y) (hx0 : x ≠ 0)
    {k : Nat} (hk : 1 ≤ k) (hL : largestPart X Y ≤ 1 / m) (hL9 : 9 / 10 ≤ largestPart X Y)
    (dX : ‖X - ((m ^ k : ℝ) : ℂ) * x‖ ≤ 4 * η) (dY : ‖Y - ((m ^ k : ℝ) : ℂ) * y‖ ≤ 4 * η)
    (htest : geOf (stdMax (abssqOf (fin Y.re, fin Y.im)) 1 * fin s : FP f) (abssqOf (fin X.re, fin X.im)) =
      false) (hyp : FP f → FP f → FP f) (F G : FP f × FP f) :
    ∃ c s1 s2 r1 r2,
      givensTailOf hyp (fin s) (fin m) (fin (1 / m)) F G (fin X.re, fin X.im) (fin Y.re, fin Y.im) k 0 =
        (fin c, (fin s1, fin s2), (r1, r2)) ∧
      |c - rotationCos x y| ≤ 12 * u * rotationCos x y + 26 * η ∧
      |s1 - (rotationSin x y).re| ≤ 44 * u ∧ |s2 - (rotationSin x y).im| ≤ 44 * u ∧
      r1.Near (rotatedFirst x y).re (16 * u * pairLength x y) ∧
      r2.Near (rotatedFirst x y).im (16 * u * pairLength x y) := by
  have hm := h.m_pos
  have hm4 := h.m_le
  have hu0 := h.u_nonneg
  have hη := h.eta_nonneg
  have hηu := h.eta_le_u
  have hu := hs.u_le
  have ht : 0 < m ^ k := pow_pos hm k
  have hR := half_le_largest hL9
  have hηu32 : η ≤ u / 32 := by
    have h1 := mul_le_mul_of_nonneg_left hs.le hu0
    have h2 : u * (u * m ^ 2) ≤ 1 / 1024 * (u * m ^ 2) := mul_le_mul_of_nonneg_right hu (by positivity)
    have h3 := mul_le_mul_of_nonneg_left h.m_sq_le hu0
    have h4 := hs.eta
    linarith
  obtain ⟨l1, l2, l3, l4⟩ := largestPart_le hL
  obtain ⟨F2, eF, hF0, hFb, hF⟩ := h.abssq_le hs l1 l2
  obtain ⟨G2, eG, hG0, hGb, hG⟩ := h.abssq_le hs l3 l4
  have hMs := h.tail_test hs.u_le hs.pos (h.m_sq_small hs.le hs.u_le) hs.eta (sq_nonneg _) (sq_nonneg _) hG0 hGb
    hF hG (by rw [← eF, ← eG]; exact htest)
  have hsX : s ≤ 10 / 9 * ‖X‖ ^ 2 :=
    (le_mul_of_one_le_right hs.pos.le (le_max_right (‖Y‖ ^ 2) 1)).trans hMs
  have hX0 : X ≠ 0 := by
    rintro rfl
    rw [norm_zero] at hsX
    have := hs.pos
    norm_num at hsX
    linarith
  have hZ0 : ((m ^ k : ℝ) : ℂ) * x ≠ 0 := mul_ne_zero (by exact_mod_cast ht.ne') hx0
  obtain ⟨p1, p2, p3, p4⟩ := rotation_perturb hX0 hZ0 dX dY (by linarith)
    (under_small hs.eta hηu32 hu0 (norm_pos_iff.2 hX0) hsX)
  rw [rotationCos_smul ht] at p1
  rw [rotationSin_smul ht] at p2
  rw [rotatedFirst_smul ht] at p3
  rw [pairLength_smul ht] at p4
  obtain ⟨c, s1, s2, r1, r2, e, hr1, hr2, i1, i2, i3, i4, i5⟩ := h.tail_complex hs hL (by linarith) htest hyp
    (fin m) (fin (1 / m)) F G k 0
  have hRF : ‖rotatedFirst X Y‖ ≤ pairLength X Y := (rotation_identity hX0).2.2.1.le
  have hρb : pairLength x y ≤ 2 * f.big := by
    have hb := f.one_le_big
    unfold pairLength
    rw [Real.sqrt_le_left (by linarith), norm_sq_parts, norm_sq_parts]
    have sq : ∀ {a : ℝ}, f.Rep a → a ^ 2 ≤ f.big ^ 2 := fun ha => by
      rw [← sq_abs]; exact pow_le_pow_left₀ (abs_nonneg _) ha.2 2
    linarith [sq hx.1, sq hx.2, sq hy.1, sq hy.2]
  have hρ0 : 0 ≤ pairLength x y := Real.sqrt_nonneg _
  have b1 := large_back (z := (rotatedFirst x y).re) ht hu0 hu hη hηu i4 ((Complex.abs_re_le_norm _).trans hRF)
    (by
      have := (Complex.abs_re_le_norm _).trans p3
      rwa [Complex.sub_re, Complex.re_ofReal_mul] at this) p4 hR
  have b2 := large_back (z := (rotatedFirst x y).im) ht hu0 hu hη hηu i5 ((Complex.abs_im_le_norm _).trans hRF)
    (by
      have := (Complex.abs_im_le_norm _).trans p3
      rwa [Complex.sub_im, Complex.im_ofReal_mul] at this) p4 hR
  refine ⟨c, s1, s2, _, _, ?_, ?_, ?_, ?_, h.near_back hr1 hu hρ0 hρb b1, h.near_back hr2 hu hρ0 hρb b2⟩
  · rw [e, if_pos (show 0 < k from hk)]
  · have k1 := abs_sub_le c (rotationCos X Y) (rotationCos x y)
    have k2 : u * rotationCos X Y ≤ u * (rotationCos x y + 6 * (4 * η)) :=
      mul_le_mul_of_nonneg_left (by linarith [(abs_le.1 p1).2]) hu0
    have k3 : u * η ≤ 1 / 1024 * η := mul_le_mul_of_nonneg_right hu hη
    linarith
  · have k1 := abs_sub_le s1 (rotationSin X Y).re (rotationSin x y).re
    have k2 := (Complex.abs_re_le_norm _).trans p2
    rw [Complex.sub_re] at k2
    linarith
  · have k1 := abs_sub_le s2 (rotationSin X Y).im (rotationSin x y).im
    have k2 := (Complex.abs_im_le_norm _).trans p2
    rw [Complex.sub_im] at k2
    linarith

/-- Small numbers, one iteration, if the test for a tiny `f2` fails. -/
theorem small_normal (hs : f.SafeMin u η m s) {x y X Y : ℂ} (hX : X = ((1 / m : ℝ) : ℂ) * x)
    (hY : Y = ((1 / m : ℝ) : ℂ) * y) (hL0 : m < largestPart X Y) (hL : largestPart X Y ≤ 1 / m)
    (htest : geOf (stdMax (abssqOf (fin Y.re, fin Y.im)) 1 * fin s : FP f) (abssqOf (fin X.re, fin X.im)) =
      false) (hyp : FP f → FP f → FP f) (F G : FP f × FP f) :
    ∃ c s1 s2 r1 r2,
      givensTailOf hyp (fin s) (fin m) (fin (1 / m)) F G (fin X.re, fin X.im) (fin Y.re, fin Y.im) 0 1 =
        (fin c, (fin s1, fin s2), (fin r1, fin r2)) ∧
      |c - rotationCos x y| ≤ 12 * u * rotationCos x y + η ∧
      |s1 - (rotationSin x y).re| ≤ 40 * u ∧ |s2 - (rotationSin x y).im| ≤ 40 * u ∧
      |r1 - (rotatedFirst x y).re| ≤ 12 * u * |(rotatedFirst x y).re| + 3 * η ∧
      |r2 - (rotatedFirst x y).im| ≤ 12 * u * |(rotatedFirst x y).im| + 3 * η := by
  have hm := h.m_pos
  have hm4 := h.m_le
  have hη := h.eta_nonneg
  have ht : 0 < 1 / m := by positivity
  obtain ⟨c, s1, s2, r1, r2, e, hr1, hr2, i1, i2, i3, i4, i5⟩ := h.tail_complex hs hL
    (half_le_largest hL0.le) htest hyp (fin m) (fin (1 / m)) F G 0 1
  obtain ⟨r1', e1, d1⟩ := h.back_down 1 hr1
  obtain ⟨r2', e2, d2⟩ := h.back_down 1 hr2
  rw [hX, hY, rotationCos_smul ht] at i1
  rw [hX, hY, rotationSin_smul ht] at i2 i3
  rw [hX, hY, rotatedFirst_smul ht] at i4 i5
  rw [Complex.re_ofReal_mul] at i4
  rw [Complex.im_ofReal_mul] at i5
  refine ⟨c, s1, s2, r1', r2', ?_, i1, i2, i3, back_err hm hm4 hη i4 d1, back_err hm hm4 hη i5 d2⟩
  rw [e]
  simp only [lt_self_iff_false, if_false, zero_lt_one, if_true, Nat.reduceSub, e1, e2]

end Format.Scaled
end StdBLAS

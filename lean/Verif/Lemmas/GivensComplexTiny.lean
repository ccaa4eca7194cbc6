import Verif.Lemmas.GivensComplexScale
import Verif.Spec.Hypot

/-!
# Lemmas about the complex `setup_givens_rotation` for a first number that is zero or tiny
-/

namespace StdBLAS
open FP

namespace Format.Scaled
variable {f : Format} {u η m s : ℝ} (h : f.Scaled u η m)
include h

/-- Two iterations of the loop for small numbers. -/
theorem up_twice {x y : ℂ} (hx : f.CRep x) (hy : f.CRep y) (h1 : m ^ 3 < largestPart x y)
    (h2 : largestPart x y ≤ m ^ 2) (hr : f.rnd (largestPart x y) = largestPart x y) (fuel : Nat)
    (hf : 2 ≤ fuel) :
    rescaleCplxOf (fun s => geOf (fin m : FP f) s) (fin (1 / m)) fuel (fin x.re, fin x.im)
        (fin y.re, fin y.im) (fin (largestPart x y)) 0 =
      some ((fin (x.re / m / m), fin (x.im / m / m)), (fin (y.re / m / m), fin (y.im / m / m)), 2) := by
  have hm := h.m_pos
  have hm4 := h.m_le
  obtain ⟨n, rfl⟩ := Nat.exists_eq_add_of_le' hf
  have hb := f.one_le_big
  have key : ∀ {a : ℝ}, f.rnd a = a → |a| ≤ m → (fin a * fin (1 / m) : FP f) = fin (a / m) := by
    intro a ha hle
    refine h.mul_up ha ?_
    rw [abs_div, abs_of_pos hm, div_le_iff₀ hm]
    nlinarith
  have mm : m ^ 2 ≤ m := by nlinarith
  have down : ∀ {a : ℝ}, |a| ≤ m ^ 2 → |a / m| ≤ m := by
    intro a ha
    rw [abs_div, abs_of_pos hm, div_le_iff₀ hm]
    linarith
  obtain ⟨k1, k2, k3, k4⟩ := largestPart_le h2
  have hl0 : 0 ≤ largestPart x y := le_trans (abs_nonneg _) (largestPart_le le_rfl).1
  have k5 : |largestPart x y| ≤ m ^ 2 := by rwa [abs_of_nonneg hl0]
  rw [rescaleCplxOf]
  simp only [key hx.1.1 (k1.trans mm), key hx.2.1 (k2.trans mm), key hy.1.1 (k3.trans mm),
    key hy.2.1 (k4.trans mm), key hr (k5.trans mm), Format.Scaled.geOf_fin, decide_eq_true_eq]
  rw [if_pos (by have := down k5; rwa [abs_of_nonneg (div_nonneg hl0 hm.le)] at this), rescaleCplxOf]
  simp only [key (h.up _ hx.1.1) (down k1), key (h.up _ hx.2.1) (down k2), key (h.up _ hy.1.1) (down k3),
    key (h.up _ hy.2.1) (down k4), key (h.up _ hr) (down k5), Format.Scaled.geOf_fin, decide_eq_true_eq]
  rw [if_neg]
  rw [not_le, lt_div_iff₀ hm, lt_div_iff₀ hm]
  calc m * m * m = m ^ 3 := by ring
    _ < _ := h1

omit h in
theorem largestPart_smul {t : ℝ} (ht : 0 < t) (x y : ℂ) :
    largestPart ((t : ℂ) * x) ((t : ℂ) * y) = t * largestPart x y := by
  unfold largestPart
  rw [Complex.re_ofReal_mul, Complex.im_ofReal_mul, Complex.re_ofReal_mul, Complex.im_ofReal_mul,
    abs_mul, abs_mul, abs_mul, abs_mul, abs_of_pos ht, mul_max_of_nonneg _ _ ht.le,
    mul_max_of_nonneg _ _ ht.le, mul_max_of_nonneg _ _ ht.le]

omit h in
theorem ne_zero_test {y : ℂ} (hy0 : y ≠ 0) :
    (!FloatOps.ne (fin y.re : FP f) 0 && !FloatOps.ne (fin y.im : FP f) 0) = false := by
  by_contra hc
  apply hy0
  rw [Bool.not_eq_false, Bool.and_eq_true, Bool.not_eq_true', Bool.not_eq_true'] at hc
  have z : ∀ {t : ℝ}, FloatOps.ne (fin t : FP f) 0 = false → t = 0 := by
    intro t ht
    change FP.ne (fin t) (fin 0) = false at ht
    simpa [FP.ne] using ht
  exact Complex.ext (z hc.1) (z hc.2)

/-- The part before the computation: both numbers are multiplied by a power of `m`, such that the largest
part becomes a number of ordinary magnitude. -/
theorem scaled_pair {x y : ℂ} (hx : f.CRep x) (hy : f.CRep y) (hy0 : m < largestPart x y ∨ y ≠ 0) (hyp : FP f → FP f → FP f)
    (fuel : Nat) (hf : 2 ≤ fuel) :
    ∃ (X Y : ℂ) (t : ℝ) (up down : Nat), 0 < t ∧
      setupGivensCplxOf hyp fuel (fin s : FP f) (fin m) (fin x.re, fin x.im) (fin y.re, fin y.im) false =
        some (givensTailOf hyp (fin s) (fin m) (fin (1 / m)) (fin x.re, fin x.im) (fin y.re, fin y.im)
          (fin X.re, fin X.im) (fin Y.re, fin Y.im) up down) ∧
      m < largestPart X Y ∧ largestPart X Y ≤ 1 / m ∧ ‖X - (t : ℂ) * x‖ ≤ 5 * η * largestPart X Y ∧
      ‖Y - (t : ℂ) * y‖ ≤ 5 * η * largestPart X Y ∧ (x = 0 → X = 0) ∧
      (X = x ∧ Y = y ∧ up = 0 ∧ down = 0 ∨
        X = ((1 / m : ℝ) : ℂ) * x ∧ Y = ((1 / m : ℝ) : ℂ) * y ∧ up = 0 ∧ down = 1 ∧ largestPart x y ≤ m ∨
        X = ((1 / m / m : ℝ) : ℂ) * x ∧ Y = ((1 / m / m : ℝ) : ℂ) * y ∧ up = 0 ∧ down = 2 ∧
          largestPart x y ≤ m ^ 2 ∨
        1 ≤ up ∧ down = 0 ∧ t = m ^ up ∧ 9 / 10 ≤ largestPart X Y ∧ ‖X - (t : ℂ) * x‖ ≤ 4 * η ∧
          ‖Y - (t : ℂ) * y‖ ≤ 4 * η) := by
  have hm := h.m_pos
  have hm4 := h.m_le
  have hη := h.eta_nonneg
  have hinv := h.inv_ge
  have hrep : f.Rep (largestPart x y) :=
    max_rep (max_rep (h.abs_rep hx.1) (h.abs_rep hx.2)) (max_rep (h.abs_rep hy.1) (h.abs_rep hy.2))
  have hL0 : 0 ≤ largestPart x y := le_trans (abs_nonneg _) (largestPart_le le_rfl).1
  by_cases c1 : 1 / m ≤ largestPart x y
  · obtain ⟨X, Y, k, el, hk, hL, hL9, dX, dY, hz⟩ := h.down_loop hx hy c1 hrep fuel hf
    have e : 4 * η ≤ 5 * η * largestPart X Y := by
      have := mul_le_mul_of_nonneg_left hL9 hη
      linarith
    refine ⟨X, Y, m ^ k, k, 0, pow_pos hm k, ?_, by linarith, hL, dX.trans e, dY.trans e, hz,
      .inr (.inr (.inr ⟨hk, rfl, rfl, hL9, dX, dY⟩))⟩
    unfold setupGivensCplxOf
    simp only [h.inv_eq, Format.Scaled.scale_complex, Format.Scaled.geOf_fin, decide_eq_true_eq, c1,
      if_true, el, Option.bind_eq_bind, Option.bind_some]
  by_cases c2 : largestPart x y ≤ m
  · have hy0 := hy0.resolve_left (not_lt.2 c2)
    have hn := ne_zero_test (f := f) hy0
    have exact : ∀ {t : ℝ} {x : ℂ} {L : ℝ}, 0 ≤ L → ‖(t : ℂ) * x - (t : ℂ) * x‖ ≤ 5 * η * L := by
      intro t x L hL
      rw [sub_self, norm_zero]; positivity
    by_cases c3 : m ^ 2 < largestPart x y
    · have ht : 0 < 1 / m := by positivity
      have hL := largestPart_smul ht x y
      refine ⟨((1 / m : ℝ) : ℂ) * x, ((1 / m : ℝ) : ℂ) * y, 1 / m, 0, 1, ht, ?_, ?_, ?_,
        exact (by rw [hL]; positivity), exact (by rw [hL]; positivity), by rintro rfl; simp,
        .inr (.inl ⟨rfl, rfl, rfl, rfl, c2⟩)⟩
      · unfold setupGivensCplxOf
        simp only [h.inv_eq, Format.Scaled.scale_complex, Format.Scaled.geOf_fin, decide_eq_true_eq, c1, c2,
          if_false, if_true, hn, Bool.or_false, Bool.false_eq_true,
          h.up_once hx hy c3 c2 hrep.1 fuel (by omega), Option.bind_eq_bind, Option.bind_some,
          Complex.re_ofReal_mul, Complex.im_ofReal_mul, one_div_mul_eq_div]
      · rw [hL, one_div_mul_eq_div, lt_div_iff₀ hm]; linarith
      · rw [hL, one_div_mul_eq_div]
        exact div_le_div_of_nonneg_right (by linarith) hm.le
    · have ht : 0 < 1 / m / m := by positivity
      have hL := largestPart_smul ht x y
      have hL00 : largestPart x y ≠ 0 := by
        intro hz
        obtain ⟨-, -, a, b⟩ := largestPart_le hz.le
        exact hy0 (Complex.ext (abs_eq_zero.1 (le_antisymm a (abs_nonneg _)))
          (abs_eq_zero.1 (le_antisymm b (abs_nonneg _))))
      have c4 := h.small _ hrep.1 hL00
      rw [abs_of_nonneg hL0] at c4
      have e : ∀ a : ℝ, 1 / m / m * a = a / m / m := fun a => by ring
      refine ⟨((1 / m / m : ℝ) : ℂ) * x, ((1 / m / m : ℝ) : ℂ) * y, 1 / m / m, 0, 2, ht, ?_, ?_, ?_,
        exact (by rw [hL]; positivity), exact (by rw [hL]; positivity), by rintro rfl; simp,
        .inr (.inr (.inl ⟨rfl, rfl, rfl, rfl, not_lt.1 c3⟩))⟩
      · unfold setupGivensCplxOf
        simp only [h.inv_eq, Format.Scaled.scale_complex, Format.Scaled.geOf_fin, decide_eq_true_eq, c1, c2,
          if_false, if_true, hn, Bool.or_false, Bool.false_eq_true,
          h.up_twice hx hy c4 (not_lt.1 c3) hrep.1 fuel hf, Option.bind_eq_bind, Option.bind_some,
          Complex.re_ofReal_mul, Complex.im_ofReal_mul, e]
      · rw [hL, e, lt_div_iff₀ hm, lt_div_iff₀ hm]
        calc m * m * m = m ^ 3 := by ring
          _ < _ := c4
      · rw [hL, e, div_le_div_iff_of_pos_right hm, div_le_iff₀ hm]
        nlinarith [not_lt.1 c3]
  · have one : ∀ z : ℂ, ‖z - ((1 : ℝ) : ℂ) * z‖ ≤ 5 * η * largestPart x y := by
      intro z
      rw [Complex.ofReal_one, one_mul, sub_self, norm_zero]; positivity
    refine ⟨x, y, 1, 0, 0, one_pos, ?_, not_le.1 c2, (not_le.1 c1).le, one x, one y, id, .inl ⟨rfl, rfl, rfl, rfl⟩⟩
    unfold setupGivensCplxOf
    simp only [h.inv_eq, Format.Scaled.scale_complex, Format.Scaled.geOf_fin, decide_eq_true_eq, c1, c2,
      if_false]

/-- A finite result of `hypot`. -/
theorem hypot_fin {hyp : FP f → FP f → FP f} (hh : Hypot hyp u η) {z : ℂ} (hz : ‖z‖ ≤ f.big / 2) :
    ∃ d, hyp (fin z.re) (fin z.im) = fin d ∧ |d - ‖z‖| ≤ 2 * u * ‖z‖ + η := by
  have hn := hh z
  have hu := h.u_le
  have hu0 := h.u_nonneg
  have hη := h.eta_le_u
  have hb := h.two_le_big
  cases e : hyp (fin z.re) (fin z.im) with
  | fin d => rw [e] at hn; exact ⟨d, rfl, hn⟩
  | inf b =>
    rw [e] at hn
    have h1 := hn.1
    rw [abs_of_nonneg (norm_nonneg z)] at h1
    have h2 : u * ‖z‖ ≤ 1 / 64 * ‖z‖ := mul_le_mul_of_nonneg_right hu (norm_nonneg z)
    linarith
  | nan => rw [e] at hn; exact hn.elim

/-- A quotient by an approximation of a length. -/
theorem quotient_err {a d q δ : ℝ} (hq : 0 < q) (ha : |a| ≤ q) (hd : |d - q| ≤ δ * q) (hδ : δ ≤ 1 / 64) :
    (fin a / fin d : FP f) = fin (f.rnd (a / d)) ∧ |f.rnd (a / d) - a / q| ≤ 33 / 32 * δ + 9 / 8 * u := by
  have hu := h.u_nonneg
  have hηu := h.eta_le_u
  have hbig := h.two_le_big
  obtain ⟨d1, d2⟩ := abs_le.1 hd
  have k : δ * q ≤ 1 / 64 * q := mul_le_mul_of_nonneg_right hδ hq.le
  have hd0 : 0 < d := by linarith
  have h1 : |a / d| ≤ 64 / 63 := by
    rw [abs_div, abs_of_pos hd0, div_le_iff₀ hd0]; linarith
  have h2 : |a / d - a / q| ≤ 64 / 63 * δ := by
    have e : a / d - a / q = a / q * ((q - d) / d) := by field_simp
    rw [e, abs_mul, abs_div, abs_div, abs_of_pos hq, abs_of_pos hd0]
    have q1 : |a| / q ≤ 1 := (div_le_one hq).2 ha
    have q2 : |q - d| / d ≤ 64 / 63 * δ := by
      rw [div_le_iff₀ hd0, abs_sub_comm]
      have hδ0 : 0 ≤ δ := by
        by_contra hc
        have := mul_neg_of_neg_of_pos (not_le.1 hc) hq
        linarith [abs_nonneg (d - q)]
      have : δ * (63 / 64 * q) ≤ δ * d := mul_le_mul_of_nonneg_left (by linarith) hδ0
      linarith
    calc |a| / q * (|q - d| / d) ≤ 1 * (|q - d| / d) :=
          mul_le_mul_of_nonneg_right q1 (div_nonneg (abs_nonneg _) hd0.le)
      _ ≤ _ := by linarith
  have h3 := h.err (a / d)
  have h4 : u * |a / d| ≤ u * (64 / 63) := mul_le_mul_of_nonneg_left h1 hu
  have hδ0 : 0 ≤ δ := by
    have := abs_nonneg (a / d - a / q)
    linarith
  refine ⟨h.div_le hd0 (by linarith), ?_⟩
  have := abs_sub_le (f.rnd (a / d)) (a / d) (a / q)
  linarith

theorem norm_le_big {Y : ℂ} (h1 : |Y.re| ≤ 1 / m) (h2 : |Y.im| ≤ 1 / m) : ‖Y‖ ≤ f.big / 2 := by
  have h3 := Complex.norm_le_abs_re_add_abs_im Y
  have hm := h.m_pos
  have h4 := h.big_ge
  have h5 : 4 * (1 / m) ≤ 4 / m ^ 2 := by
    rw [mul_one_div, div_le_div_iff₀ hm (by positivity)]
    have := h.m_le
    nlinarith
  linarith

theorem hypot_rel {hyp : FP f → FP f → FP f} (hh : Hypot hyp u η) {Y : ℂ} (hY : m ≤ ‖Y‖)
    (h1 : |Y.re| ≤ 1 / m) (h2 : |Y.im| ≤ 1 / m) :
    ∃ d, hyp (fin Y.re) (fin Y.im) = fin d ∧ |d - ‖Y‖| ≤ 9 / 4 * u * ‖Y‖ := by
  have hm := h.m_pos
  have hu := h.u_nonneg
  obtain ⟨d, e, hd⟩ := h.hypot_fin hh (h.norm_le_big h1 h2)
  refine ⟨d, e, ?_⟩
  have k1 : u * m ^ 2 ≤ u * (1 / 4 * ‖Y‖) := by
    refine mul_le_mul_of_nonneg_left ?_ hu
    have := h.m_le
    nlinarith
  have := h.eta_le
  linarith

/-- The test for a tiny `f2` succeeds if `f2` is zero. -/
theorem tail_zero_test (hs : f.SafeMin u η m s) {Y : ℂ} (h1 : |Y.re| ≤ 1 / m) (h2 : |Y.im| ≤ 1 / m) :
    geOf (stdMax (abssqOf (fin Y.re, fin Y.im)) 1 * fin s : FP f) (abssqOf (0, 0)) = true := by
  have hm := h.m_pos
  have hu := h.u_nonneg
  have hu' := hs.u_le
  have hηu := h.eta_le_u
  obtain ⟨G, e, hG0, hG⟩ := h.abssq_fin hs.u_le h1 h2
  have e0 : (abssqOf (0, 0) : FP f) = fin 0 := by
    have z1 : (0 * 0 : FP f) = 0 := by
      change ofReal f (0 * 0) = fin 0
      rw [mul_zero, h.ofReal_le (by rw [abs_zero]; linarith [f.one_le_big]), f.zero]
    have z2 : (0 + 0 : FP f) = 0 := by
      change ofReal f (0 + 0) = fin 0
      rw [add_zero, h.ofReal_le (by rw [abs_zero]; linarith [f.one_le_big]), f.zero]
    unfold abssqOf
    rw [z1, z2]
    rfl
  have hq : (1 / m) ^ 2 = 1 / m ^ 2 := by field_simp
  have a2 : Y.re ^ 2 ≤ 1 / m ^ 2 := by
    rw [← hq, ← sq_abs]; exact pow_le_pow_left₀ (abs_nonneg _) h1 2
  have b2 : Y.im ^ 2 ≤ 1 / m ^ 2 := by
    rw [← hq, ← sq_abs]; exact pow_le_pow_left₀ (abs_nonneg _) h2 2
  have hbig : 4 * (1 / m ^ 2) ≤ f.big := by have := h.big_ge; rw [mul_one_div]; exact this
  have hb2 := h.two_le_big
  have hGb : G ≤ 2 * f.big := by
    have k1 : u * (Y.re ^ 2 + Y.im ^ 2) ≤ 1 / 1024 * (Y.re ^ 2 + Y.im ^ 2) :=
      mul_le_mul_of_nonneg_right hu' (by positivity)
    linarith [(abs_le.1 hG).2]
  have hs16 : s ≤ 1 / 16 := h.m_sq_small hs.le hs.u_le
  have hM0 : 0 ≤ max G 1 * s := mul_nonneg (le_max_of_le_left hG0) hs.pos.le
  have hM : max G 1 * s ≤ f.big := by
    have k1 : max G 1 ≤ 2 * f.big := max_le hGb (by linarith)
    have k2 := mul_le_mul k1 hs16 hs.pos.le (by linarith)
    linarith
  have e1 : (stdMax (fin G) 1 * fin s : FP f) = fin (f.rnd (max G 1 * s)) := by
    have : stdMax (fin G : FP f) 1 = fin (max G 1) := Format.Scaled.stdMax_fin _ _
    rw [this]
    exact h.ofReal_le (by rw [abs_of_nonneg hM0]; exact hM)
  rw [e, e0, e1, Format.Scaled.geOf_fin, decide_eq_true_eq]
  exact rnd_nonneg hM0

/-- The computation if the first number is zero. -/
theorem tail_zero (hs : f.SafeMin u η m s) {hyp : FP f → FP f → FP f} (hh : Hypot hyp u η) {Y : ℂ}
    (hY : m ≤ ‖Y‖) (h1 : |Y.re| ≤ 1 / m) (h2 : |Y.im| ≤ 1 / m) (sm sx : FP f) (G : FP f × FP f)
    (up down : Nat) :
    ∃ s1 s2, givensTailOf hyp (fin s) sm sx (0, 0) G (0, 0) (fin Y.re, fin Y.im) up down =
        (0, (fin s1, fin s2), (hyp G.1 G.2, 0)) ∧
      |s1 - Y.re / ‖Y‖| ≤ 7 / 2 * u ∧ |s2 - -Y.im / ‖Y‖| ≤ 7 / 2 * u := by
  have hm := h.m_pos
  have hu := h.u_nonneg
  have hu' := hs.u_le
  have hn : 0 < ‖Y‖ := lt_of_lt_of_le hm hY
  obtain ⟨d, e, hd⟩ := h.hypot_rel hh hY h1 h2
  obtain ⟨e1, i1⟩ := h.quotient_err hn (Complex.abs_re_le_norm Y) hd (by linarith)
  obtain ⟨e2, i2⟩ := h.quotient_err (a := -Y.im) hn (by rw [abs_neg]; exact Complex.abs_im_le_norm Y) hd
    (by linarith)
  refine ⟨_, _, ?_, i1.trans (by linarith), i2.trans (by linarith)⟩
  have hz : (!FloatOps.ne (0 : FP f) 0 && !FloatOps.ne (0 : FP f) 0) = true := by
    have : FloatOps.ne (0 : FP f) 0 = false := by
      change FP.ne (fin 0) (fin 0) = false
      simp [FP.ne]
    rw [this]; rfl
  have en : (-fin Y.im : FP f) = fin (-Y.im) := rfl
  unfold givensTailOf
  simp only [h.tail_zero_test hs h1 h2, if_true, hz, e, e1, en, e2]

omit h in
/-- What the test for a tiny `f2` means for the exact squares. -/
theorem tiny_test_bound {P2 Q2 F2 G2 τ : ℝ} (hu' : u ≤ 1 / 1024) (hs : 0 < s)
    (hs16 : s ≤ 1 / 16) (hη0 : 0 ≤ η) (hη : η ≤ u * s) (hP : 0 ≤ P2) (hQ : 0 ≤ Q2) (hG0 : 0 ≤ G2)
    (hF : |F2 - P2| ≤ 3 * u * P2 + 4 * η) (hG : |G2 - Q2| ≤ 3 * u * Q2 + 4 * η)
    (hτ : τ ≤ max G2 1 * s + u * (max G2 1 * s) + η) (ht : F2 ≤ τ) : P2 ≤ 11 / 10 * (s * max Q2 1) := by
  have hM : 1 ≤ max Q2 1 := le_max_right _ _
  have hsM : s ≤ s * max Q2 1 := le_mul_of_one_le_right hs.le hM
  have hu1 : u * s ≤ 1 / 1024 * s := mul_le_mul_of_nonneg_right hu' hs.le
  have uP : u * P2 ≤ 1 / 1024 * P2 := mul_le_mul_of_nonneg_right hu' hP
  have uQ : u * Q2 ≤ 1 / 1024 * Q2 := mul_le_mul_of_nonneg_right hu' hQ
  have k0 : G2 ≤ 1003 / 1000 * max Q2 1 + 4 * η := by
    have := le_max_left Q2 1
    linarith [(abs_le.1 hG).2]
  have k1 : G2 * s ≤ 1003 / 1000 * (s * max Q2 1) + 4 * (η * s) := by
    have := mul_le_mul_of_nonneg_right k0 hs.le
    linarith
  have k2 : η * s ≤ η * (1 / 16) := mul_le_mul_of_nonneg_left hs16 hη0
  have k3 : max G2 1 * s ≤ 1003 / 1000 * (s * max Q2 1) + η := by
    rw [max_mul_of_nonneg _ _ hs.le]
    refine max_le (by linarith) (by linarith)
  have k4 : u * (max G2 1 * s) ≤ 1 / 1024 * (max G2 1 * s) :=
    mul_le_mul_of_nonneg_right hu' (mul_nonneg (le_max_of_le_left hG0) hs.le)
  linarith [(abs_le.1 hF).1]

omit h in
/-- The second number is not small, and much larger than the first. -/
theorem tiny_lengths {X Y : ℂ} (hu : 0 ≤ u) (hu' : u ≤ 1 / 1024) (hm : 0 < m) (hm4 : m ≤ 1 / 4)
    (hs : 0 < s) (hsm : s ≤ 2 * u * m ^ 2) (hL : m < largestPart X Y)
    (hP : ‖X‖ ^ 2 ≤ 11 / 10 * (s * max (‖Y‖ ^ 2) 1)) :
    m ≤ ‖Y‖ ∧ ‖X‖ ^ 2 ≤ 11 / 5 * u * ‖Y‖ ^ 2 ∧ largestPart X Y ≤ ‖Y‖ := by
  have hmm : m ^ 2 ≤ 1 / 16 := by nlinarith
  have hm2 : 0 < m ^ 2 := by positivity
  have hY : m ≤ ‖Y‖ := by
    by_contra hc
    have hq : ‖Y‖ ^ 2 ≤ 1 := by
      have := norm_nonneg Y
      have := pow_le_pow_left₀ this (not_le.1 hc).le 2
      linarith
    rw [max_eq_right hq, mul_one] at hP
    have h1 : u * m ^ 2 ≤ 1 / 1024 * m ^ 2 := mul_le_mul_of_nonneg_right hu' hm2.le
    have hX : ‖X‖ ≤ m := by
      refine le_of_not_gt fun hx => ?_
      have := pow_lt_pow_left₀ hx hm.le (two_ne_zero)
      linarith
    have := not_le.1 hc
    have : largestPart X Y ≤ m :=
      max_le (max_le ((Complex.abs_re_le_norm X).trans hX) ((Complex.abs_im_le_norm X).trans hX))
        (max_le ((Complex.abs_re_le_norm Y).trans this.le) ((Complex.abs_im_le_norm Y).trans this.le))
    linarith
  have hq2 : m ^ 2 ≤ ‖Y‖ ^ 2 := pow_le_pow_left₀ hm.le hY 2
  have key : s * max (‖Y‖ ^ 2) 1 ≤ 2 * u * ‖Y‖ ^ 2 := by
    rcases le_total (‖Y‖ ^ 2) 1 with h1 | h1
    · rw [max_eq_right h1, mul_one]
      have := mul_le_mul_of_nonneg_left hq2 (show 0 ≤ 2 * u by linarith)
      linarith
    · rw [max_eq_left h1]
      refine mul_le_mul_of_nonneg_right ?_ (by positivity)
      have := mul_le_mul_of_nonneg_left hmm (show 0 ≤ 2 * u by linarith)
      linarith
  have hPQ : ‖X‖ ^ 2 ≤ 11 / 5 * u * ‖Y‖ ^ 2 := by linarith
  refine ⟨hY, hPQ, ?_⟩
  have hXY : ‖X‖ ≤ ‖Y‖ := by
    refine le_of_sq_le_sq ?_ (norm_nonneg Y)
    have := mul_le_mul_of_nonneg_right hu' (sq_nonneg ‖Y‖)
    linarith [sq_nonneg ‖Y‖]
  exact max_le (max_le ((Complex.abs_re_le_norm X).trans hXY) ((Complex.abs_im_le_norm X).trans hXY))
    (max_le (Complex.abs_re_le_norm Y) (Complex.abs_im_le_norm Y))

/-- The square root of the computed square. -/
theorem tiny_root (hu' : u ≤ 1 / 1024) {q G : ℝ} (hq : 0 < q) (hG0 : 0 ≤ G) (hGb : G ≤ f.big)
    (hη : η ≤ u / 1024 * q) (hη2 : 4 * η ≤ u / 128 * q ^ 2) (hG : |G - q ^ 2| ≤ 3 * u * q ^ 2 + 4 * η) :
    ∃ w, FloatOps.sqrt (fin G : FP f) = fin w ∧ |w - q| ≤ 11 / 4 * u * q := by
  have hu := h.u_nonneg
  refine ⟨_, h.sqrt_le hG0 hGb, ?_⟩
  have k1 : |G - q ^ 2| ≤ 97 / 32 * u * q ^ 2 := by linarith [mul_nonneg hu (sq_nonneg q)]
  have k2 : |√G - q| ≤ 25 / 16 * u * q := by
    have hr := Real.sqrt_nonneg G
    have hsq := Real.sq_sqrt hG0
    have uq : u * q ≤ 1 / 1024 * q := mul_le_mul_of_nonneg_right hu' hq.le
    have uq0 : 0 ≤ u * q := by positivity
    obtain ⟨g1, g2⟩ := abs_le.1 k1
    rw [abs_le]
    constructor
    · have : q - 25 / 16 * u * q ≤ √G := by
        refine Real.le_sqrt_of_sq_le ?_
        have e : (q - 25 / 16 * u * q) ^ 2 = q ^ 2 - 25 / 8 * u * q ^ 2 + 625 / 256 * (u * q) * (u * q) := by
          ring
        have : u * q * (u * q) ≤ 1 / 1024 * q * (u * q) := mul_le_mul_of_nonneg_right uq uq0
        rw [e]
        nlinarith
      linarith
    · have : √G ≤ q + 25 / 16 * u * q := by
        refine Real.sqrt_le_iff.2 ⟨by linarith, ?_⟩
        have e : (q + 25 / 16 * u * q) ^ 2 = q ^ 2 + 25 / 8 * u * q ^ 2 + 625 / 256 * (u * q) * (u * q) := by
          ring
        rw [e]
        have : 0 ≤ u * q * (u * q) := by positivity
        nlinarith [mul_nonneg hu (sq_nonneg q)]
      linarith
  have k3 := h.err √G
  rw [abs_of_nonneg (Real.sqrt_nonneg G)] at k3
  have uq : u * q ≤ 1 / 1024 * q := mul_le_mul_of_nonneg_right hu' hq.le
  have k4 : u * √G ≤ u * (1026 / 1024 * q) := by
    refine mul_le_mul_of_nonneg_left ?_ hu
    linarith [(abs_le.1 k2).2]
  have := abs_sub_le (f.rnd √G) √G q
  linarith [mul_nonneg hu hq.le]

omit h in
theorem product_err {a b A B α β : ℝ} (ha : |a - A| ≤ α) (hb : |b - B| ≤ β) :
    |a * b - A * B| ≤ α * |B| + β * |A| + α * β := by
  have e : a * b - A * B = (a - A) * B + (b - B) * A + (a - A) * (b - B) := by ring
  rw [e]
  refine (abs_add_le _ _).trans (add_le_add ((abs_add_le _ _).trans (add_le_add ?_ ?_)) ?_)
  · rw [abs_mul]; exact mul_le_mul_of_nonneg_right ha (abs_nonneg _)
  · rw [abs_mul]; exact mul_le_mul_of_nonneg_right hb (abs_nonneg _)
  · rw [abs_mul]; exact mul_le_mul ha hb (abs_nonneg _) ((abs_nonneg _).trans ha)

/-- One part of a complex product. -/
theorem two_products (hu' : u ≤ 1 / 1024) {a b a' b' A B A' B' α β R : ℝ} (hR : 0 ≤ R) (hα : 0 ≤ α)
    (hβ : 0 ≤ β) (ha : |a - A| ≤ α) (ha' : |a' - A'| ≤ α) (hb : |b - B| ≤ β) (hb' : |b' - B'| ≤ β)
    (hA : |A| + |A'| ≤ 3 / 2) (hB : |B| + |B'| ≤ 3 / 2 * R) (hAB : |A * B| + |A' * B'| ≤ R)
    (hD : 3 / 2 * α * R + 3 / 2 * β + 2 * α * β ≤ R / 8) (hb4 : 3 / 2 * R + 1 ≤ f.big) :
    ∃ p p' σ σ', (fin a * fin b : FP f) = fin p ∧ (fin a' * fin b' : FP f) = fin p' ∧
      (fin p + fin p' : FP f) = fin σ ∧ (fin p - fin p' : FP f) = fin σ' ∧
      |σ - (A * B + A' * B')| ≤ 3 / 2 * α * R + 3 / 2 * β + 2 * α * β + 3 * u * R + 4 * η ∧
      |σ' - (A * B - A' * B')| ≤ 3 / 2 * α * R + 3 / 2 * β + 2 * α * β + 3 * u * R + 4 * η := by
  have hu := h.u_nonneg
  have hη := h.eta_nonneg
  have hηu := h.eta_le_u
  have d1 := product_err ha hb
  have d2 := product_err ha' hb'
  have s1 : α * |B| + α * |B'| ≤ α * (3 / 2 * R) := by
    rw [← mul_add]; exact mul_le_mul_of_nonneg_left hB hα
  have s2 : β * |A| + β * |A'| ≤ β * (3 / 2) := by
    rw [← mul_add]; exact mul_le_mul_of_nonneg_left hA hβ
  set D := 3 / 2 * α * R + 3 / 2 * β + 2 * α * β with hDd
  have d12 : |a * b - A * B| + |a' * b' - A' * B'| ≤ D := by rw [hDd]; linarith
  have t1 := abs_sub_abs_le_abs_sub (a * b) (A * B)
  have t2 := abs_sub_abs_le_abs_sub (a' * b') (A' * B')
  have n1 := abs_nonneg (a * b)
  have n2 := abs_nonneg (a' * b')
  have tot : |a * b| + |a' * b'| ≤ 9 / 8 * R := by linarith
  have e1 := h.err (a * b)
  have e2 := h.err (a' * b')
  have ut : u * |a * b| + u * |a' * b'| ≤ u * (9 / 8 * R) := by
    rw [← mul_add]; exact mul_le_mul_of_nonneg_left tot hu
  have uR : u * R ≤ 1 / 1024 * R := mul_le_mul_of_nonneg_right hu' hR
  have r1 := abs_sub_abs_le_abs_sub (f.rnd (a * b)) (a * b)
  have r2 := abs_sub_abs_le_abs_sub (f.rnd (a' * b')) (a' * b')
  have tot2 : |f.rnd (a * b)| + |f.rnd (a' * b')| ≤ 5 / 4 * R + 2 * η := by linarith
  have fin2 : ∀ {x y X Y : ℝ}, |x - X| + |y - Y| ≤ D + (u * (9 / 8 * R) + 2 * η) →
      |x| + |y| ≤ 5 / 4 * R + 2 * η → |x + y| ≤ f.big ∧
        |f.rnd (x + y) - (X + Y)| ≤ D + 3 * u * R + 4 * η := by
    intro x y X Y h1 h2
    have h3 := (abs_add_le x y).trans h2
    refine ⟨by linarith, ?_⟩
    have h4 := h.err (x + y)
    have h5 : u * |x + y| ≤ u * (5 / 4 * R + 2 * η) := mul_le_mul_of_nonneg_left h3 hu
    have h6 : u * η ≤ 1 / 1024 * η := mul_le_mul_of_nonneg_right hu' hη
    have h7 : |x + y - (X + Y)| ≤ |x - X| + |y - Y| := by
      rw [add_sub_add_comm]; exact abs_add_le _ _
    have := abs_sub_le (f.rnd (x + y)) (x + y) (X + Y)
    have : 0 ≤ u * R := mul_nonneg hu hR
    linarith
  have w1 := abs_sub_le (f.rnd (a * b)) (a * b) (A * B)
  have w2 := abs_sub_le (f.rnd (a' * b')) (a' * b') (A' * B')
  obtain ⟨f1, g1⟩ := fin2 (x := f.rnd (a * b)) (y := f.rnd (a' * b')) (X := A * B) (Y := A' * B')
    (by linarith) tot2
  obtain ⟨f2, g2⟩ := fin2 (x := f.rnd (a * b)) (y := -f.rnd (a' * b')) (X := A * B) (Y := -(A' * B'))
    (by rw [neg_sub_neg, abs_sub_comm (A' * B')]; linarith) (by rw [abs_neg]; exact tot2)
  refine ⟨_, _, _, _, h.ofReal_le (by linarith), h.ofReal_le (by linarith), h.ofReal_le f1,
    h.ofReal_le f2, g1, ?_⟩
  rw [sub_eq_add_neg (A * B)]; exact g2

/-- A positive number divided by an approximation of a length. -/
theorem tiny_cos (hu' : u ≤ 1 / 1024) {P q p w : ℝ} (hP : 0 ≤ P) (hq : 0 < q) (hPq : P ≤ q)
    (hp : |p - P| ≤ 2 * u * P + η) (hw : |w - q| ≤ 11 / 4 * u * q) (hη : η ≤ u / 4 * q) :
    (fin p / fin w : FP f) = fin (f.rnd (p / w)) ∧
      |f.rnd (p / w) - P / q| ≤ 6 * u * (P / q) + 2 * (η / q) + η := by
  have hu := h.u_nonneg
  have hη0 := h.eta_nonneg
  have hbig := h.two_le_big
  have uq : u * q ≤ 1 / 1024 * q := mul_le_mul_of_nonneg_right hu' hq.le
  have uP : u * P ≤ 1 / 1024 * P := mul_le_mul_of_nonneg_right hu' hP
  obtain ⟨w1, w2⟩ := abs_le.1 hw
  have hw0 : 0 < w := by linarith
  have hwq : 1021 / 1024 * q ≤ w := by linarith
  have k1 : |p / w - P / q| ≤ 77 / 16 * u * (P / q) + 65 / 64 * (η / q) := by
    have e : p / w - P / q = ((p - P) - P / q * (w - q)) / w := by field_simp; ring
    have e2 : 0 ≤ P / q := div_nonneg hP hq.le
    rw [e, abs_div, abs_of_pos hw0, div_le_iff₀ hw0]
    have t1 : |(p - P) - P / q * (w - q)| ≤ (2 * u * P + η) + P / q * (11 / 4 * u * q) := by
      refine (abs_sub _ _).trans (add_le_add hp ?_)
      rw [abs_mul, abs_of_nonneg e2]
      exact mul_le_mul_of_nonneg_left hw e2
    have t2 : P / q * (11 / 4 * u * q) = 11 / 4 * u * P := by field_simp
    have t3 : (77 / 16 * u * (P / q) + 65 / 64 * (η / q)) * (1021 / 1024 * q) ≤
        (77 / 16 * u * (P / q) + 65 / 64 * (η / q)) * w :=
      mul_le_mul_of_nonneg_left hwq (by positivity)
    have t4 : (77 / 16 * u * (P / q) + 65 / 64 * (η / q)) * (1021 / 1024 * q) =
        1021 / 1024 * (77 / 16) * (u * P) + 1021 / 1024 * (65 / 64) * η := by field_simp
    have : 0 ≤ u * P := mul_nonneg hu hP
    linarith
  have hPq1 : P / q ≤ 1 := (div_le_one hq).2 hPq
  have hηq : η / q ≤ u / 4 := by rwa [div_le_iff₀ hq]
  have hPq0 : 0 ≤ P / q := div_nonneg hP hq.le
  have uPq : u * (P / q) ≤ u * 1 := mul_le_mul_of_nonneg_left hPq1 hu
  have k2 := abs_sub_abs_le_abs_sub (p / w) (P / q)
  rw [abs_of_nonneg hPq0] at k2
  refine ⟨h.div_le hw0 (by linarith), ?_⟩
  have k3 := h.err (p / w)
  have k4 : u * |p / w| ≤ u * (P / q + (77 / 16 * u * (P / q) + 65 / 64 * (η / q))) :=
    mul_le_mul_of_nonneg_left (by linarith) hu
  have k5 : u * (u * (P / q)) ≤ 1 / 1024 * (u * (P / q)) :=
    mul_le_mul_of_nonneg_right hu' (mul_nonneg hu hPq0)
  have k6 : u * (η / q) ≤ 1 / 1024 * (η / q) := mul_le_mul_of_nonneg_right hu' (by positivity)
  have := abs_sub_le (f.rnd (p / w)) (p / w) (P / q)
  have : 0 ≤ u * (P / q) := mul_nonneg hu hPq0
  have : 0 ≤ η / q := by positivity
  linarith

/-- The direction of the first number. -/
theorem tiny_direction (hs : f.SafeMin u η m s) {hyp : FP f → FP f → FP f}
    (hh : Hypot hyp u η) {x : ℂ} (hx : f.CRep x) (hx0 : x ≠ 0) (hb : ‖x‖ ≤ f.big / 2) :
    ∃ a b, (if FloatOps.lt 1 (abs1Of (fin x.re : FP f) (fin x.im)) then
          ((fin x.re / hyp (fin x.re) (fin x.im), fin x.im / hyp (fin x.re) (fin x.im)) : FP f × FP f)
        else (fin (1 / m) * fin x.re / hyp (fin (1 / m) * fin x.re) (fin (1 / m) * fin x.im),
          fin (1 / m) * fin x.im / hyp (fin (1 / m) * fin x.re) (fin (1 / m) * fin x.im))) =
        (fin a, fin b) ∧
      |a - x.re / ‖x‖| ≤ 7 / 2 * u ∧ |b - x.im / ‖x‖| ≤ 7 / 2 * u := by
  have hm := h.m_pos
  have hm4 := h.m_le
  have hu := h.u_nonneg
  have hu' := hs.u_le
  have hηu := h.eta_le_u
  have hn : 0 < ‖x‖ := norm_pos_iff.2 hx0
  have key : ∀ {z : ℂ}, z ≠ 0 → ‖z‖ ≤ f.big / 2 → η ≤ u / 8 * ‖z‖ →
      ∃ a b, (fin z.re / hyp (fin z.re) (fin z.im) : FP f) = fin a ∧
        (fin z.im / hyp (fin z.re) (fin z.im) : FP f) = fin b ∧
        |a - z.re / ‖z‖| ≤ 7 / 2 * u ∧ |b - z.im / ‖z‖| ≤ 7 / 2 * u := by
    intro z hz0 hz hzη
    have hzn : 0 < ‖z‖ := norm_pos_iff.2 hz0
    obtain ⟨d, e, hd⟩ := h.hypot_fin hh hz
    have hd' : |d - ‖z‖| ≤ 17 / 8 * u * ‖z‖ := by linarith
    obtain ⟨e1, i1⟩ := h.quotient_err hzn (Complex.abs_re_le_norm z) hd' (by linarith)
    obtain ⟨e2, i2⟩ := h.quotient_err hzn (Complex.abs_im_le_norm z) hd' (by linarith)
    rw [e]
    exact ⟨_, _, e1, e2, by linarith, by linarith⟩
  have ea : abs1Of (fin x.re : FP f) (fin x.im) = fin (max |x.re| |x.im|) := by
    unfold abs1Of; exact Format.Scaled.scale_fin _ _
  have el : FloatOps.lt 1 (abs1Of (fin x.re : FP f) (fin x.im)) = decide (1 < max |x.re| |x.im|) := by
    rw [ea]; rfl
  rw [el]
  by_cases hc : 1 < max |x.re| |x.im|
  · have h1 : 1 ≤ ‖x‖ := hc.le.trans (max_le (Complex.abs_re_le_norm x) (Complex.abs_im_le_norm x))
    have h2 : u / 16 * 1 ≤ u / 16 * ‖x‖ := mul_le_mul_of_nonneg_left h1 (by linarith)
    obtain ⟨a, b, e1, e2, i1, i2⟩ := key hx0 hb (by linarith [mul_nonneg hu hn.le])
    simp only [hc, decide_true, if_true]
    exact ⟨a, b, by rw [e1, e2], i1, i2⟩
  · simp only [hc, decide_false, Bool.false_eq_true, if_false]
    have hr : |x.re| ≤ 1 := (le_max_left _ _).trans (not_lt.1 hc)
    have hi : |x.im| ≤ 1 := (le_max_right _ _).trans (not_lt.1 hc)
    have ht : 0 < 1 / m := by positivity
    have up1 : ∀ {t : ℝ}, f.Rep t → |t| ≤ 1 → (fin (1 / m) * fin t : FP f) = fin (1 / m * t) ∧
        |1 / m * t| ≤ 1 / m := by
      intro t ht h1
      have hle : |t / m| ≤ 1 / m := by
        rw [abs_div, abs_of_pos hm]; exact div_le_div_of_nonneg_right h1 hm.le
      have e : 1 / m * t = t / m := by ring
      refine ⟨?_, by rwa [e]⟩
      change ofReal f (1 / m * t) = _
      rw [e, h.ofReal_le (hle.trans h.big_ge_inv), h.up t ht.1]
    obtain ⟨u1, v1⟩ := up1 hx.1 hr
    obtain ⟨u2, v2⟩ := up1 hx.2 hi
    have hz0 : ((1 / m : ℝ) : ℂ) * x ≠ 0 := mul_ne_zero (by exact_mod_cast ht.ne') hx0
    have nz := norm_smul_pos ht x
    have small : m ^ 2 ≤ ‖((1 / m : ℝ) : ℂ) * x‖ := by
      rw [nz, one_div_mul_eq_div, le_div_iff₀ hm]
      have h3 : m ^ 3 ≤ ‖x‖ := by
        by_cases h0 : x.re = 0
        · have h1 : x.im ≠ 0 := fun h1 => hx0 (Complex.ext h0 h1)
          exact (h.small _ hx.2.1 h1).le.trans (Complex.abs_im_le_norm x)
        · exact (h.small _ hx.1.1 h0).le.trans (Complex.abs_re_le_norm x)
      calc m ^ 2 * m = m ^ 3 := by ring
        _ ≤ _ := h3
    have hη : η ≤ u / 8 * ‖((1 / m : ℝ) : ℂ) * x‖ := by
      have h1 := mul_le_mul_of_nonneg_left hs.le hu
      have h2 : u * (u * m ^ 2) ≤ 1 / 1024 * (u * m ^ 2) :=
        mul_le_mul_of_nonneg_right hu' (by positivity)
      have h3 := mul_le_mul_of_nonneg_left small (show 0 ≤ u / 8 by linarith)
      have h4 := hs.eta
      have h5 : 0 ≤ u * m ^ 2 := by positivity
      linarith
    have hre : (((1 / m : ℝ) : ℂ) * x).re = 1 / m * x.re := Complex.re_ofReal_mul _ _
    have him : (((1 / m : ℝ) : ℂ) * x).im = 1 / m * x.im := Complex.im_ofReal_mul _ _
    obtain ⟨a, b, e1, e2, i1, i2⟩ := key hz0
      (h.norm_le_big (by rw [hre]; exact v1) (by rw [him]; exact v2)) hη
    rw [hre, him] at e1 e2
    rw [nz, hre, mul_div_mul_left _ _ ht.ne'] at i1
    rw [nz, him, mul_div_mul_left _ _ ht.ne'] at i2
    exact ⟨a, b, by rw [u1, u2, e1, e2], i1, i2⟩

omit h in
/-- The parts of a number of length at most one. -/
theorem parts_le {z : ℂ} {R : ℝ} (hz : ‖z‖ ≤ R) : |z.re| + |z.im| ≤ 3 / 2 * R := by
  have h0 := norm_nonneg z
  have h1 := norm_sq_parts z
  have h2 : (|z.re| + |z.im|) ^ 2 ≤ (3 / 2 * ‖z‖) ^ 2 := by
    rw [mul_pow, h1, ← sq_abs z.re, ← sq_abs z.im]
    nlinarith [sq_nonneg (|z.re| - |z.im|), sq_nonneg (|z.re|), sq_nonneg (|z.im|)]
  have := le_of_sq_le_sq h2 (by positivity)
  linarith

omit h in
theorem cauchy_parts (z w : ℂ) : |z.re * w.re| + |z.im * w.im| ≤ ‖z‖ * ‖w‖ ∧
    |z.re * w.im| + |z.im * w.re| ≤ ‖z‖ * ‖w‖ := by
  have n : ∀ x : ℂ, ‖x‖ = √(x.re ^ 2 + x.im ^ 2) := fun x => by
    rw [← norm_sq_parts, Real.sqrt_sq (norm_nonneg _)]
  have k1 := cauchy_two z.re z.im w.re w.im
  have k2 := cauchy_two z.re z.im w.im w.re
  rw [add_comm (w.im ^ 2)] at k2
  rw [abs_mul, abs_mul, abs_mul, abs_mul, n z, n w]
  exact ⟨k1, k2⟩

/-- A complex product: `Z * W` where `‖Z‖ ≤ 1` and `‖W‖ ≤ R`. -/
theorem complex_product (hu' : u ≤ 1 / 1024) {a b c d α β R : ℝ} {Z W : ℂ} (hR : 0 ≤ R) (hα : 0 ≤ α)
    (hβ : 0 ≤ β) (ha : |a - Z.re| ≤ α) (hb : |b - Z.im| ≤ α) (hc : |c - W.re| ≤ β) (hd : |d - W.im| ≤ β)
    (hZ : ‖Z‖ ≤ 1) (hW : ‖W‖ ≤ R) (hD : 3 / 2 * α * R + 3 / 2 * β + 2 * α * β ≤ R / 8)
    (hb4 : 3 / 2 * R + 1 ≤ f.big) :
    ∃ p q, cmulOf (fin a, fin b) (fin c, fin d) = ((fin p, fin q) : FP f × FP f) ∧
      |p - (Z * W).re| ≤ 3 / 2 * α * R + 3 / 2 * β + 2 * α * β + 3 * u * R + 4 * η ∧
      |q - (Z * W).im| ≤ 3 / 2 * α * R + 3 / 2 * β + 2 * α * β + 3 * u * R + 4 * η := by
  obtain ⟨k1, k2⟩ := cauchy_parts Z W
  have kR : ‖Z‖ * ‖W‖ ≤ R := by
    have := mul_le_mul hZ hW (norm_nonneg W) zero_le_one
    linarith
  have hZ' := parts_le hZ
  rw [mul_one] at hZ'
  have hW' := parts_le hW
  obtain ⟨p1, p1', -, p, e1, e1', -, e2, -, i1⟩ := h.two_products hu' hR hα hβ ha hb hc hd hZ' hW'
    (k1.trans kR) hD hb4
  obtain ⟨p2, p2', q, -, g1, g1', g2, -, i2, -⟩ := h.two_products hu' hR hα hβ ha hb hd hc hZ'
    (by rw [add_comm]; exact hW') (k2.trans kR) hD hb4
  refine ⟨p, q, ?_, by rw [Complex.mul_re]; exact i1, by rw [Complex.mul_im]; exact i2⟩
  unfold cmulOf
  simp only [e1, e1', e2, g1, g1', g2]

/-- The product of the cosine and a part of the first number. -/
theorem tiny_first (hu' : u ≤ 1 / 1024) {c C a ρ : ℝ} (hρ : 0 ≤ ρ) (hc : |c - C| ≤ u) (hC0 : 0 ≤ C)
    (hC : C ≤ 1) (ha : |a| ≤ ρ / 16) (hb : ρ ≤ f.big / 2) :
    (fin c * fin a : FP f) = fin (f.rnd (c * a)) ∧ |f.rnd (c * a) - C * a| ≤ u / 4 * ρ + η := by
  have hu := h.u_nonneg
  have h1 : |c * a - C * a| ≤ u * (ρ / 16) := by
    rw [← sub_mul, abs_mul]; exact mul_le_mul hc ha (abs_nonneg _) hu
  have h2 : |C * a| ≤ ρ / 16 := by
    rw [abs_mul, abs_of_nonneg hC0]
    have := mul_le_mul hC ha (abs_nonneg _) zero_le_one
    linarith
  have h3 := abs_sub_abs_le_abs_sub (c * a) (C * a)
  have uρ : u * ρ ≤ 1 / 1024 * ρ := mul_le_mul_of_nonneg_right hu' hρ
  refine ⟨h.ofReal_le (by linarith), ?_⟩
  have h4 := h.err (c * a)
  have h5 : u * |c * a| ≤ u * (ρ / 8) := mul_le_mul_of_nonneg_left (by linarith) hu
  have := abs_sub_le (f.rnd (c * a)) (c * a) (C * a)
  have : 0 ≤ u * ρ := mul_nonneg hu hρ
  linarith

/-- The last sum. -/
theorem tiny_last (hu' : u ≤ 1 / 1024) {v w V W ρ : ℝ} (hρ : 0 ≤ ρ) (hv : |v - V| ≤ u / 4 * ρ + η)
    (hw : |w - W| ≤ 27 * u * ρ + 4 * η) (hVW : |V + W| ≤ ρ) (hb : ρ ≤ f.big / 2) :
    (fin v + fin w : FP f) = fin (f.rnd (v + w)) ∧ |f.rnd (v + w) - (V + W)| ≤ 30 * u * ρ + 7 * η := by
  have hu := h.u_nonneg
  have hη := h.eta_nonneg
  have hηu := h.eta_le_u
  have hbig := h.two_le_big
  have h1 : |v + w - (V + W)| ≤ 28 * u * ρ + 5 * η := by
    rw [add_sub_add_comm]
    refine (abs_add_le _ _).trans ?_
    have : 0 ≤ u * ρ := mul_nonneg hu hρ
    linarith
  have h3 := abs_sub_abs_le_abs_sub (v + w) (V + W)
  have uρ : u * ρ ≤ 1 / 1024 * ρ := mul_le_mul_of_nonneg_right hu' hρ
  refine ⟨h.ofReal_le (by linarith), ?_⟩
  have h4 := h.err (v + w)
  have h5 : u * |v + w| ≤ u * (33 / 32 * ρ + 5 * η) := mul_le_mul_of_nonneg_left (by linarith) hu
  have h6 : u * η ≤ 1 / 1024 * η := mul_le_mul_of_nonneg_right hu' hη
  have := abs_sub_le (f.rnd (v + w)) (v + w) (V + W)
  have : 0 ≤ u * ρ := mul_nonneg hu hρ
  linarith

omit h in
/-- The original numbers, too, have very different lengths. -/
theorem tiny_original {X Y x y : ℂ} {t : ℝ} (ht : 0 < t) (hu : 0 ≤ u) (hu' : u ≤ 1 / 1024) (hη0 : 0 ≤ η)
    (hη : η ≤ u / 8192) (hP : ‖X‖ ^ 2 ≤ 11 / 5 * u * ‖Y‖ ^ 2)
    (dX : ‖X - (t : ℂ) * x‖ ≤ 5 * η * ‖Y‖) (dY : ‖Y - (t : ℂ) * y‖ ≤ 5 * η * ‖Y‖) :
    ‖x‖ ^ 2 ≤ 23 / 10 * u * ‖y‖ ^ 2 := by
  have nX := (abs_norm_sub_norm_le X _).trans dX
  have nY := (abs_norm_sub_norm_le Y _).trans dY
  rw [norm_smul_pos ht] at nX nY
  have hq := norm_nonneg Y
  have hp := norm_nonneg X
  generalize ‖X‖ = P at *
  generalize ‖Y‖ = q at *
  have hx : 0 ≤ t * ‖x‖ := by positivity
  have hy : 0 ≤ t * ‖y‖ := by positivity
  have key : (t * ‖x‖) ^ 2 ≤ 23 / 10 * u * (t * ‖y‖) ^ 2 := by
    generalize t * ‖x‖ = a at *
    generalize t * ‖y‖ = b at *
    have hq2 : 0 ≤ q ^ 2 := sq_nonneg q
    have hPq : P ≤ q := by
      refine le_of_sq_le_sq ?_ hq
      have := mul_le_mul_of_nonneg_right hu' hq2
      linarith
    have h1 : a ≤ P + 5 * η * q := by linarith [(abs_le.1 nX).1]
    have h2 : (1 - 5 * η) * q ≤ b := by linarith [(abs_le.1 nY).2]
    have h3 : a ^ 2 ≤ (P + 5 * η * q) ^ 2 := pow_le_pow_left₀ hx h1 2
    have h4 : ((1 - 5 * η) * q) ^ 2 ≤ b ^ 2 :=
      pow_le_pow_left₀ (mul_nonneg (by linarith) hq) h2 2
    have h5 : P * (η * q) ≤ q * (η * q) := mul_le_mul_of_nonneg_right hPq (by positivity)
    have h6 : η * (η * q ^ 2) ≤ 1 / 1024 * (η * q ^ 2) :=
      mul_le_mul_of_nonneg_right (by linarith) (by positivity)
    have h7 : η * q ^ 2 ≤ u / 8192 * q ^ 2 := mul_le_mul_of_nonneg_right hη hq2
    have h8 : η * (u * q ^ 2) ≤ 1 / 1024 * (u * q ^ 2) :=
      mul_le_mul_of_nonneg_right (by linarith) (by positivity)
    have h9 := mul_le_mul_of_nonneg_left h4 (show 0 ≤ 23 / 10 * u by linarith)
    have h10 : 0 ≤ u * (η ^ 2 * q ^ 2) := by positivity
    have h11 : 0 ≤ u * q ^ 2 := by positivity
    have e1 : (P + 5 * η * q) ^ 2 = P ^ 2 + 10 * (P * (η * q)) + 25 * (η * (η * q ^ 2)) := by ring
    have e2 : 23 / 10 * u * ((1 - 5 * η) * q) ^ 2 = 23 / 10 * (u * q ^ 2) - 23 * (η * (u * q ^ 2)) +
        115 / 2 * (u * (η ^ 2 * q ^ 2)) := by ring
    rw [e1] at h3
    rw [e2] at h9
    have e3 : q * (η * q) = η * q ^ 2 := by ring
    rw [e3] at h5
    linarith
  rw [mul_pow, mul_pow] at key
  have ht2 : 0 < t ^ 2 := by positivity
  have : t ^ 2 * ‖x‖ ^ 2 ≤ t ^ 2 * (23 / 10 * u * ‖y‖ ^ 2) := by linarith
  exact le_of_mul_le_mul_left this ht2

omit h in
/-- The cosine and the sine if the first number is tiny. -/
theorem tiny_target {X Y x y : ℂ} {t : ℝ} (ht : 0 < t) (hu : 0 ≤ u) (hu' : u ≤ 1 / 1024)
    (hx0 : x ≠ 0) (hy0 : y ≠ 0) (hY0 : Y ≠ 0) (hxy : ‖x‖ ^ 2 ≤ 23 / 10 * u * ‖y‖ ^ 2)
    (dX : ‖X - (t : ℂ) * x‖ ≤ 5 * η * ‖Y‖) (dY : ‖Y - (t : ℂ) * y‖ ≤ 5 * η * ‖Y‖) :
    |‖X‖ / ‖Y‖ - rotationCos x y| ≤ 6 / 5 * u * rotationCos x y + 10 * η ∧
    ‖x / (‖x‖ : ℂ) * ((starRingEnd ℂ) Y / (‖Y‖ : ℂ)) - rotationSin x y‖ ≤ 6 / 5 * u + 10 * η ∧
    ‖x‖ ≤ pairLength x y / 16 := by
  have nX := (abs_norm_sub_norm_le X _).trans dX
  have nY := (abs_norm_sub_norm_le Y _).trans dY
  rw [norm_smul_pos ht] at nX nY
  have hq : 0 < ‖Y‖ := norm_pos_iff.2 hY0
  have hx : 0 < ‖x‖ := norm_pos_iff.2 hx0
  have hy : 0 < ‖y‖ := norm_pos_iff.2 hy0
  have hρ2 : pairLength x y ^ 2 = ‖x‖ ^ 2 + ‖y‖ ^ 2 := Real.sq_sqrt (by positivity)
  have hρ0 : 0 ≤ pairLength x y := Real.sqrt_nonneg _
  have hxy' : ‖x‖ ≤ ‖y‖ := by
    refine le_of_sq_le_sq ?_ hy.le
    have := mul_le_mul_of_nonneg_right hu' (sq_nonneg ‖y‖)
    linarith [sq_nonneg ‖y‖]
  have hyρ : ‖y‖ ≤ pairLength x y := (norm_le_pairLength x y).2
  have hρ : 0 < pairLength x y := lt_of_lt_of_le hy hyρ
  have hρy : pairLength x y ≤ (1 + 6 / 5 * u) * ‖y‖ := by
    refine le_of_sq_le_sq ?_ (by positivity)
    rw [hρ2]
    have : 0 ≤ u ^ 2 * ‖y‖ ^ 2 := by positivity
    have : 0 ≤ u * ‖y‖ ^ 2 := by positivity
    nlinarith
  refine ⟨?_, ?_, ?_⟩
  · have k1 : |‖X‖ / ‖Y‖ - ‖x‖ / ‖y‖| ≤ 10 * η := by
      have e : ‖X‖ / ‖Y‖ - ‖x‖ / ‖y‖ = ((‖X‖ - t * ‖x‖) - ‖x‖ / ‖y‖ * (‖Y‖ - t * ‖y‖)) / ‖Y‖ := by
        field_simp; ring
      rw [e, abs_div, abs_of_pos hq, div_le_iff₀ hq]
      refine (abs_sub _ _).trans ?_
      have h1 : |‖x‖ / ‖y‖ * (‖Y‖ - t * ‖y‖)| ≤ 1 * (5 * η * ‖Y‖) := by
        rw [abs_mul, abs_of_pos (div_pos hx hy)]
        exact mul_le_mul ((div_le_one hy).2 hxy') nY (abs_nonneg _) zero_le_one
      linarith
    have k2 : |‖x‖ / ‖y‖ - rotationCos x y| ≤ 6 / 5 * u * rotationCos x y := by
      unfold rotationCos
      rw [abs_of_nonneg (sub_nonneg.2 (div_le_div_of_nonneg_left hx.le hy hyρ)), sub_le_iff_le_add]
      have e : 6 / 5 * u * (‖x‖ / pairLength x y) + ‖x‖ / pairLength x y =
          ‖x‖ * ((1 + 6 / 5 * u) * ‖y‖) / (pairLength x y * ‖y‖) := by field_simp; ring
      rw [e, div_le_div_iff₀ hy (by positivity)]
      have := mul_le_mul_of_nonneg_left hρy (show 0 ≤ ‖x‖ * ‖y‖ by positivity)
      linarith
    have := abs_sub_le (‖X‖ / ‖Y‖) (‖x‖ / ‖y‖) (rotationCos x y)
    linarith
  · have hx' : (‖x‖ : ℂ) ≠ 0 := by exact_mod_cast hx.ne'
    have hρ' : (pairLength x y : ℂ) ≠ 0 := by exact_mod_cast hρ.ne'
    have hy' : (‖y‖ : ℂ) ≠ 0 := by exact_mod_cast hy.ne'
    have ht' : (t : ℂ) ≠ 0 := by exact_mod_cast ht.ne'
    have e : x / (‖x‖ : ℂ) * ((starRingEnd ℂ) Y / (‖Y‖ : ℂ)) - rotationSin x y =
        x / (‖x‖ : ℂ) * ((starRingEnd ℂ) (Y / (‖Y‖ : ℂ) - y / (pairLength x y : ℂ))) := by
      unfold rotationSin
      rw [map_sub, map_div₀, map_div₀, Complex.conj_ofReal, Complex.conj_ofReal, mul_sub]
      congr 1
      push_cast
      field_simp
    have n1 : ‖x / (‖x‖ : ℂ)‖ = 1 := by
      rw [norm_div, Complex.norm_real, norm_norm, div_self hx.ne']
    rw [e, norm_mul, n1, one_mul, RCLike.norm_conj]
    have k1 := direction_err hY0 (mul_ne_zero ht' hy0) dY
    have e2 : (t : ℂ) * y / (‖(t : ℂ) * y‖ : ℂ) = y / (‖y‖ : ℂ) := by
      rw [norm_smul_pos ht]; push_cast; field_simp
    have e3 : 2 * (5 * η * ‖Y‖ / ‖Y‖) = 10 * η := by field_simp; ring
    rw [e2, e3] at k1
    have k2 : ‖y / (‖y‖ : ℂ) - y / (pairLength x y : ℂ)‖ ≤ 6 / 5 * u := by
      have e4 : y / (‖y‖ : ℂ) - y / (pairLength x y : ℂ) =
          y / (‖y‖ : ℂ) * (((pairLength x y - ‖y‖ : ℝ) : ℂ) / (pairLength x y : ℂ)) := by
        push_cast; field_simp
      have n2 : ‖y / (‖y‖ : ℂ)‖ = 1 := by
        rw [norm_div, Complex.norm_real, norm_norm, div_self hy.ne']
      rw [e4, norm_mul, n2, one_mul, norm_div, Complex.norm_real, Complex.norm_real,
        Real.norm_of_nonneg (by linarith), Real.norm_of_nonneg hρ0, div_le_iff₀ hρ]
      have := mul_le_mul_of_nonneg_left hyρ (show 0 ≤ 6 / 5 * u by positivity)
      linarith
    have := norm_sub_le_norm_sub_add_norm_sub (Y / (‖Y‖ : ℂ)) (y / (‖y‖ : ℂ)) (y / (pairLength x y : ℂ))
    linarith
  · refine le_of_sq_le_sq ?_ (by positivity)
    rw [div_pow, hρ2]
    have := mul_le_mul_of_nonneg_right hu' (sq_nonneg ‖y‖)
    linarith [sq_nonneg ‖x‖, sq_nonneg ‖y‖]

omit h in
theorem rotation_identity {x y : ℂ} (hx : x ≠ 0) :
    (rotationCos x y : ℂ) * x + rotationSin x y * y = rotatedFirst x y ∧ ‖rotationSin x y‖ ≤ 1 ∧
      ‖rotatedFirst x y‖ = pairLength x y ∧ 0 ≤ rotationCos x y ∧ rotationCos x y ≤ 1 := by
  have hp : 0 < ‖x‖ := norm_pos_iff.2 hx
  have hρ : 0 < pairLength x y := Real.sqrt_pos.2 (by positivity)
  have hρ2 : pairLength x y ^ 2 = ‖x‖ ^ 2 + ‖y‖ ^ 2 := Real.sq_sqrt (by positivity)
  obtain ⟨n1, n2⟩ := norm_le_pairLength x y
  have hyy : y * (starRingEnd ℂ) y = (‖y‖ : ℂ) ^ 2 := by
    rw [Complex.mul_conj, Complex.normSq_eq_norm_sq]; push_cast; ring1
  have hρ2' : (pairLength x y : ℂ) ^ 2 = (‖x‖ : ℂ) ^ 2 + (‖y‖ : ℂ) ^ 2 := by exact_mod_cast hρ2
  have hp' : (‖x‖ : ℂ) ≠ 0 := by exact_mod_cast hp.ne'
  have hρ' : (pairLength x y : ℂ) ≠ 0 := by exact_mod_cast hρ.ne'
  unfold rotationCos rotationSin rotatedFirst
  generalize pairLength x y = ρ at *
  refine ⟨?_, ?_, ?_, by positivity, (div_le_one hρ).2 n1⟩
  · push_cast
    field_simp
    linear_combination hyy - hρ2'
  · rw [norm_div, norm_mul, RCLike.norm_conj, Complex.norm_real, Real.norm_of_nonneg (by positivity),
      mul_div_mul_left _ _ hp.ne']
    exact (div_le_one hρ).2 n2
  · rw [norm_mul, Complex.norm_real, Real.norm_of_nonneg (by positivity), div_mul_cancel₀ _ hp.ne']

end Format.Scaled
end StdBLAS

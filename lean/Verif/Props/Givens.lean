import Verif.Lemmas.Givens
import Verif.Lemmas.State
import Verif.Props.Witness
import Mathlib.Tactic.NormNum
import Mathlib.Tactic.LinearCombination

/-!
# Properties C13 - C15: Givens rotations
-/

namespace StdBLAS
open Witness

/-! ## C13 real setup -/

/-- **C13** real `setup_givens_rotation(f, g, c, s, r)`: it terminates (some number of steps
`N` suffices), and the result is an orthogonal rotation that maps `(f, g)` to `(r, 0)`;
`c` is positive if `|f| > |g|`. -/
theorem C13_setup_givens_real (safmn2 f g : ℝ) (h0 : 0 < safmn2) (h1 : safmn2 < 1) :
    ∃ N, ∀ fuel, N ≤ fuel → ∃ c s r, setupGivensReal fuel safmn2 f g = some (c, s, r) ∧
      c ^ 2 + s ^ 2 = 1 ∧ c * f + s * g = r ∧ -s * f + c * g = 0 ∧ r ^ 2 = f ^ 2 + g ^ 2 ∧
      (|f| > |g| → 0 < c) := by
  suffices H : ∃ N, ∀ fuel, N ≤ fuel → ∃ c s r,
      setupGivensReal fuel safmn2 f g = some (c, s, r) ∧ IsRotation f g c s r ∧
        (|f| > |g| → 0 < c) by
    obtain ⟨N, hN⟩ := H
    refine ⟨N, fun fuel hf => ?_⟩
    obtain ⟨c, s, r, e, ⟨a1, a2, a3, a4⟩, a5⟩ := hN fuel hf
    exact ⟨c, s, r, e, a1, a2, a3, a4, a5⟩
  unfold setupGivensReal
  simp only
  by_cases hg : g = 0
  · refine ⟨0, fun fuel _ => ⟨1, 0, f, by rw [if_pos hg], ?_, fun _ => one_pos⟩⟩
    subst hg
    exact ⟨by norm_num, by ring, by ring, by ring⟩
  by_cases hf : f = 0
  · refine ⟨0, fun fuel _ => ⟨0, 1, g, by rw [if_neg hg, if_pos hf], ?_, fun h => ?_⟩⟩
    · subst hf; exact ⟨by norm_num, by ring, by ring, by ring⟩
    · subst hf
      rw [abs_zero] at h
      exact absurd h (not_lt.2 (abs_nonneg g))
  have hx0 : 0 < 1 / safmn2 := by positivity
  have hx1 : 1 < 1 / safmn2 := by rw [lt_div_iff₀ h0]; linarith
  have hM : 0 < max |f| |g| := lt_of_lt_of_le (abs_pos.2 hg) (le_max_right _ _)
  simp only [if_neg hg, if_neg hf]
  by_cases hbig : max |f| |g| ≥ 1 / safmn2
  · obtain ⟨n, hn⟩ := shrink_ends h0 h1 hx0 (max |f| |g|)
    refine ⟨n + 1, fun fuel hfuel => ?_⟩
    obtain ⟨m, hm⟩ := rescaleLoop_some (keep := fun s => s ≥ 1 / safmn2) h0 n f g 0 hn fuel hfuel
    simp only [if_pos hbig, hm, Option.bind_eq_bind, Option.bind_some]
    rw [scaleBack_eq, Nat.zero_add]
    obtain ⟨hrot, hc, hr⟩ := plain_rotation (f := f) (q := safmn2 ^ (m + 1))
      (q' := (1 / safmn2) ^ (m + 1)) (by positivity)
      (by rw [← mul_pow, mul_one_div_cancel h0.ne', one_pow]) hg
    refine sign_step hrot ?_
    rw [hc]
    exact div_ne_zero (mul_ne_zero hf (by positivity)) hr.ne'
  by_cases hsmall : max |f| |g| ≤ safmn2
  · obtain ⟨n, hn⟩ := grow_ends (B := safmn2) hx1 hM
    refine ⟨n + 1, fun fuel hfuel => ?_⟩
    obtain ⟨m, hm⟩ := rescaleLoop_some (keep := fun s => s ≤ safmn2) hx0 n f g 0 hn fuel hfuel
    simp only [if_neg hbig, if_pos hsmall, hm, Option.bind_eq_bind, Option.bind_some]
    rw [scaleBack_eq, Nat.zero_add]
    obtain ⟨hrot, hc, hr⟩ := plain_rotation (f := f) (q := (1 / safmn2) ^ (m + 1))
      (q' := safmn2 ^ (m + 1)) (by positivity)
      (by rw [← mul_pow, one_div_mul_cancel h0.ne', one_pow]) hg
    refine sign_step hrot ?_
    rw [hc]
    exact div_ne_zero (mul_ne_zero hf (by positivity)) hr.ne'
  · refine ⟨0, fun fuel _ => ?_⟩
    simp only [if_neg hbig, if_neg hsmall, Option.bind_eq_bind, Option.bind_some]
    obtain ⟨hrot, hc, hr⟩ := plain_rotation (f := f) (q := 1) (q' := 1) one_pos (one_mul 1) hg
    simp only [mul_one] at hrot hc hr
    refine sign_step hrot ?_
    rw [hc]
    exact div_ne_zero hf hr.ne'

/-- the `double` threshold `2^-485`, data far below it -/
example : ∃ N, ∀ fuel, N ≤ fuel → ∃ c s r,
    setupGivensReal fuel (1 / 2 ^ 485) (-3 / 2 ^ 1000) (1 / 2 ^ 1000) = some (c, s, r) ∧
      c ^ 2 + s ^ 2 = 1 ∧ c * (-3 / 2 ^ 1000) + s * (1 / 2 ^ 1000) = r ∧
      -s * (-3 / 2 ^ 1000) + c * (1 / 2 ^ 1000) = 0 ∧
      r ^ 2 = (-3 / 2 ^ 1000) ^ 2 + (1 / 2 ^ 1000) ^ 2 ∧
      (|(-3 / 2 ^ 1000 : ℝ)| > |(1 / 2 ^ 1000 : ℝ)| → 0 < c) :=
  C13_setup_givens_real _ _ _ (by positivity)
    (by rw [div_lt_one (by positivity)]; exact one_lt_pow₀ (by norm_num) (by norm_num))

/-! ## C14 complex setup -/

/-- What the three ways through the scaling code have in common: the code goes to its last part
with `f`, `g` scaled by some `q > 0`. -/
theorem setupGivensComplex_scaled {safmin safmn2 : ℝ} (f g : ℂ) (h0 : 0 < safmn2)
    (h1 : safmn2 < 1) :
    ∃ N, ∀ fuel, N ≤ fuel →
      (g = 0 ∧ setupGivensComplex fuel safmin safmn2 f g = some (1, 0, f)) ∨
      ∃ q up down, 0 < q ∧ (g = 0 → safmn2 ^ 2 < max (abs1 f) (abs1 g)) ∧ safmn2 < max (abs1 f) (abs1 g) * q ∧
        setupGivensComplex fuel safmin safmn2 f g = some
          (givensComplexTail safmin safmn2 (1 / safmn2) f g (f * (q : ℂ)) (g * (q : ℂ)) up down) ∧
        (safmn2 ^ 2 < max (abs1 f) (abs1 g) → q * backFactor safmn2 up down = 1) ∧
        (max (abs1 f) (abs1 g) ≤ safmn2 ^ 2 → ∃ n, 2 ≤ n ∧
          q * backFactor safmn2 up down = (1 / safmn2) ^ n) ∧
        (safmn2 < max (abs1 f) (abs1 g) → max (abs1 f) (abs1 g) < 1 / safmn2 → q = 1) := by
  have hx0 : 0 < 1 / safmn2 := by positivity
  have hx1 : 1 < 1 / safmn2 := by rw [lt_div_iff₀ h0]; linarith
  have hsq : safmn2 ^ 2 < safmn2 := by nlinarith
  unfold setupGivensComplex
  simp only
  set M := max (abs1 f) (abs1 g) with hMdef
  by_cases hbig : M ≥ 1 / safmn2
  · obtain ⟨n, hn⟩ := shrink_ends h0 h1 hx0 M
    refine ⟨n + 1, fun fuel hfuel => Or.inr ?_⟩
    obtain ⟨m, hm1, _, hm⟩ := rescaleLoopC_some (keep := fun s => s ≥ 1 / safmn2) n f g M 0
      hbig hn fuel hfuel
    refine ⟨safmn2 ^ (m + 1), m + 1, 0, by positivity, fun _ => by linarith, ?_, ?_, fun _ => ?_, fun h => ?_,
      fun _ h => absurd h (not_lt.2 hbig)⟩
    · have : 1 ≤ M * safmn2 ^ (m + 1) := by
        rw [pow_succ, ← mul_assoc]
        calc (1 : ℝ) = 1 / safmn2 * safmn2 := by field_simp
          _ ≤ M * safmn2 ^ m * safmn2 := by gcongr
      linarith
    · simp only [if_pos hbig, hm, Option.bind_eq_bind, Option.bind_some, Nat.zero_add]
    · unfold backFactor
      rw [if_pos (Nat.succ_pos m), ← mul_pow, mul_one_div_cancel h0.ne', one_pow]
    · exfalso; linarith
  by_cases hsmall : M ≤ safmn2
  · by_cases hg : g = 0
    · refine ⟨0, fun fuel _ => Or.inl ⟨hg, ?_⟩⟩
      simp only [if_neg hbig, if_pos hsmall, if_pos hg]
    have hM : 0 < M := by
      refine lt_of_lt_of_le ?_ (le_max_right _ _)
      rcases (abs1_nonneg g).eq_or_lt with e | e
      · exact absurd (abs1_eq_zero e.ge) hg
      · exact e
    obtain ⟨n, hn⟩ := grow_ends (B := safmn2) hx1 hM
    refine ⟨n + 1, fun fuel hfuel => Or.inr ?_⟩
    obtain ⟨m, hm1, hm2, hm⟩ := rescaleLoopC_some (keep := fun s => s ≤ safmn2) n f g M 0
      hsmall hn fuel hfuel
    refine ⟨(1 / safmn2) ^ (m + 1), 0, m + 1, by positivity, fun h => absurd h hg, not_le.1 hm2, ?_, fun h => ?_,
      fun h => ?_, fun h => absurd hsmall (not_le.2 h)⟩
    · simp only [if_neg hbig, if_pos hsmall, if_neg hg, hm, Option.bind_eq_bind, Option.bind_some,
        Nat.zero_add]
    · have : m = 0 := by
        by_contra hm0
        have h2 : (1 / safmn2) ^ 1 ≤ (1 / safmn2) ^ m :=
          pow_le_pow_right₀ hx1.le (by omega)
        have h3 : safmn2 < M * (1 / safmn2) ^ m := by
          calc safmn2 = safmn2 ^ 2 * (1 / safmn2) ^ 1 := by field_simp
            _ < M * (1 / safmn2) ^ 1 := by gcongr
            _ ≤ M * (1 / safmn2) ^ m := by gcongr
        exact absurd hm1 (not_le.2 h3)
      subst this
      simp [backFactor, downIterations, h0.ne']
    · have : m ≠ 0 := by
        rintro rfl
        apply hm2
        calc M * (1 / safmn2) ^ (0 + 1) ≤ safmn2 ^ 2 * (1 / safmn2) ^ (0 + 1) := by gcongr
          _ = safmn2 := by rw [Nat.zero_add, pow_one]; field_simp
      refine ⟨m + 1, by omega, ?_⟩
      unfold backFactor downIterations
      rw [if_neg (Nat.lt_irrefl 0), if_pos (Nat.succ_pos m), Nat.sub_eq_zero_of_le (by omega),
        pow_zero, mul_one]
  · refine ⟨0, fun fuel _ => Or.inr ⟨1, 0, 0, one_pos, fun _ => by linarith [not_le.1 hsmall], ?_,
      ?_, fun _ => ?_, fun h => ?_, fun _ _ => rfl⟩⟩
    · rw [mul_one]; exact not_le.1 hsmall
    · simp only [if_neg hbig, if_neg hsmall, Complex.ofReal_one, mul_one]
    · simp [backFactor]
    · exfalso; linarith

/-- **C14** complex `setup_givens_rotation(f, g, c, s, r)`, the part of the property that is true.
Terminates; maps `g` to zero; the rotation is unitary up to a relative `safmin / safmn2²`
(`2^-52` for `double`), and exactly so unless `f` is extremely small against `g`
or the smallest scaled number; `r = c f + s g` unless
both `f` and `g` are below `safmn2²` (`2^-970` for `double`).
Missing: exact unitarity and the value of `r` in the excepted cases; they are refuted by
`C14_r_false` and `C14_unitary_false`. -/
theorem C14_setup_givens_complex_partial (safmin safmn2 : ℝ) (f g : ℂ) (h0 : 0 < safmn2)
    (h1 : safmn2 < 1) (hs0 : 0 < safmin) (hs : safmin ≤ safmn2 ^ 2) :
    ∃ N, ∀ fuel, N ≤ fuel → ∃ (c : ℝ) (s r : ℂ),
      setupGivensComplex fuel safmin safmn2 f g = some (c, s, r) ∧
      -(starRingEnd ℂ) s * f + (c : ℂ) * g = 0 ∧
      1 ≤ c ^ 2 + ‖s‖ ^ 2 ∧ c ^ 2 + ‖s‖ ^ 2 ≤ 1 + safmin / safmn2 ^ 2 ∧
      (g = 0 ∨ safmn2 ^ 2 < max (abs1 f) (abs1 g) → (c : ℂ) * f + s * g = r) ∧
      (safmin * max (‖g‖ ^ 2) ((max (abs1 f) (abs1 g) / safmn2) ^ 2) < ‖f‖ ^ 2 →
        c ^ 2 + ‖s‖ ^ 2 = 1) := by
  obtain ⟨N, hN⟩ := setupGivensComplex_scaled (safmin := safmin) f g h0 h1
  refine ⟨N, fun fuel hfuel => ?_⟩
  have hδ : 0 ≤ safmin / safmn2 ^ 2 := by positivity
  rcases hN fuel hfuel with ⟨rfl, e⟩ | ⟨q, up, down, hq, hg0, hM, e, hback, -, -⟩
  · exact ⟨1, 0, f, e, by simp, by simp, by simpa using hδ, fun _ => by simp, fun _ => by simp⟩
  · rcases ht : givensComplexTail safmin safmn2 (1 / safmn2) f g (f * (q : ℂ)) (g * (q : ℂ)) up down
      with ⟨c, s, r⟩
    rw [ht] at e
    obtain ⟨t1, t2, t3, t4, t5, -⟩ := tail_spec h0 h1 hs0 hs hq hM up down ht
    rw [Complex.normSq_eq_norm_sq] at t1 t2 t5
    refine ⟨c, s, r, e, t3, t1, t2, ?_, fun h => (t5 h).1⟩
    rintro (hg | hbig)
    · exact t4 (hback (hg0 hg))
    · exact t4 (hback hbig)

/-- the `double` constants, data far below the thresholds -/
example := C14_setup_givens_complex_partial (1 / 2 ^ 1022) (1 / 2 ^ 485)
  ⟨-3 / 2 ^ 600, 1 / 2 ^ 700⟩ ⟨1 / 2 ^ 600, 2⟩ (by positivity)
  (by rw [div_lt_one (by positivity)]; exact one_lt_pow₀ (by norm_num) (by norm_num))
  (by positivity)
  (by rw [div_pow, one_pow, ← pow_mul]; gcongr <;> norm_num)

/-- **C14** is false for `r`: whenever `f` and `g` are both at most `safmn2²` (in the sense of
`abs1`) and `f` is not extremely small against `g`, the returned `r` is not `c f + s g`; it is
too large by a power of `1 / safmn2`.
Cause: `blas1_givens.hpp:366`, `for (int i = 1; i >= -count; --i)`. -/
theorem C14_r_false (safmin safmn2 : ℝ) (f g : ℂ) (h0 : 0 < safmn2)
    (h1 : safmn2 < 1) (hs0 : 0 < safmin) (hs : safmin ≤ safmn2 ^ 2)
    (hg : g ≠ 0) (hsmall : max (abs1 f) (abs1 g) ≤ safmn2 ^ 2)
    (hf : safmin * max (‖g‖ ^ 2) ((max (abs1 f) (abs1 g) / safmn2) ^ 2) < ‖f‖ ^ 2) :
    ∃ N, ∀ fuel, N ≤ fuel → ∃ (c : ℝ) (s r : ℂ),
      setupGivensComplex fuel safmin safmn2 f g = some (c, s, r) ∧ (c : ℂ) * f + s * g ≠ r ∧
      ∃ n, 2 ≤ n ∧ r = ((c : ℂ) * f + s * g) * ((1 / safmn2 : ℝ) : ℂ) ^ n := by
  obtain ⟨N, hN⟩ := setupGivensComplex_scaled (safmin := safmin) f g h0 h1
  refine ⟨N, fun fuel hfuel => ?_⟩
  rcases hN fuel hfuel with ⟨e, _⟩ | ⟨q, up, down, hq, hg0, hM, e, -, hn, -⟩
  · exact absurd e hg
  · rcases ht : givensComplexTail safmin safmn2 (1 / safmn2) f g (f * (q : ℂ)) (g * (q : ℂ)) up down
      with ⟨c, s, r⟩
    rw [ht] at e
    obtain ⟨t1, t2, t3, t4, t5, -⟩ := tail_spec h0 h1 hs0 hs hq hM up down ht
    obtain ⟨u1, u2, u3⟩ := t5 hf
    obtain ⟨n, hn2, en⟩ := hn hsmall
    rw [en, Complex.ofReal_pow] at u3
    refine ⟨c, s, r, e, ?_, n, hn2, u3⟩
    have hne : (c : ℂ) * f + s * g ≠ 0 := by
      intro hz
      -- then the unitary map sends `(f, g)` to zero
      have e1 : (c : ℂ) * ((c : ℂ) * f + s * g) - s * (-(starRingEnd ℂ) s * f + (c : ℂ) * g) =
          ((c ^ 2 + Complex.normSq s : ℝ) : ℂ) * f := by
        have := Complex.mul_conj s
        push_cast
        rw [← this]; ring
      rw [hz, t3, u1] at e1
      simp at e1
      exact u2 e1.symm
    intro heq
    rw [heq] at u3 hne
    have hx1 : 1 < 1 / safmn2 := by rw [lt_div_iff₀ h0]; linarith
    have : ((1 / safmn2 : ℝ) : ℂ) ^ n = 1 := by
      have := mul_left_cancel₀ hne (u3.symm.trans (mul_one r).symm)
      exact this
    rw [← Complex.ofReal_pow] at this
    have h2 : (1 / safmn2) ^ n = 1 := by exact_mod_cast this
    have := one_lt_pow₀ hx1 (n := n) (by omega)
    linarith

theorem two_pow_lt {a b : Nat} (h : a < b) : (1 : ℝ) / 2 ^ b < 1 / 2 ^ a := by
  apply one_div_lt_one_div_of_lt (by positivity)
  exact pow_lt_pow_right₀ (by norm_num) h

/-- `f = g = 2^-1000` with the `double` constants -/
example : ∃ N, ∀ fuel, N ≤ fuel → ∃ (c : ℝ) (s r : ℂ),
    setupGivensComplex fuel (1 / 2 ^ 1022) (1 / 2 ^ 485) ((1 / 2 ^ 1000 : ℝ) : ℂ)
      ((1 / 2 ^ 1000 : ℝ) : ℂ) = some (c, s, r) ∧
    (c : ℂ) * ((1 / 2 ^ 1000 : ℝ) : ℂ) + s * ((1 / 2 ^ 1000 : ℝ) : ℂ) ≠ r := by
  have ha : abs1 ((1 / 2 ^ 1000 : ℝ) : ℂ) = 1 / 2 ^ 1000 := by
    unfold abs1
    rw [Complex.ofReal_re, Complex.ofReal_im, abs_zero, abs_of_pos (by positivity)]
    exact max_eq_left (by positivity)
  have hn : ‖((1 / 2 ^ 1000 : ℝ) : ℂ)‖ = 1 / 2 ^ 1000 := by
    rw [Complex.norm_real, Real.norm_eq_abs, abs_of_pos (by positivity)]
  obtain ⟨N, hN⟩ := C14_r_false (1 / 2 ^ 1022) (1 / 2 ^ 485) ((1 / 2 ^ 1000 : ℝ) : ℂ)
    ((1 / 2 ^ 1000 : ℝ) : ℂ) (by positivity) (by simpa using two_pow_lt (a := 0) (b := 485) (by norm_num))
    (by positivity) (by rw [div_pow, one_pow, ← pow_mul]; exact (two_pow_lt (by norm_num)).le)
    (Complex.ofReal_ne_zero.2 (by positivity))
    (by rw [ha, max_self, div_pow, one_pow, ← pow_mul]; exact (two_pow_lt (by norm_num)).le)
    (by
      rw [ha, hn, max_self]
      have e : (1 : ℝ) / 2 ^ 1000 / (1 / 2 ^ 485) = 1 / 2 ^ 515 := by
        rw [show (1000 : ℕ) = 515 + 485 from rfl, pow_add]; field_simp
      rw [e, div_pow, div_pow, one_pow, ← pow_mul, ← pow_mul,
        max_eq_right (two_pow_lt (by norm_num)).le, div_mul_div_comm, one_mul, ← pow_add]
      exact two_pow_lt (by norm_num))
  refine ⟨N, fun fuel hf => ?_⟩
  obtain ⟨c, s, r, e, hne, _⟩ := hN fuel hf
  exact ⟨c, s, r, e, hne⟩

/-- **C14** is false for exact unitarity: when no scaling happens and `f` is nonzero with
`|f|² ≤ safmin max(|g|², 1)`, then `c² + |s|² = 1 + |f|²/|g|²`.  (The excess is below one unit
in the last place for the constants used, so it is invisible in floating point.) -/
theorem C14_unitary_false (safmin safmn2 : ℝ) (f g : ℂ) (h0 : 0 < safmn2)
    (h1 : safmn2 < 1) (hs0 : 0 < safmin) (hs : safmin ≤ safmn2 ^ 2)
    (hlo : safmn2 < max (abs1 f) (abs1 g)) (hhi : max (abs1 f) (abs1 g) < 1 / safmn2)
    (hf0 : f ≠ 0) (hf : ‖f‖ ^ 2 ≤ max (‖g‖ ^ 2) 1 * safmin) :
    ∃ N, ∀ fuel, N ≤ fuel → ∃ (c : ℝ) (s r : ℂ),
      setupGivensComplex fuel safmin safmn2 f g = some (c, s, r) ∧
      c ^ 2 + ‖s‖ ^ 2 = 1 + ‖f‖ ^ 2 / ‖g‖ ^ 2 ∧ c ^ 2 + ‖s‖ ^ 2 ≠ 1 := by
  obtain ⟨N, hN⟩ := setupGivensComplex_scaled (safmin := safmin) f g h0 h1
  refine ⟨N, fun fuel hfuel => ?_⟩
  rcases hN fuel hfuel with ⟨rfl, _⟩ | ⟨q, up, down, hq, hg0, hM, e, -, -, hq1⟩
  · exfalso
    rw [max_eq_left (by simp [abs1] : abs1 0 ≤ abs1 f)] at hlo
    rw [norm_zero, max_eq_right (by norm_num), one_mul] at hf
    have h3 : safmn2 ^ 2 < abs1 f ^ 2 := by gcongr
    have h4 := abs1_sq_le f
    rw [abssq_eq, Complex.normSq_eq_norm_sq] at h4
    linarith
  · obtain rfl := hq1 hlo hhi
    rcases ht : givensComplexTail safmin safmn2 (1 / safmn2) f g (f * ((1 : ℝ) : ℂ))
      (g * ((1 : ℝ) : ℂ)) up down with ⟨c, s, r⟩
    rw [ht] at e
    obtain ⟨-, -, -, -, -, t6⟩ := tail_spec h0 h1 hs0 hs hq hM up down ht
    rw [Complex.normSq_eq_norm_sq] at t6
    obtain ⟨u1, u2⟩ := t6 (by simpa using hf) hf0
    refine ⟨c, s, r, e, u1, ?_⟩
    rw [u1]
    have : 0 < ‖f‖ ^ 2 / ‖g‖ ^ 2 := by
      have := norm_pos_iff.2 hf0
      have := norm_pos_iff.2 u2
      positivity
    linarith

/-- `f = 2^-600`, `g = 1` with the `double` constants -/
example : ∃ N, ∀ fuel, N ≤ fuel → ∃ (c : ℝ) (s r : ℂ),
    setupGivensComplex fuel (1 / 2 ^ 1022) (1 / 2 ^ 485) ((1 / 2 ^ 600 : ℝ) : ℂ) 1 =
      some (c, s, r) ∧ c ^ 2 + ‖s‖ ^ 2 ≠ 1 := by
  have ha : max (abs1 ((1 / 2 ^ 600 : ℝ) : ℂ)) (abs1 1) = 1 := by
    unfold abs1
    rw [Complex.ofReal_re, Complex.ofReal_im, abs_zero, abs_of_pos (by positivity),
      max_eq_left (by positivity : (0 : ℝ) ≤ 1 / 2 ^ 600)]
    simp only [Complex.one_re, Complex.one_im, abs_one, abs_zero, zero_le_one, sup_of_le_left]
    exact max_eq_right (by simpa using (two_pow_lt (a := 0) (b := 600) (by norm_num)).le)
  have hlt : (1 : ℝ) / 2 ^ 485 < 1 := by simpa using two_pow_lt (a := 0) (b := 485) (by norm_num)
  obtain ⟨N, hN⟩ := C14_unitary_false (1 / 2 ^ 1022) (1 / 2 ^ 485) ((1 / 2 ^ 600 : ℝ) : ℂ) 1
    (by positivity) hlt (by positivity)
    (by rw [div_pow, one_pow, ← pow_mul]; exact (two_pow_lt (by norm_num)).le)
    (by rw [ha]; exact hlt)
    (by rw [ha, lt_div_iff₀ (by positivity), one_mul]; exact hlt)
    (Complex.ofReal_ne_zero.2 (by positivity))
    (by
      rw [Complex.norm_real, Real.norm_eq_abs, abs_of_pos (by positivity), ← Complex.ofReal_one,
        Complex.norm_real, Real.norm_eq_abs, abs_one, one_pow, max_self, one_mul, div_pow, one_pow, ← pow_mul]
      exact (two_pow_lt (by norm_num)).le)
  refine ⟨N, fun fuel hf => ?_⟩
  obtain ⟨c, s, r, e, _, hne⟩ := hN fuel hf
  exact ⟨c, s, r, e, hne⟩

/-! ## C15 apply_givens_rotation -/

section apply
variable {α : Type}

/-- The loop of both versions, for any way `sc` of computing the second factor. -/
theorem applyGivens_loop [Add α] [Sub α] [Mul α] (x y : Vec) (h : Heap α) (f g : Nat → α)
    (c s sc : α) (hx : x.Holds h f) (hy : y.Holds h g) (hext : x.ext = y.ext)
    (hux : x.Unique) (huy : y.Unique) (hap : Apart x.Cell y.Cell) :
    Ends (forUp 0 x.ext fun i => do
      let xi ← x.get i
      let yi ← y.get i
      let dtemp := c * xi + s * yi
      let yi ← y.get i
      let xi ← x.get i
      y.set i (c * yi - sc * xi)
      x.set i dtemp) h fun _ h' =>
      x.Holds h' (fun i => c * f i + s * g i) ∧ y.Holds h' (fun i => c * g i - sc * f i) ∧
        OnlyChanges (fun a => x.Cell a ∨ y.Cell a) h h' := by
  classical
  have hne : ∀ i k, i < x.ext → k < y.ext → x.addr i ≠ y.addr k :=
    fun i k hi hk e => hap _ ⟨i, hi, rfl⟩ ⟨k, hk, e.symm⟩
  unfold forUp
  refine (ends_forEach_own (fun i a => a = x.addr i ∨ a = y.addr i)
    (fun i a => if a = y.addr i then some (c * g i - sc * f i) else some (c * f i + s * g i))
    h ?_ ?_).mono ?_
  · refine (List.nodup_range' (step := 1)).imp_of_mem ?_
    intro i k hi hk hn a h1 h2
    have hi := (mem_up.1 hi).2
    have hk := (mem_up.1 hk).2
    rcases h1 with rfl | rfl <;> rcases h2 with e | e
    · exact hn (hux i k (by omega) (by omega) e)
    · exact hne i k hi (by omega) e
    · exact hne k i hk (by omega) e.symm
    · exact hn (huy i k (by omega) (by omega) e)
  · intro i hi h1 _ h2
    have hi := (mem_up.1 hi).2
    have hiy : i < y.ext := by omega
    have ex := (h2 _ (Or.inl rfl)).trans (hx i (by omega))
    have ey := (h2 _ (Or.inr rfl)).trans (hy i hiy)
    have hn := hne i i hi hiy
    simp only [ends_bind, ends_vec_get, ends_vec_set]
    refine ⟨hi, f i, ex, hiy, g i, ey, hiy, g i, ey, hi, f i, ex, hiy, ⟨_, ey⟩, hi, ?_, ?_, ?_⟩
    · exact ⟨f i, by rw [Function.update_of_ne hn]; exact ex⟩
    · rintro a (rfl | rfl)
      · simp [hn]
      · simp [Ne.symm hn]
    · intro a ha
      simp only [not_or] at ha
      simp [ha.1, ha.2]
  · rintro _ h' ⟨h1, h2⟩
    refine ⟨fun i hi => ?_, fun i hi => ?_, fun a ha => h2 a ?_⟩
    · have := h1 i (mem_up.2 ⟨by omega, by omega⟩) (x.addr i) (Or.inl rfl)
      rw [this, if_neg (hne i i hi (by omega))]
    · have := h1 i (mem_up.2 ⟨by omega, by omega⟩) (y.addr i) (Or.inr rfl)
      simpa using this
    · rintro k hk (rfl | rfl)
      · exact ha (Or.inl ⟨k, by have := (mem_up.1 hk).2; omega, rfl⟩)
      · exact ha (Or.inr ⟨k, by have := (mem_up.1 hk).2; omega, rfl⟩)

/-- **C15** `apply_givens_rotation(x, y, c, s)` with real `s`. -/
theorem C15_apply_givens [Add α] [Sub α] [Mul α] (x y : Vec) (h : Heap α) (f g : Nat → α)
    (c s : α) (hx : x.Holds h f) (hy : y.Holds h g) (hext : x.ext = y.ext)
    (hux : x.Unique) (huy : y.Unique) (hap : Apart x.Cell y.Cell) :
    Ends (applyGivens x y c s) h fun _ h' =>
      x.Holds h' (fun i => c * f i + s * g i) ∧ y.Holds h' (fun i => c * g i - s * f i) ∧
        OnlyChanges (fun a => x.Cell a ∨ y.Cell a) h h' :=
  applyGivens_loop x y h f g c s s hx hy hext hux huy hap

/-- **C15** `apply_givens_rotation(x, y, c, s)` with complex `s`: the second row conjugates it. -/
theorem C15_apply_givens_complex [Add α] [Sub α] [Mul α] [ConjOps α] (x y : Vec) (h : Heap α)
    (f g : Nat → α) (c s : α) (hx : x.Holds h f) (hy : y.Holds h g) (hext : x.ext = y.ext)
    (hux : x.Unique) (huy : y.Unique) (hap : Apart x.Cell y.Cell) :
    Ends (applyGivensC x y c s) h fun _ h' =>
      x.Holds h' (fun i => c * f i + s * g i) ∧
        y.Holds h' (fun i => c * g i - ConjOps.conj s * f i) ∧
        OnlyChanges (fun a => x.Cell a ∨ y.Cell a) h h' :=
  applyGivens_loop x y h f g c s _ hx hy hext hux huy hap

example : Ends (applyGivens x y 3 (-2)) (heap ℤ) fun _ h' =>
    x.Holds h' (fun i => 3 * vals ℤ x i + -2 * vals ℤ y i) ∧
      y.Holds h' (fun i => 3 * vals ℤ y i - -2 * vals ℤ x i) ∧
      OnlyChanges (fun a => x.Cell a ∨ y.Cell a) (heap ℤ) h' :=
  C15_apply_givens _ _ _ _ _ _ _ (holds bx) (holds by_) rfl (by view_facts) (by view_facts)
    (by view_facts)

example : Ends (applyGivensC x y 3 Complex.I) (heap ℂ) fun _ h' =>
    x.Holds h' (fun i => 3 * vals ℂ x i + Complex.I * vals ℂ y i) ∧
      y.Holds h' (fun i => 3 * vals ℂ y i - ConjOps.conj Complex.I * vals ℂ x i) ∧
      OnlyChanges (fun a => x.Cell a ∨ y.Cell a) (heap ℂ) h' :=
  C15_apply_givens_complex _ _ _ _ _ _ _ (holds bx) (holds by_) rfl (by view_facts)
    (by view_facts) (by view_facts)

/-- **C15** a rotation preserves `|x(i)|² + |y(i)|²`, element by element. -/
theorem C15_norm_preserved (x y : Vec) (h : Heap ℂ) (f g : Nat → ℂ) (c : ℝ) (s : ℂ)
    (hx : x.Holds h f) (hy : y.Holds h g) (hext : x.ext = y.ext)
    (hux : x.Unique) (huy : y.Unique) (hap : Apart x.Cell y.Cell) (hcs : c ^ 2 + ‖s‖ ^ 2 = 1) :
    Ends (applyGivensC x y (c : ℂ) s) h fun _ h' => ∃ f' g', x.Holds h' f' ∧ y.Holds h' g' ∧
      ∀ i, ‖f' i‖ ^ 2 + ‖g' i‖ ^ 2 = ‖f i‖ ^ 2 + ‖g i‖ ^ 2 := by
  refine (C15_apply_givens_complex x y h f g c s hx hy hext hux huy hap).mono ?_
  rintro _ h' ⟨h1, h2, _⟩
  refine ⟨_, _, h1, h2, fun i => ?_⟩
  have key : ‖f i‖ ^ 2 + ‖g i‖ ^ 2 = (c ^ 2 + ‖s‖ ^ 2) * (‖f i‖ ^ 2 + ‖g i‖ ^ 2) := by
    rw [hcs, one_mul]
  rw [key]
  simp only [conj_complex, ← Complex.normSq_eq_norm_sq, Complex.normSq_apply]
  simp
  ring

/-- **C15** applying `(c, -s)` after `(c, s)` restores the whole memory. -/
theorem C15_undo (x y : Vec) (h : Heap ℂ) (f g : Nat → ℂ) (c : ℝ) (s : ℂ)
    (hx : x.Holds h f) (hy : y.Holds h g) (hext : x.ext = y.ext)
    (hux : x.Unique) (huy : y.Unique) (hap : Apart x.Cell y.Cell) (hcs : c ^ 2 + ‖s‖ ^ 2 = 1) :
    Ends (do applyGivensC x y (c : ℂ) s; applyGivensC x y (c : ℂ) (-s)) h fun _ h' => h' = h := by
  rw [ends_bind]
  refine (C15_apply_givens_complex x y h f g c s hx hy hext hux huy hap).mono ?_
  rintro _ h1 ⟨a1, a2, a3⟩
  refine (C15_apply_givens_complex x y h1 _ _ c (-s) a1 a2 hext hux huy hap).mono ?_
  rintro _ h2 ⟨b1, b2, b3⟩
  have hone : (c : ℂ) * c + s * (starRingEnd ℂ) s = 1 := by
    rw [Complex.mul_conj, Complex.normSq_eq_norm_sq]
    rw [← Complex.ofReal_one, ← hcs]; push_cast; ring
  funext a
  by_cases hax : x.Cell a
  · obtain ⟨i, hi, rfl⟩ := hax
    rw [b1 i hi, hx i hi]
    congr 1
    rw [conj_complex]
    linear_combination (f i) * hone
  · by_cases hay : y.Cell a
    · obtain ⟨i, hi, rfl⟩ := hay
      rw [b2 i hi, hy i hi]
      congr 1
      rw [conj_complex, conj_complex, map_neg]
      linear_combination (g i) * hone
    · rw [b3 a (by tauto), a3 a (by tauto)]

/-- `c = 3/5`, `s = 4i/5` -/
example : Ends (do applyGivensC x y ((3 / 5 : ℝ) : ℂ) (4 / 5 * Complex.I)
                   applyGivensC x y ((3 / 5 : ℝ) : ℂ) (-(4 / 5 * Complex.I))) (heap ℂ)
    fun _ h' => h' = heap ℂ :=
  C15_undo _ _ _ _ _ _ _ (holds bx) (holds by_) rfl (by view_facts) (by view_facts)
    (by view_facts) (by simp; norm_num)

example : Ends (applyGivensC x y ((3 / 5 : ℝ) : ℂ) (4 / 5 * Complex.I)) (heap ℂ)
    fun _ h' => ∃ f' g', x.Holds h' f' ∧ y.Holds h' g' ∧
      ∀ i, ‖f' i‖ ^ 2 + ‖g' i‖ ^ 2 = ‖vals ℂ x i‖ ^ 2 + ‖vals ℂ y i‖ ^ 2 :=
  C15_norm_preserved _ _ _ _ _ _ _ (holds bx) (holds by_) rfl (by view_facts) (by view_facts)
    (by view_facts) (by simp; norm_num)

end apply

end StdBLAS

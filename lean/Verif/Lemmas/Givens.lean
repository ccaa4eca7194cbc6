import Verif.Model.Givens
import Mathlib.Algebra.Order.Archimedean.Basic
import Mathlib.Algebra.Order.Archimedean.Real.Basic
import Mathlib.Analysis.Complex.Norm
import Mathlib.Tactic.FieldSimp
import Mathlib.Tactic.Positivity
import Mathlib.Tactic.Linarith
import Mathlib.Tactic.Ring

/-! # Lemmas about setup_givens_rotation -/

namespace StdBLAS

theorem scaleBack_eq (k : ℝ) (n : Nat) (r : ℝ) : scaleBack k n r = r * k ^ n := by
  induction n generalizing r with
  | zero => simp [scaleBack]
  | succ n ih => rw [scaleBack, ih, pow_succ]; ring

theorem max_abs_mul {k : ℝ} (hk : 0 < k) (f g : ℝ) : max |f * k| |g * k| = max |f| |g| * k := by
  rw [abs_mul, abs_mul, abs_of_pos hk, max_mul_of_nonneg _ _ hk.le]

/-- The scaling loop ends as soon as the fuel reaches the first good exponent. -/
theorem rescaleLoop_some {keep : ℝ → Prop} {k : ℝ} (hk : 0 < k) (n : Nat) :
    ∀ (f g : ℝ) (count : Nat), ¬ keep (max |f| |g| * k ^ (n + 1)) → ∀ fuel, n + 1 ≤ fuel →
      ∃ m, rescaleLoop keep k fuel f g count = some (f * k ^ (m + 1), g * k ^ (m + 1), count + (m + 1)) := by
  induction n with
  | zero =>
    intro f g count hn fuel hf
    obtain ⟨fuel, rfl⟩ : ∃ m, fuel = m + 1 := ⟨fuel - 1, by omega⟩
    refine ⟨0, ?_⟩
    rw [rescaleLoop]
    rw [max_abs_mul hk, if_neg (by simpa using hn)]
    simp
  | succ n ih =>
    intro f g count hn fuel hf
    obtain ⟨fuel, rfl⟩ : ∃ m, fuel = m + 1 := ⟨fuel - 1, by omega⟩
    rw [rescaleLoop]
    rw [max_abs_mul hk]
    by_cases hkeep : keep (max |f| |g| * k)
    · rw [if_pos hkeep]
      obtain ⟨m, hm⟩ := ih (f * k) (g * k) (count + 1)
        (by rw [max_abs_mul hk, mul_assoc, ← pow_succ']; exact hn) fuel (by omega)
      refine ⟨m + 1, ?_⟩
      rw [hm]
      congr 2
      · ring
      · congr 1
        · ring
        · omega
    · rw [if_neg hkeep]
      exact ⟨0, by simp⟩

theorem shrink_ends {k B : ℝ} (hk0 : 0 < k) (hk1 : k < 1) (hB : 0 < B) (M : ℝ) :
    ∃ n : Nat, ¬ (M * k ^ (n + 1) ≥ B) := by
  by_cases hM : M ≤ 0
  · refine ⟨0, ?_⟩
    have : M * k ^ (0 + 1) ≤ 0 := mul_nonpos_of_nonpos_of_nonneg hM (by positivity)
    linarith
  · push Not at hM
    obtain ⟨n, hn⟩ := exists_pow_lt_of_lt_one (div_pos hB hM) hk1
    refine ⟨n, ?_⟩
    have h1 : k ^ (n + 1) ≤ k ^ n := pow_le_pow_of_le_one hk0.le hk1.le (Nat.le_succ n)
    have : M * k ^ (n + 1) < B := by
      calc M * k ^ (n + 1) ≤ M * k ^ n := by gcongr
        _ < M * (B / M) := by gcongr
        _ = B := by field_simp
    linarith

theorem grow_ends {k B M : ℝ} (hk1 : 1 < k) (hM : 0 < M) :
    ∃ n : Nat, ¬ (M * k ^ (n + 1) ≤ B) := by
  obtain ⟨n, hn⟩ := pow_unbounded_of_one_lt (B / M) hk1
  refine ⟨n, ?_⟩
  have h1 : k ^ n ≤ k ^ (n + 1) := pow_le_pow_right₀ hk1.le (Nat.le_succ n)
  have : B < M * k ^ (n + 1) := by
    calc B = M * (B / M) := by field_simp
      _ < M * k ^ n := by gcongr
      _ ≤ M * k ^ (n + 1) := by gcongr
  linarith

/-- What the real routine promises about its result. -/
def IsRotation (f g c s r : ℝ) : Prop :=
  c ^ 2 + s ^ 2 = 1 ∧ c * f + s * g = r ∧ -s * f + c * g = 0 ∧ r ^ 2 = f ^ 2 + g ^ 2

/-- The plain formula on data scaled by `q`, with `r` scaled back by `q'`. -/
theorem plain_rotation {f g q q' : ℝ} (hq : 0 < q) (hqq : q * q' = 1) (hg : g ≠ 0) :
    IsRotation f g (plainRotation (f * q) (g * q)).1 (plainRotation (f * q) (g * q)).2.1
      ((plainRotation (f * q) (g * q)).2.2 * q') ∧
    (plainRotation (f * q) (g * q)).1 = f * q / Real.sqrt ((f * q) * (f * q) + (g * q) * (g * q)) ∧
    0 < Real.sqrt ((f * q) * (f * q) + (g * q) * (g * q)) := by
  have hpos : 0 < (f * q) * (f * q) + (g * q) * (g * q) := by
    have : 0 < (g * q) * (g * q) := mul_self_pos.2 (mul_ne_zero hg hq.ne')
    nlinarith [mul_self_nonneg (f * q)]
  have hr := Real.sqrt_pos.2 hpos
  have hsq := Real.mul_self_sqrt hpos.le
  refine ⟨?_, rfl, hr⟩
  unfold plainRotation IsRotation
  simp only
  set R := Real.sqrt ((f * q) * (f * q) + (g * q) * (g * q)) with hR
  have hq' : q' = 1 / q := by field_simp; linarith
  refine ⟨?_, ?_, ?_, ?_⟩
  · field_simp
    nlinarith
  · rw [hq']
    field_simp
    nlinarith
  · field_simp; ring
  · have : R ^ 2 = (f ^ 2 + g ^ 2) * q ^ 2 := by rw [sq, hsq]; ring
    rw [hq', mul_pow, this]; field_simp

theorem IsRotation.neg {f g c s r : ℝ} (h : IsRotation f g c s r) :
    IsRotation f g (-c) (-s) (-r) := by
  obtain ⟨h1, h2, h3, h4⟩ := h
  exact ⟨by linarith [neg_sq c, neg_sq s], by linarith, by linarith, by linarith [neg_sq r]⟩

/-- The last step of the real routine: choose the sign. -/
theorem sign_step {f g c s r : ℝ} (h : IsRotation f g c s r) (hc : c ≠ 0) :
    ∃ c' s' r', (if |f| > |g| ∧ c < 0 then some (-c, -s, -r) else some (c, s, r)) =
      some (c', s', r') ∧ IsRotation f g c' s' r' ∧ (|f| > |g| → 0 < c') := by
  by_cases hcond : |f| > |g| ∧ c < 0
  · rw [if_pos hcond]
    exact ⟨_, _, _, rfl, h.neg, fun _ => by linarith [hcond.2]⟩
  · rw [if_neg hcond]
    refine ⟨_, _, _, rfl, h, fun hfg => ?_⟩
    have : ¬ c < 0 := fun h => hcond ⟨hfg, h⟩
    exact lt_of_le_of_ne (not_lt.1 this) (Ne.symm hc)

/-! ## Complex -/

theorem abssq_eq (z : ℂ) : abssq z = Complex.normSq z := rfl

theorem hypot_eq (z : ℂ) : hypot z.re z.im = ‖z‖ := by
  rw [Complex.norm_def]; rfl

theorem abs1_nonneg (z : ℂ) : 0 ≤ abs1 z := le_trans (abs_nonneg _) (le_max_left _ _)

theorem abs1_sq_le (z : ℂ) : abs1 z ^ 2 ≤ abssq z := by
  unfold abs1 abssq
  rcases le_total |z.re| |z.im| with h | h
  · rw [max_eq_right h, sq_abs]; nlinarith [mul_self_nonneg z.re]
  · rw [max_eq_left h, sq_abs]; nlinarith [mul_self_nonneg z.im]

theorem abs1_smul {q : ℝ} (hq : 0 < q) (z : ℂ) : abs1 (z * (q : ℂ)) = abs1 z * q := by
  unfold abs1
  rw [show (z * (q : ℂ)).re = z.re * q by simp, show (z * (q : ℂ)).im = z.im * q by simp,
    max_abs_mul hq]

theorem abs1_eq_zero {z : ℂ} (h : abs1 z ≤ 0) : z = 0 := by
  unfold abs1 at h
  have h1 : |z.re| ≤ 0 := le_trans (le_max_left _ _) h
  have h2 : |z.im| ≤ 0 := le_trans (le_max_right _ _) h
  exact Complex.ext (abs_nonpos_iff.1 h1) (abs_nonpos_iff.1 h2)

theorem rescaleLoopC_some {keep : ℝ → Prop} {k : ℝ} (n : Nat) :
    ∀ (f g : ℂ) (scale : ℝ) (count : Nat), keep scale → ¬ keep (scale * k ^ (n + 1)) →
      ∀ fuel, n + 1 ≤ fuel → ∃ m, keep (scale * k ^ m) ∧ ¬ keep (scale * k ^ (m + 1)) ∧
        rescaleLoopC keep k fuel f g scale count =
          some (f * ((k ^ (m + 1) : ℝ) : ℂ), g * ((k ^ (m + 1) : ℝ) : ℂ), count + (m + 1)) := by
  induction n with
  | zero =>
    intro f g scale count hk hn fuel hf
    obtain ⟨fuel, rfl⟩ : ∃ m, fuel = m + 1 := ⟨fuel - 1, by omega⟩
    refine ⟨0, by simpa using hk, hn, ?_⟩
    rw [rescaleLoopC]
    rw [if_neg (by simpa using hn)]
    simp
  | succ n ih =>
    intro f g scale count hk hn fuel hf
    obtain ⟨fuel, rfl⟩ : ∃ m, fuel = m + 1 := ⟨fuel - 1, by omega⟩
    rw [rescaleLoopC]
    by_cases hkeep : keep (scale * k)
    · rw [if_pos hkeep]
      obtain ⟨m, h1, h2, hm⟩ := ih (f * k) (g * k) (scale * k) (count + 1) hkeep
        (by rw [mul_assoc, ← pow_succ']; exact hn) fuel (by omega)
      refine ⟨m + 1, by rw [pow_succ', ← mul_assoc]; exact h1,
        by rw [pow_succ', ← mul_assoc]; exact h2, ?_⟩
      rw [hm]
      congr 2
      · push_cast; ring
      · congr 1
        · push_cast; ring
        · omega
    · rw [if_neg hkeep]
      exact ⟨0, by simpa using hk, by simpa using hkeep, by simp⟩

/-- The usual case of the complex routine, on data scaled by `q`. -/
theorem common_case {f g : ℂ} {q : ℝ} (hq : 0 < q) (hf : f ≠ 0) :
    let fs := f * (q : ℂ)
    let gs := g * (q : ℂ)
    let t := Real.sqrt (1 + abssq gs / abssq fs)
    let r : ℂ := ⟨t * fs.re, t * fs.im⟩
    let c : ℝ := 1 / t
    let s : ℂ := (⟨r.re / (abssq fs + abssq gs), r.im / (abssq fs + abssq gs)⟩ : ℂ) *
      (starRingEnd ℂ) gs
    c ^ 2 + Complex.normSq s = 1 ∧ -(starRingEnd ℂ) s * f + (c : ℂ) * g = 0 ∧
      ((c : ℂ) * f + s * g) * (q : ℂ) = r := by
  intro fs gs t r c s
  set F := Complex.normSq f with hF
  set G := Complex.normSq g with hG
  have hF0 : 0 < F := Complex.normSq_pos.2 hf
  have hG0 : 0 ≤ G := Complex.normSq_nonneg g
  have efs : abssq fs = F * q ^ 2 := by
    rw [abssq_eq]; simp only [fs, Complex.normSq_mul, Complex.normSq_ofReal]; rw [hF]; ring
  have egs : abssq gs = G * q ^ 2 := by
    rw [abssq_eq]; simp only [gs, Complex.normSq_mul, Complex.normSq_ofReal]; rw [hG]; ring
  have et : t = Real.sqrt (1 + G / F) := by
    simp only [t]; rw [efs, egs]; congr 1; field_simp
  have hpos : 0 < 1 + G / F := by positivity
  have ht0 : 0 < t := by rw [et]; exact Real.sqrt_pos.2 hpos
  have ht2 : t * t = 1 + G / F := by rw [et]; exact Real.mul_self_sqrt hpos.le
  have htF : t * t * F = F + G := by rw [ht2]; field_simp
  have hFG : 0 < F + G := by linarith
  have es : s = ((t / (F + G) : ℝ) : ℂ) * f * (starRingEnd ℂ) g := by
    simp only [s, r]
    rw [efs, egs]
    obtain ⟨w, hw⟩ : ∃ w, w = t / (F + G) := ⟨_, rfl⟩
    have htw : t = w * (F + G) := by rw [hw]; field_simp
    rw [← hw]
    apply Complex.ext <;> simp [fs, gs] <;> rw [htw] <;> field_simp
  have egg : (starRingEnd ℂ) g * g = (G : ℂ) := by
    rw [mul_comm, Complex.mul_conj]
  have eff : (starRingEnd ℂ) f * f = (F : ℂ) := by
    rw [mul_comm, Complex.mul_conj]
  refine ⟨?_, ?_, ?_⟩
  · rw [es]
    simp only [Complex.normSq_mul, Complex.normSq_ofReal, Complex.normSq_conj, c]
    rw [← hF, ← hG]
    have e1 : (1 / t) ^ 2 = F / (F + G) := by
      rw [div_pow, one_pow, sq, ht2]; field_simp
    have e2 : t / (F + G) * (t / (F + G)) * F * G = G / (F + G) := by
      rw [show t / (F + G) * (t / (F + G)) * F * G = t * t * F * G / ((F + G) * (F + G)) by
        field_simp, htF]
      field_simp
    rw [e1, e2]; field_simp
  · rw [es]
    simp only [map_mul, Complex.conj_conj, Complex.conj_ofReal, c]
    have : -(((t / (F + G) : ℝ) : ℂ) * (starRingEnd ℂ) f * g) * f + ((1 / t : ℝ) : ℂ) * g =
        g * ((1 / t - t / (F + G) * F : ℝ) : ℂ) := by
      push_cast
      rw [← eff]; ring
    rw [this]
    have e0 : (1 / t - t / (F + G) * F : ℝ) = 0 := by
      field_simp; nlinarith
    rw [e0]; simp
  · rw [es]
    have : (((c : ℝ) : ℂ) * f + ((t / (F + G) : ℝ) : ℂ) * f * (starRingEnd ℂ) g * g) * (q : ℂ) =
        f * (q : ℂ) * ((c + t / (F + G) * G : ℝ) : ℂ) := by
      push_cast
      rw [← egg]; ring
    rw [this]
    have e0 : (c + t / (F + G) * G : ℝ) = t := by
      simp only [c]
      field_simp
      nlinarith
    rw [e0]
    apply Complex.ext <;> simp [r, fs] <;> ring

/-- The rare case with `f = 0`. -/
theorem zero_case {g : ℂ} {q : ℝ} (hq : 0 < q) (hg : g ≠ 0) :
    let gs := g * (q : ℂ)
    let s : ℂ := ⟨gs.re / hypot gs.re gs.im, -gs.im / hypot gs.re gs.im⟩
    Complex.normSq s = 1 ∧ s * g = ((hypot g.re g.im : ℝ) : ℂ) := by
  intro gs s
  have hn : 0 < ‖g‖ := norm_pos_iff.2 hg
  have en : hypot gs.re gs.im = ‖g‖ * q := by
    rw [hypot_eq]; simp [gs, abs_of_pos hq]
  have es : s = ((1 / ‖g‖ : ℝ) : ℂ) * (starRingEnd ℂ) g := by
    simp only [s]
    rw [en]
    apply Complex.ext <;> simp [gs] <;> field_simp
  have hsq : ‖g‖ ^ 2 = Complex.normSq g := (Complex.normSq_eq_norm_sq g).symm
  refine ⟨?_, ?_⟩
  · rw [es]
    simp only [Complex.normSq_mul, Complex.normSq_ofReal, Complex.normSq_conj]
    rw [← hsq]; field_simp
  · rw [es, mul_assoc, mul_comm ((starRingEnd ℂ) g) g, Complex.mul_conj, hypot_eq, ← hsq]
    push_cast
    field_simp

/-- The rare case with `f ≠ 0`: unitary up to `|f|²/|g|²`. -/
theorem rare_case {f g : ℂ} {q : ℝ} (hq : 0 < q) (hf : f ≠ 0) (hg : g ≠ 0) {ff : ℂ}
    (hff : ff = ((1 / ‖f‖ : ℝ) : ℂ) * f) :
    let fs := f * (q : ℂ)
    let gs := g * (q : ℂ)
    let g2s := Real.sqrt (abssq gs)
    let c : ℝ := hypot fs.re fs.im / g2s
    let s : ℂ := ff * (⟨gs.re / g2s, -gs.im / g2s⟩ : ℂ)
    c ^ 2 + Complex.normSq s = 1 + abssq fs / abssq gs ∧
      -(starRingEnd ℂ) s * f + (c : ℂ) * g = 0 := by
  intro fs gs g2s c s
  have hn : 0 < ‖g‖ := norm_pos_iff.2 hg
  have hm : 0 < ‖f‖ := norm_pos_iff.2 hf
  have e1 : hypot fs.re fs.im = ‖f‖ * q := by rw [hypot_eq]; simp [fs, abs_of_pos hq]
  have e2 : g2s = ‖g‖ * q := by
    simp only [g2s]
    rw [show abssq gs = (‖g‖ * q) ^ 2 by
      rw [abssq_eq, Complex.normSq_eq_norm_sq]; simp [gs, abs_of_pos hq]]
    exact Real.sqrt_sq (by positivity)
  have es : s = ((1 / (‖f‖ * ‖g‖) : ℝ) : ℂ) * f * (starRingEnd ℂ) g := by
    simp only [s]
    rw [hff, e2]
    apply Complex.ext
    · simp [gs]; field_simp; ring
    · simp [gs]; field_simp
  have hsq : ‖g‖ ^ 2 = Complex.normSq g := (Complex.normSq_eq_norm_sq g).symm
  have hsf : ‖f‖ ^ 2 = Complex.normSq f := (Complex.normSq_eq_norm_sq f).symm
  have ec : c = ‖f‖ / ‖g‖ := by
    simp only [c]; rw [e1, e2]; field_simp
  refine ⟨?_, ?_⟩
  · have a1 : abssq fs = ‖f‖ ^ 2 * q ^ 2 := by
      rw [abssq_eq, Complex.normSq_eq_norm_sq]; simp [fs, abs_of_pos hq]; ring
    have a2 : abssq gs = ‖g‖ ^ 2 * q ^ 2 := by
      rw [abssq_eq, Complex.normSq_eq_norm_sq]; simp [gs, abs_of_pos hq]; ring
    rw [es, ec, a1, a2]
    simp only [Complex.normSq_mul, Complex.normSq_ofReal, Complex.normSq_conj]
    rw [← hsq, ← hsf]; field_simp; ring
  · rw [es, ec]
    simp only [map_mul, Complex.conj_conj, Complex.conj_ofReal]
    have eff : (starRingEnd ℂ) f * f = ((‖f‖ ^ 2 : ℝ) : ℂ) := by
      rw [mul_comm, Complex.mul_conj, hsf]
    have : -(((1 / (‖f‖ * ‖g‖) : ℝ) : ℂ) * (starRingEnd ℂ) f * g) * f + ((‖f‖ / ‖g‖ : ℝ) : ℂ) * g =
        g * ((‖f‖ / ‖g‖ - 1 / (‖f‖ * ‖g‖) * ‖f‖ ^ 2 : ℝ) : ℂ) := by
      rw [show -(((1 / (‖f‖ * ‖g‖) : ℝ) : ℂ) * (starRingEnd ℂ) f * g) * f =
        -(((1 / (‖f‖ * ‖g‖) : ℝ) : ℂ) * ((starRingEnd ℂ) f * f) * g) by ring, eff]
      push_cast; ring
    rw [this]
    have e0 : (‖f‖ / ‖g‖ - 1 / (‖f‖ * ‖g‖) * ‖f‖ ^ 2 : ℝ) = 0 := by field_simp; ring
    rw [e0]; simp

/-- Both ways of computing `f / |f|` give it. -/
theorem unit_phase {f : ℂ} {mx : ℝ} (hmx : 0 < mx) (hf : f ≠ 0) :
    (⟨f.re / hypot f.re f.im, f.im / hypot f.re f.im⟩ : ℂ) = ((1 / ‖f‖ : ℝ) : ℂ) * f ∧
    (⟨mx * f.re / hypot (mx * f.re) (mx * f.im), mx * f.im / hypot (mx * f.re) (mx * f.im)⟩ : ℂ) =
      ((1 / ‖f‖ : ℝ) : ℂ) * f := by
  have hm : 0 < ‖f‖ := norm_pos_iff.2 hf
  refine ⟨?_, ?_⟩
  · rw [hypot_eq]
    apply Complex.ext <;> simp <;> field_simp
  · have : hypot (mx * f.re) (mx * f.im) = mx * ‖f‖ := by
      have := hypot_eq ((mx : ℂ) * f)
      simp [abs_of_pos hmx] at this
      exact this
    rw [this]
    apply Complex.ext <;> simp <;> field_simp

theorem iterate_mul (k r : ℂ) (n : Nat) : (fun z : ℂ => z * k)^[n] r = r * k ^ n := by
  induction n generalizing r with
  | zero => simp
  | succ n ih => rw [Function.iterate_succ_apply, ih, pow_succ]; ring

/-- By how much the usual case multiplies `r` at its end. -/
noncomputable def backFactor (safmn2 : ℝ) (up down : Nat) : ℝ :=
  if 0 < up then (1 / safmn2) ^ up else if 0 < down then safmn2 ^ downIterations down else 1

theorem tail_spec {safmin safmn2 : ℝ} (h0 : 0 < safmn2) (h1 : safmn2 < 1) (hs0 : 0 < safmin)
    (hs : safmin ≤ safmn2 ^ 2) {f g : ℂ} {q : ℝ} (hq : 0 < q)
    (hM : safmn2 < max (abs1 f) (abs1 g) * q) (up down : Nat) {c : ℝ} {s r : ℂ}
    (e : givensComplexTail safmin safmn2 (1 / safmn2) f g (f * (q : ℂ)) (g * (q : ℂ)) up down =
      (c, s, r)) :
    1 ≤ c ^ 2 + Complex.normSq s ∧ c ^ 2 + Complex.normSq s ≤ 1 + safmin / safmn2 ^ 2 ∧
    -(starRingEnd ℂ) s * f + (c : ℂ) * g = 0 ∧
    (q * backFactor safmn2 up down = 1 → (c : ℂ) * f + s * g = r) ∧
    (safmin * max (‖g‖ ^ 2) ((max (abs1 f) (abs1 g) / safmn2) ^ 2) < ‖f‖ ^ 2 →
      c ^ 2 + Complex.normSq s = 1 ∧ f ≠ 0 ∧
        r = ((c : ℂ) * f + s * g) * ((q * backFactor safmn2 up down : ℝ) : ℂ)) ∧
    (‖f‖ ^ 2 * q ^ 2 ≤ max (‖g‖ ^ 2 * q ^ 2) 1 * safmin → f ≠ 0 →
      c ^ 2 + Complex.normSq s = 1 + ‖f‖ ^ 2 / ‖g‖ ^ 2 ∧ g ≠ 0) := by
  have hδ : 0 ≤ safmin / safmn2 ^ 2 := by positivity
  have a1 : abssq (f * (q : ℂ)) = ‖f‖ ^ 2 * q ^ 2 := by
    rw [abssq_eq, Complex.normSq_eq_norm_sq]; simp [abs_of_pos hq]; ring
  have a2 : abssq (g * (q : ℂ)) = ‖g‖ ^ 2 * q ^ 2 := by
    rw [abssq_eq, Complex.normSq_eq_norm_sq]; simp [abs_of_pos hq]; ring
  unfold givensComplexTail at e
  simp only at e
  by_cases hrare : abssq (f * (q : ℂ)) ≤ max (abssq (g * (q : ℂ))) 1 * safmin
  · -- `g` is not zero, and `f` is small
    have hnot : ¬ safmin * max (‖g‖ ^ 2) ((max (abs1 f) (abs1 g) / safmn2) ^ 2) < ‖f‖ ^ 2 := by
      intro hlt
      have b1 : (1 : ℝ) ≤ (max (abs1 f) (abs1 g) / safmn2) ^ 2 * q ^ 2 := by
        rw [← mul_pow]
        apply one_le_pow₀
        rw [div_mul_eq_mul_div, le_div_iff₀ h0, one_mul]
        exact hM.le
      have b2 : max (abssq (g * (q : ℂ))) 1 ≤
          max (‖g‖ ^ 2) ((max (abs1 f) (abs1 g) / safmn2) ^ 2) * q ^ 2 := by
        rw [max_mul_of_nonneg _ _ (by positivity), a2]
        exact max_le_max le_rfl b1
      have b3 : ‖f‖ ^ 2 * q ^ 2 ≤
          max (‖g‖ ^ 2) ((max (abs1 f) (abs1 g) / safmn2) ^ 2) * q ^ 2 * safmin := by
        rw [← a1]; exact hrare.trans (by gcongr)
      have b4 : safmin * max (‖g‖ ^ 2) ((max (abs1 f) (abs1 g) / safmn2) ^ 2) * q ^ 2 <
          ‖f‖ ^ 2 * q ^ 2 := by gcongr
      nlinarith
    rw [if_pos hrare] at e
    have hbig : 1 ≤ abssq (g * (q : ℂ)) ∨ safmn2 ^ 2 < abssq (g * (q : ℂ)) := by
      by_cases hg1 : 1 ≤ abssq (g * (q : ℂ))
      · exact Or.inl hg1
      · right
        rw [max_eq_right (not_le.1 hg1).le, one_mul] at hrare
        have hfs : abs1 (f * (q : ℂ)) ≤ safmn2 := by
          refine abs_le_of_sq_le_sq' ?_ h0.le |>.2
          exact ((abs1_sq_le _).trans hrare).trans hs
        rw [abs1_smul hq] at hfs
        have hgs : safmn2 < abs1 (g * (q : ℂ)) := by
          rw [abs1_smul hq]
          rcases le_total (abs1 f) (abs1 g) with h | h
          · rwa [max_eq_right h] at hM
          · rw [max_eq_left h] at hM; linarith
        exact lt_of_lt_of_le (by gcongr) (abs1_sq_le _)
    have hg2 : 0 < abssq (g * (q : ℂ)) := by
      rcases hbig with h | h
      · linarith
      · exact lt_trans (by positivity) h
    have hg : g ≠ 0 := by
      rintro rfl
      rw [a2] at hg2; simp at hg2
    have hratio : abssq (f * (q : ℂ)) / abssq (g * (q : ℂ)) ≤ safmin / safmn2 ^ 2 := by
      rw [div_le_div_iff₀ hg2 (by positivity)]
      have hsq1 : safmn2 ^ 2 ≤ 1 := pow_le_one₀ h0.le h1.le
      have hmx : max (abssq (g * (q : ℂ))) 1 * safmn2 ^ 2 ≤ abssq (g * (q : ℂ)) := by
        rcases hbig with h | h
        · rw [max_eq_left h]; nlinarith
        · rw [max_mul_of_nonneg _ _ (by positivity)]
          exact max_le (by nlinarith) (by linarith)
      calc abssq (f * (q : ℂ)) * safmn2 ^ 2
          ≤ max (abssq (g * (q : ℂ))) 1 * safmin * safmn2 ^ 2 := by gcongr
        _ = safmin * (max (abssq (g * (q : ℂ))) 1 * safmn2 ^ 2) := by ring
        _ ≤ safmin * abssq (g * (q : ℂ)) := by gcongr
    have hf2 : 0 ≤ abssq (f * (q : ℂ)) := by rw [a1]; positivity
    by_cases hf : f = 0
    · rw [if_pos hf] at e
      obtain ⟨z1, z2⟩ := zero_case hq hg
      simp only [Prod.mk.injEq] at e
      obtain ⟨rfl, rfl, rfl⟩ := e
      rw [z1]
      refine ⟨by norm_num, by linarith, by simp [hf], fun _ => ?_, fun h => absurd h hnot,
        fun _ h => absurd hf h⟩
      rw [z2]; simp
    · rw [if_neg hf] at e
      obtain ⟨u1, u2⟩ := unit_phase (f := f) (mx := 1 / safmn2) (by positivity) hf
      simp only [Prod.mk.injEq] at e
      obtain ⟨ec, es, er⟩ := e
      obtain ⟨r1, r2⟩ := rare_case hq hf hg (ff := if abs1 f > 1 then
          (⟨f.re / hypot f.re f.im, f.im / hypot f.re f.im⟩ : ℂ)
        else ⟨1 / safmn2 * f.re / hypot (1 / safmn2 * f.re) (1 / safmn2 * f.im),
          1 / safmn2 * f.im / hypot (1 / safmn2 * f.re) (1 / safmn2 * f.im)⟩)
        (by split <;> assumption)
      rw [ec, es] at r1 r2 er
      rw [r1]
      refine ⟨by linarith [div_nonneg hf2 hg2.le], by linarith, r2, fun _ => er,
        fun h => absurd h hnot, fun _ _ => ⟨?_, hg⟩⟩
      rw [a1, a2]
      congr 1
      have : ‖g‖ ^ 2 ≠ 0 := by simpa using hg
      field_simp
  · rw [if_neg hrare] at e
    push Not at hrare
    have hf : f ≠ 0 := by
      rintro rfl
      rw [a1] at hrare
      simp only [norm_zero] at hrare
      have : 0 < max (abssq (g * (q : ℂ))) 1 * safmin := by
        have : (0 : ℝ) < max (abssq (g * (q : ℂ))) 1 := lt_of_lt_of_le one_pos (le_max_right _ _)
        positivity
      norm_num at hrare
      linarith
    obtain ⟨c1, c2, c3⟩ := common_case (g := g) hq hf
    simp only [Prod.mk.injEq] at e
    obtain ⟨ec, es, er⟩ := e
    rw [ec, es] at c1 c2 c3
    have main : r = ((c : ℂ) * f + s * g) * ((q * backFactor safmn2 up down : ℝ) : ℂ) := by
      rw [← er, Complex.ofReal_mul, ← mul_assoc, c3]
      unfold backFactor
      rw [iterate_mul, iterate_mul]
      by_cases hup : 0 < up
      · rw [if_pos hup, if_pos hup, Complex.ofReal_pow]
      · rw [if_neg hup, if_neg hup]
        by_cases hdn : 0 < down
        · rw [if_pos hdn, if_pos hdn, Complex.ofReal_pow]
        · rw [if_neg hdn, if_neg hdn, Complex.ofReal_one, mul_one]
    refine ⟨c1.ge, by linarith, c2, fun hb => ?_, fun _ => ⟨c1, hf, main⟩, fun h _ => ?_⟩
    · rw [main, hb, Complex.ofReal_one, mul_one]
    · rw [a1, a2] at hrare
      exact absurd h (not_le.2 hrare)

end StdBLAS

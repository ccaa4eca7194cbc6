import Mathlib.Tactic.Linarith
import Mathlib.Tactic.FieldSimp
import Verif.Lemmas.Accurate
import Verif.Lemmas.RoundingNorms
import Verif.Props.Overflow

/-! # Error analysis of scaled sums of squares in a floating-point format -/

namespace StdBLAS
open Finset

section
variable {u η : ℝ}

theorem quot_sq {x c : ℝ} (hu : 0 ≤ u) (hu' : u ≤ 1 / 8) (hη : 0 ≤ η) (hη' : η ≤ 1 / 8)
    (hx : 0 ≤ x) (hx' : x ≤ 1) (hc : 0 ≤ c) (h : |c - x| ≤ u * x + η) :
    (1 - u) ^ 2 * x ^ 2 - 2 * η ≤ c ^ 2 ∧ c ^ 2 ≤ (1 + u) ^ 2 * x ^ 2 + 3 * η := by
  obtain ⟨h1, h2⟩ := abs_le.1 h
  constructor
  · have hl : (1 - u) * x - η ≤ c := by linarith
    have hy : (1 - u) * x ≤ 1 := by nlinarith
    have hy0 : 0 ≤ (1 - u) * x := mul_nonneg (by linarith) hx
    rw [← mul_pow]
    generalize (1 - u) * x = y at *
    rcases le_total η y with k | k
    · have := pow_le_pow_left₀ (sub_nonneg.2 k) hl 2
      nlinarith
    · nlinarith
  · have hl : c ≤ (1 + u) * x + η := by linarith
    have hy : (1 + u) * x ≤ 9 / 8 := by nlinarith
    have hy0 : 0 ≤ (1 + u) * x := mul_nonneg (by linarith) hx
    rw [← mul_pow]
    generalize (1 + u) * x = y at *
    have := pow_le_pow_left₀ hc hl 2
    nlinarith

/-- `rnd (rnd (q * c) * c)`. -/
theorem quot_prod {q c p t : ℝ} (hu : 0 ≤ u) (hu' : u ≤ 1 / 8) (hη : 0 ≤ η)
    (hc : 0 ≤ c) (hc' : c ≤ 1)
    (h1 : |p - q * c| ≤ u * (q * c) + η) (h2 : |t - p * c| ≤ u * (p * c) + η) :
    (1 - u) ^ 2 * (q * c ^ 2) - 2 * η ≤ t ∧ t ≤ (1 + u) ^ 2 * (q * c ^ 2) + 3 * η := by
  obtain ⟨a1, b1⟩ := abs_le.1 h1
  obtain ⟨a2, b2⟩ := abs_le.1 h2
  have hηc : η * c ≤ η := by nlinarith
  have hηc0 : 0 ≤ η * c := mul_nonneg hη hc
  constructor
  · have k1 : (1 - u) * (q * c) - η ≤ p := by linarith
    have k2 := mul_le_mul_of_nonneg_right k1 hc
    have k3 : (1 - u) * (p * c) - η ≤ t := by linarith
    have k4 := mul_le_mul_of_nonneg_left k2 (show 0 ≤ 1 - u by linarith)
    have e : (1 - u) * (((1 - u) * (q * c) - η) * c) =
      (1 - u) ^ 2 * (q * c ^ 2) - (1 - u) * (η * c) := by ring
    rw [e] at k4
    nlinarith
  · have k1 : p ≤ (1 + u) * (q * c) + η := by linarith
    have k2 := mul_le_mul_of_nonneg_right k1 hc
    have k3 : t ≤ (1 + u) * (p * c) + η := by linarith
    have k4 := mul_le_mul_of_nonneg_left k2 (show 0 ≤ 1 + u by linarith)
    have e : (1 + u) * (((1 + u) * (q * c) + η) * c) =
      (1 + u) ^ 2 * (q * c ^ 2) + (1 + u) * (η * c) := by ring
    rw [e] at k4
    nlinarith

theorem sq_le (hu : 0 ≤ u) (hu' : u ≤ 1 / 8) : (1 + u) ^ 2 ≤ 4 / 3 ∧ (1 - u) ^ 2 ≤ 1 := by
  constructor <;> nlinarith

/-- A new largest element. -/
theorem step_new {N q x c p t : ℝ} (hu : 0 ≤ u) (hu' : u ≤ 1 / 8) (hη : 0 ≤ η)
    (hN : 16 * N * η ≤ u) (hq : 1 ≤ q) (hqN : q ≤ N) (hx : 0 ≤ x) (hx' : x ≤ 1) (hc : 0 ≤ c)
    (hc' : c ≤ 1) (h : |c - x| ≤ u * x + η)
    (h1 : |p - q * c| ≤ u * (q * c) + η) (h2 : |t - p * c| ≤ u * (p * c) + η) :
    Within u 5 (1 + t) (1 + q * x ^ 2) := by
  have hηN : η ≤ N * η := by nlinarith
  have hqη : q * η ≤ N * η := mul_le_mul_of_nonneg_right hqN hη
  have hη' : η ≤ 1 / 8 := by linarith
  obtain ⟨c1, c2⟩ := quot_sq hu hu' hη hη' hx hx' hc h
  obtain ⟨t1, t2⟩ := quot_prod hu hu' hη hc hc' h1 h2
  obtain ⟨s1, s2⟩ := sq_le hu hu'
  have hX : 0 ≤ q * x ^ 2 := by positivity
  refine ⟨by linarith, ?_, ?_⟩
  · have k := mul_le_mul_of_nonneg_left (mul_le_mul_of_nonneg_left c1 (show 0 ≤ q by linarith))
      (sq_nonneg (1 - u))
    have e : (1 - u) ^ 2 * (q * ((1 - u) ^ 2 * x ^ 2 - 2 * η)) =
      (1 - u) ^ 4 * (q * x ^ 2) - (1 - u) ^ 2 * (2 * (q * η)) := by ring
    rw [e] at k
    have l1 : (1 - u) ^ 2 * (2 * (q * η)) ≤ 1 * (2 * (q * η)) :=
      mul_le_mul_of_nonneg_right s2 (by positivity)
    have l2 : (1 - u) ^ 5 ≤ (1 - u) ^ 4 := pow_le_pow_of_le_one (by linarith) (by linarith) (by omega)
    have l3 : (1 - u) ^ 5 ≤ (1 - u) ^ 1 := pow_le_pow_of_le_one (by linarith) (by linarith) (by omega)
    have l4 := mul_le_mul_of_nonneg_right l2 hX
    linarith
  · have k := mul_le_mul_of_nonneg_left (mul_le_mul_of_nonneg_left c2 (show 0 ≤ q by linarith))
      (sq_nonneg (1 + u))
    have e : (1 + u) ^ 2 * (q * ((1 + u) ^ 2 * x ^ 2 + 3 * η)) =
      (1 + u) ^ 4 * (q * x ^ 2) + (1 + u) ^ 2 * (3 * (q * η)) := by ring
    rw [e] at k
    have l1 : (1 + u) ^ 2 * (3 * (q * η)) ≤ 4 / 3 * (3 * (q * η)) :=
      mul_le_mul_of_nonneg_right s1 (by positivity)
    have l2 : (1 + u) ^ 4 ≤ (1 + u) ^ 5 := pow_le_pow_right₀ (by linarith) (by omega)
    have l3 : (1 + u) ^ 1 ≤ (1 + u) ^ 5 := pow_le_pow_right₀ (by linarith) (by omega)
    have l4 := mul_le_mul_of_nonneg_right l2 hX
    linarith

/-- Not a new largest element. -/
theorem step_old {q x c t : ℝ} (hu : 0 ≤ u) (hu' : u ≤ 1 / 8) (hη : 0 ≤ η)
    (hN : 16 * η ≤ u) (hq : 1 ≤ q) (hx : 0 ≤ x) (hx' : x ≤ 1) (hc : 0 ≤ c)
    (h : |c - x| ≤ u * x + η) (h1 : |t - c * c| ≤ u * (c * c) + η) :
    Within u 3 (q + t) (q + x ^ 2) := by
  have hη' : η ≤ 1 / 8 := by linarith
  obtain ⟨c1, c2⟩ := quot_sq hu hu' hη hη' hx hx' hc h
  obtain ⟨t1, t2⟩ := abs_le.1 h1
  have hX : 0 ≤ x ^ 2 := by positivity
  have huq : u ≤ u * q := by nlinarith
  refine ⟨by linarith, ?_, ?_⟩
  · have k := mul_le_mul_of_nonneg_left c1 (show 0 ≤ 1 - u by linarith)
    have e : (1 - u) * ((1 - u) ^ 2 * x ^ 2 - 2 * η) =
      (1 - u) ^ 3 * x ^ 2 - (1 - u) * (2 * η) := by ring
    rw [e] at k
    have l3 : (1 - u) ^ 3 ≤ (1 - u) ^ 1 := pow_le_pow_of_le_one (by linarith) (by linarith) (by omega)
    have l4 := mul_le_mul_of_nonneg_right l3 (show 0 ≤ q by linarith)
    nlinarith
  · have k := mul_le_mul_of_nonneg_left c2 (show 0 ≤ 1 + u by linarith)
    have e : (1 + u) * ((1 + u) ^ 2 * x ^ 2 + 3 * η) =
      (1 + u) ^ 3 * x ^ 2 + (1 + u) * (3 * η) := by ring
    rw [e] at k
    have l3 : (1 + u) ^ 1 ≤ (1 + u) ^ 3 := pow_le_pow_right₀ (by linarith) (by omega)
    have l4 := mul_le_mul_of_nonneg_right l3 (show 0 ≤ q by linarith)
    nlinarith

theorem Within.round' {m : ℕ} {v e r : ℝ} (h0 : 0 ≤ u) (h1 : u ≤ 1) (w : Within u m v e)
    (h : |r - v| ≤ u * |v|) : Within u (m + 1) r e := by
  have hv := w.nonneg h1
  rw [abs_of_nonneg hv] at h
  obtain ⟨a, b⟩ := abs_le.1 h
  refine ⟨w.1, ?_, ?_⟩
  · have := mul_le_mul_of_nonneg_left w.2.1 (show 0 ≤ 1 - u by linarith)
    rw [pow_succ]
    linarith
  · have := mul_le_mul_of_nonneg_left w.2.2 (show 0 ≤ 1 + u by linarith)
    rw [pow_succ]
    linarith

theorem Within.scale {m : ℕ} {v e : ℝ} {s : ℝ} (hs : 0 ≤ s) (w : Within u m v e) :
    Within u m (s * v) (s * e) := by
  refine ⟨mul_nonneg hs w.1, ?_, ?_⟩
  · have := mul_le_mul_of_nonneg_left w.2.1 hs
    linarith
  · have := mul_le_mul_of_nonneg_left w.2.2 hs
    linarith

end

namespace FP
variable {f : Format} {u η : ℝ}

theorem add_val {a b : FP f} (h : (a + b).Finite) : (a + b).val = f.rnd (a.val + b.val) := by
  obtain ⟨ha, hb⟩ := finite_add h
  have e : a + b = ofReal f (a.val + b.val) := by
    conv_lhs => rw [ha.eq, hb.eq]
    rfl
  rw [e] at h ⊢
  exact ofReal_val h

theorem mul_val {a b : FP f} (h : (a * b).Finite) : (a * b).val = f.rnd (a.val * b.val) := by
  obtain ⟨ha, hb⟩ := finite_mul h
  have e : a * b = ofReal f (a.val * b.val) := by
    conv_lhs => rw [ha.eq, hb.eq]
    rfl
  rw [e] at h ⊢
  exact ofReal_val h

theorem div_rnd {a b : ℝ} (ha : 0 ≤ a) (hb : 0 < b) (h : a ≤ b) :
    (fin a / fin b : FP f) = fin (f.rnd (a / b)) ∧ 0 ≤ f.rnd (a / b) ∧ f.rnd (a / b) ≤ 1 := by
  have h0 : 0 ≤ a / b := div_nonneg ha hb.le
  have h1 : f.rnd (a / b) ≤ 1 := rnd_le_one ((div_le_one hb).2 h)
  refine ⟨?_, rnd_nonneg h0, h1⟩
  rw [div_fin a hb.ne', ofReal_nonneg h0 (h1.trans f.one_le_big)]

/-- One step: six more roundings, whatever is lost in underflow. -/
theorem ssqStepOf_acc (E : f.Errors u η) (hu' : u ≤ 1 / 8) {N k m : ℕ}
    (hN : ∀ j : ℕ, j ≤ N → f.rnd j = j) (hbig : (N : ℝ) ≤ f.big) (hNη : 16 * N * η ≤ u)
    (hk : k < N) {M q q0 a S : ℝ} (hM : 0 ≤ M) (ha : 0 ≤ a) (hqr : f.rnd q = q)
    (h0 : M = 0 → q = q0) (h1 : 0 < M → 1 ≤ q ∧ q ≤ k) (w : Within u m (M ^ 2 * q) S) :
    ∃ q', ssqStepOf (⟨fin M, fin q⟩ : SumOfSquaresOf (FP f)) (fin a) = ⟨fin (max M a), fin q'⟩ ∧
      (max M a = 0 → q' = q0) ∧ (0 < max M a → 1 ≤ q' ∧ q' ≤ (k + 1 : ℕ)) ∧ f.rnd q' = q' ∧
      Within u (m + 6) (max M a ^ 2 * q') (S + a ^ 2) := by
  have hu := E.u_nonneg
  have hη := E.eta_nonneg
  have hu1 : u ≤ 1 := by linarith
  have hN1 : (1 : ℝ) ≤ N := by exact_mod_cast (show 1 ≤ N by omega)
  have hkN : (k : ℝ) ≤ N := by exact_mod_cast hk.le
  have hη1 : 16 * η ≤ u := by nlinarith
  obtain ⟨q', e, e0, e1⟩ := ssqStepOf_fin hN hbig hk hM ha h0 h1
  refine ⟨q', e, e0, e1, ?_⟩
  have e' := e
  unfold ssqStepOf at e'
  simp only [ne_def, lt_def, zero_def] at e'
  by_cases hz : a = 0
  · subst hz
    rw [if_neg (by simp [FP.ne]), max_eq_left hM] at e'
    have eq : q' = q := by injection e' with _ e'; injection e' with e'; exact e'.symm
    rw [eq, max_eq_left hM, zero_pow two_ne_zero, add_zero]
    exact ⟨hqr, w.mono hu hu1 (by omega)⟩
  rw [if_pos (by simp [FP.ne, hz])] at e'
  have ha' : 0 < a := lt_of_le_of_ne ha (Ne.symm hz)
  by_cases hlt : M < a
  · rw [if_pos (by simpa [lt] using hlt), max_eq_right hlt.le] at e'
    rw [max_eq_right hlt.le]
    have e2 : 1 + fin q * (fin M / fin a) * (fin M / fin a) = (fin q' : FP f) := by
      injection e'
    obtain ⟨ed, d0, d1⟩ := div_rnd (f := f) hM ha' hlt.le
    have hd := E.err (M / a)
    have hx0 : 0 ≤ M / a := div_nonneg hM ha
    have hx1 : M / a ≤ 1 := (div_le_one ha').2 hlt.le
    rw [ed] at e2
    generalize f.rnd (M / a) = c at *
    have fs : (1 + fin q * fin c * fin c : FP f).Finite := by rw [e2]; trivial
    have v1 := add_val fs
    have ft := (finite_add fs).2
    have v2 := mul_val ft
    have fp := (finite_mul ft).1
    have v3 := mul_val fp
    rw [e2] at v1
    change q' = f.rnd (1 + (fin q * fin c * fin c : FP f).val) at v1
    change _ = f.rnd ((fin q * fin c : FP f).val * c) at v2
    change _ = f.rnd (q * c) at v3
    refine ⟨by rw [v1, f.idem], ?_⟩
    have hp := E.err (q * c)
    have ht := E.err ((fin q * fin c : FP f).val * c)
    have hs := E.err_add 1 (fin q * fin c * fin c : FP f).val f.one (by rw [v2, f.idem])
    rw [← v1] at hs
    rw [← v2] at ht
    rw [← v3] at hp
    generalize (fin q * fin c * fin c : FP f).val = t at *
    rcases hM.eq_or_lt with hM0 | hM0
    · -- the first element that is not zero
      have hc : c = 0 := by
        have := abs_le.1 hd
        subst hM0
        have e3 : (fin 0 / fin a : FP f) = fin 0 := by
          rw [div_fin 0 ha'.ne', zero_div, ofReal_nonneg le_rfl (by rw [f.zero]; linarith [f.one_le_big]),
            f.zero]
        rw [e3] at ed
        injection ed with ed
        exact ed.symm
      rw [hc, mul_zero, f.zero] at v2
      rw [v2, add_zero, f.one] at v1
      have ew : M ^ 2 * q = 0 := by rw [← hM0]; ring
      rw [ew] at w
      rw [v1, mul_one]
      have h2 := (w.add ((Within.refl (u := u) (sq_nonneg a)).mono hu hu1 (Nat.zero_le m))).mono hu hu1
        (show m ≤ m + 6 by omega)
      rwa [zero_add] at h2
    · obtain ⟨q1, qk⟩ := h1 hM0
      have hqc : 0 ≤ q * c := mul_nonneg (by linarith) d0
      have hp0 : 0 ≤ (fin q * fin c : FP f).val := by rw [v3]; exact rnd_nonneg hqc
      rw [abs_of_nonneg hqc] at hp
      rw [abs_of_nonneg (mul_nonneg hp0 d0)] at ht
      rw [abs_of_nonneg hx0] at hd
      have W := step_new hu hu' hη hNη q1 (qk.trans hkN) hx0 hx1 d0 d1 hd hp ht
      have W2 := (W.round' hu hu1 hs).scale (sq_nonneg a)
      have k : a ^ 2 * (1 + q * (M / a) ^ 2) = M ^ 2 * q + a ^ 2 := by
        field_simp
        ring
      rw [k] at W2
      have W3 := W2.trans hu hu1
        (w.add ((Within.refl (u := u) (sq_nonneg a)).mono hu hu1 (Nat.zero_le m)))
      exact W3.mono hu hu1 (by omega)
  · rw [if_neg (by simpa [lt] using hlt), max_eq_left (not_lt.1 hlt)] at e'
    rw [max_eq_left (not_lt.1 hlt)]
    have hle := not_lt.1 hlt
    have hM' : 0 < M := lt_of_lt_of_le ha' hle
    obtain ⟨q1, qk⟩ := h1 hM'
    have e2 : fin q + (fin a / fin M) * (fin a / fin M) = (fin q' : FP f) := by
      injection e'
    obtain ⟨ed, d0, d1⟩ := div_rnd (f := f) ha hM' hle
    have hd := E.err (a / M)
    have hx0 : 0 ≤ a / M := div_nonneg ha hM
    have hx1 : a / M ≤ 1 := (div_le_one hM').2 hle
    rw [ed] at e2
    generalize f.rnd (a / M) = c at *
    have fs : (fin q + fin c * fin c : FP f).Finite := by rw [e2]; trivial
    have v1 := add_val fs
    have ft := (finite_add fs).2
    have v2 := mul_val ft
    rw [e2] at v1
    change q' = f.rnd (q + (fin c * fin c : FP f).val) at v1
    change _ = f.rnd (c * c) at v2
    refine ⟨by rw [v1, f.idem], ?_⟩
    have ht := E.err (c * c)
    have hs := E.err_add q (fin c * fin c : FP f).val hqr (by rw [v2, f.idem])
    rw [← v1] at hs
    rw [← v2] at ht
    generalize (fin c * fin c : FP f).val = t at *
    rw [abs_of_nonneg (mul_nonneg d0 d0)] at ht
    rw [abs_of_nonneg hx0] at hd
    have W := step_old hu hu' hη hη1 q1 hx0 hx1 d0 hd ht
    have W2 := (W.round' hu hu1 hs).scale (sq_nonneg M)
    have k : M ^ 2 * (q + (a / M) ^ 2) = M ^ 2 * q + a ^ 2 := by
      field_simp
    rw [k] at W2
    have W3 := W2.trans hu hu1
      (w.add ((Within.refl (u := u) (sq_nonneg a)).mono hu hu1 (Nat.zero_le m)))
    exact W3.mono hu hu1 (by omega)

theorem ssq_acc (E : f.Errors u η) (hu' : u ≤ 1 / 8) {m n : ℕ}
    (hN : ∀ j : ℕ, j ≤ m + n → f.rnd j = j)
    (hbig : ((m + n : ℕ) : ℝ) ≤ f.big) (hη : 16 * (m + n : ℕ) * η ≤ u) {s0 q0 : ℝ} (hs : 0 ≤ s0)
    (hq : 0 < s0 → 1 ≤ q0 ∧ q0 ≤ m) (hqr : f.rnd q0 = q0) (v : Nat → ℝ) :
    ∃ M q, foldUp n (fun s k => ssqStepOf s (MagOps.abs (fin (v k) : FP f)))
        (⟨fin s0, fin q0⟩ : SumOfSquaresOf (FP f)) = ⟨fin M, fin q⟩ ∧ 0 ≤ M ∧
      (M = 0 → q = q0) ∧ (0 < M → 1 ≤ q ∧ q ≤ (m + n : ℕ)) ∧
      Within u (6 * n) (M ^ 2 * q) (s0 ^ 2 * q0 + ∑ i ∈ range n, v i ^ 2) := by
  have h := foldUp_inv (n := n) (step := fun s k => ssqStepOf s (MagOps.abs (fin (v k) : FP f)))
    (s := (⟨fin s0, fin q0⟩ : SumOfSquaresOf (FP f)))
    (fun k s => ∃ M q, s = ⟨fin M, fin q⟩ ∧ 0 ≤ M ∧ f.rnd q = q ∧ (M = 0 → q = q0) ∧
      (0 < M → 1 ≤ q ∧ q ≤ (m + k : ℕ)) ∧
      Within u (6 * k) (M ^ 2 * q) (s0 ^ 2 * q0 + ∑ i ∈ range k, v i ^ 2)) ?_ ?_
  · obtain ⟨M, q, e, a, -, b⟩ := h
    exact ⟨M, q, e, a, b⟩
  · refine ⟨s0, q0, rfl, hs, hqr, fun _ => rfl, hq, ?_⟩
    rw [sum_range_zero, add_zero]
    refine Within.refl ?_
    rcases hs.eq_or_lt with e | e
    · rw [← e]; simp
    · have := (hq e).1
      positivity
  · rintro k _ hk ⟨M, q, rfl, hM0, hqr', h0, h1, w⟩
    obtain ⟨q', e, h0', h1', r', w'⟩ := ssqStepOf_acc E hu' hN hbig hη (show m + k < m + n by omega) hM0
      (abs_nonneg (v k)) hqr' h0 h1 w
    refine ⟨max M |v k|, q', e, hM0.trans (le_max_left _ _), r', h0', h1', ?_⟩
    rw [sum_range_succ, ← add_assoc, ← sq_abs (v k)]
    exact w'

/-- A state that is not finite stays so, and a number that is not finite makes it so. -/
theorem ssqStepOf_finite {s : SumOfSquaresOf (FP f)} {a : FP f}
    (h : (ssqStepOf s (abs a)).scalingFactor.Finite ∧ (ssqStepOf s (abs a)).scaledSumOfSquares.Finite) :
    (s.scalingFactor.Finite ∧ s.scaledSumOfSquares.Finite) ∧ a.Finite := by
  obtain ⟨M, q⟩ := s
  unfold ssqStepOf at h
  simp only [ne_def, lt_def, zero_def] at h
  by_cases hz : ne (abs a) (fin 0) = true
  · rw [if_pos hz] at h
    by_cases hlt : lt M (abs a) = true
    · rw [if_pos hlt] at h
      simp only [] at h
      obtain ⟨h1, h2⟩ := h
      have ht := (finite_add h2).2
      have hp := (finite_mul ht).1
      have hq := (finite_mul hp).1
      have hd := (finite_mul hp).2
      have ha := finite_abs.1 h1
      rw [h1.eq] at hd
      exact ⟨⟨(finite_div hd).1, hq⟩, ha⟩
    · rw [if_neg hlt] at h
      simp only [] at h
      obtain ⟨h1, h2⟩ := h
      have hq := (finite_add h2).1
      have hd := (finite_mul (finite_add h2).2).1
      rw [h1.eq] at hd
      exact ⟨⟨h1, hq⟩, finite_abs.1 (finite_div hd).1⟩
  · rw [if_neg hz] at h
    refine ⟨h, ?_⟩
    cases a with
    | fin x => trivial
    | inf s => exact absurd rfl hz
    | nan => exact absurd rfl hz

theorem ssq_finite {n : ℕ} {x : ℕ → FP f} {s : SumOfSquaresOf (FP f)}
    (h : (foldUp n (fun s k => ssqStepOf s (MagOps.abs (x k) : FP f)) s).scalingFactor.Finite ∧
      (foldUp n (fun s k => ssqStepOf s (MagOps.abs (x k) : FP f)) s).scaledSumOfSquares.Finite) :
    (s.scalingFactor.Finite ∧ s.scaledSumOfSquares.Finite) ∧ ∀ k, k < n → (x k).Finite := by
  have := foldUp_inv (n := n) (step := fun s k => ssqStepOf s (MagOps.abs (x k) : FP f)) (s := s)
    (fun k r => r.scalingFactor.Finite ∧ r.scaledSumOfSquares.Finite →
      (s.scalingFactor.Finite ∧ s.scaledSumOfSquares.Finite) ∧ ∀ i, i < k → (x i).Finite)
    (fun h => ⟨h, fun i hi => absurd hi (by omega)⟩) fun k r _ ih hr => ?_
  · exact this h
  · obtain ⟨h1, h2⟩ := ssqStepOf_finite hr
    refine ⟨(ih h1).1, fun i hi => ?_⟩
    by_cases q : i = k
    · rw [q]; exact h2
    · exact (ih h1).2 i (by omega)

theorem finite_sqrt {a : FP f} (h : (sqrt a).Finite) : a.Finite := by
  cases a with
  | fin x => trivial
  | inf s => cases s <;> exact h.elim
  | nan => exact h.elim

theorem sqrt_rnd {n : ℕ} (E : f.Errors u η) (hu' : u ≤ 1 / 8) (hη : 16 * η ≤ u)
    (hN : ∀ j : ℕ, j ≤ n → f.rnd j = j) (hbig : (n : ℝ) ≤ f.big) {q : ℝ} (h1 : 1 ≤ q) (hq : q ≤ n) :
    ∃ s, sqrt (fin q : FP f) = fin s ∧ Within u 2 s (Real.sqrt q) := by
  have hu := E.u_nonneg
  have s1 : 1 ≤ Real.sqrt q := Real.one_le_sqrt.2 h1
  have s3 : Real.sqrt q ≤ n := Real.sqrt_le_iff.2 ⟨by linarith, by nlinarith⟩
  refine ⟨f.rnd (Real.sqrt q), ?_, ?_⟩
  · simp only [sqrt]
    rw [if_neg (by linarith), ofReal_nonneg (by linarith)
      (((f.mono s3).trans (hN _ le_rfl).le).trans hbig)]
  · have := E.err (Real.sqrt q)
    rw [abs_of_nonneg (by linarith : 0 ≤ Real.sqrt q)] at this
    obtain ⟨a, b⟩ := abs_le.1 this
    refine ⟨by linarith, ?_, ?_⟩ <;> nlinarith

/-- The norm before `init` is added. -/
theorem norm_acc (E : f.Errors u η) (hu' : u ≤ 1 / 8) {n : ℕ} (hN : ∀ j : ℕ, j ≤ n → f.rnd j = j)
    (hbig : (n : ℝ) ≤ f.big) (hη : 16 * n * η ≤ u) (x : ℕ → FP f) :
    Acc u (3 * n + 3) η (∀ k, k < n → (x k).Finite)
      ((foldUp n (fun s k => ssqStepOf s (MagOps.abs (x k))) ⟨0, 1⟩).scalingFactor *
        FloatOps.sqrt (foldUp n (fun s k => ssqStepOf s (MagOps.abs (x k)))
          (⟨0, 1⟩ : SumOfSquaresOf (FP f))).scaledSumOfSquares)
      (Real.sqrt (∑ i ∈ range n, (x i).val ^ 2)) (Real.sqrt (∑ i ∈ range n, (x i).val ^ 2)) := by
  have hu := E.u_nonneg
  have hu1 : u ≤ 1 := by linarith
  have h0 := E.eta_nonneg
  set W := Real.sqrt (∑ i ∈ range n, (x i).val ^ 2) with hW
  have hW0 : 0 ≤ W := Real.sqrt_nonneg _
  set A := (1 + u) ^ (3 * n + 2) with hA
  have hA1 : 1 ≤ A := one_le_pow₀ (by linarith)
  have key : (∀ k, k < n → (x k).Finite) → ∃ p,
      (foldUp n (fun s k => ssqStepOf s (MagOps.abs (x k))) ⟨0, 1⟩).scalingFactor *
        FloatOps.sqrt (foldUp n (fun s k => ssqStepOf s (MagOps.abs (x k)))
          (⟨0, 1⟩ : SumOfSquaresOf (FP f))).scaledSumOfSquares = ofReal f p ∧
      Within u (3 * n + 2) p W := by
    intro hf
    have ee : foldUp n (fun s k => ssqStepOf s (MagOps.abs (x k))) (⟨0, 1⟩ : SumOfSquaresOf (FP f)) =
        foldUp n (fun s k => ssqStepOf s (MagOps.abs (fin (x k).val : FP f))) ⟨fin 0, fin 1⟩ := by
      refine foldUp_congr fun k s hk => ?_
      rw [← (hf k hk).eq]
    obtain ⟨M, q, e, hM, q0, q1, w⟩ := ssq_acc (f := f) (m := 0) (n := n) (s0 := 0) (q0 := 1) E hu'
      (by simpa using hN) (by simpa using hbig) (by simpa using hη) le_rfl
      (fun h => absurd h (lt_irrefl _)) f.one fun k => (x k).val
    rw [ee, e]
    simp only [sqrt_def]
    rw [zero_pow two_ne_zero, zero_mul, zero_add] at w
    have ws := w.sqrt hu hu1 (n := 3 * n) (by omega)
    have hq0 : 0 ≤ q := by
      rcases hM.eq_or_lt with h | h
      · rw [q0 h.symm]; exact zero_le_one
      · linarith [(q1 h).1]
    rw [Real.sqrt_mul (sq_nonneg M), Real.sqrt_sq hM, ← hW] at ws
    rcases hM.eq_or_lt with hz | hpos
    · subst hz
      rw [q0 rfl]
      refine ⟨0, ?_, ?_⟩
      · simp only [sqrt]
        rw [if_neg (by norm_num), Real.sqrt_one, ofReal_nonneg zero_le_one (by rw [f.one]; exact f.one_le_big),
          f.one, mul_fin, zero_mul]
      · rw [zero_mul] at ws
        exact ws.mono hu hu1 (by omega)
    · obtain ⟨a1, a2⟩ := q1 hpos
      have hn : (1 : ℝ) ≤ n := by simpa using a1.trans a2
      obtain ⟨s, es, wsq⟩ := sqrt_rnd (n := n) E hu' (by nlinarith) hN hbig a1 (by simpa using a2)
      rw [es, mul_fin]
      refine ⟨M * s, rfl, ?_⟩
      rw [Nat.add_comm]
      exact (wsq.scale hM).trans hu hu1 ws
  have bound : ∀ p, Within u (3 * n + 2) p W → |p - W| ≤ (A - 1) * W ∧ 0 ≤ p ∧ p ≤ A * W :=
    fun p w => ⟨w.error hu hu1, w.nonneg hu1, w.2.2⟩
  refine ⟨⟨fun h => ?_, fun hI hb => ?_⟩, mul_valid _ _, by rw [abs_of_nonneg hW0], h0⟩
  · have h1 := finite_mul h
    have hI := (ssq_finite ⟨h1.1, finite_sqrt h1.2⟩).2
    refine ⟨hI, ?_⟩
    obtain ⟨p, e, w⟩ := key hI
    rw [e] at h ⊢
    rw [ofReal_val h]
    obtain ⟨b1, b2, b3⟩ := bound p w
    have er := E.err p
    rw [abs_of_nonneg b2] at er
    rw [pow_succ, ← hA]
    have t : |f.rnd p - W| ≤ |f.rnd p - p| + |p - W| := by
      have := abs_add_le (f.rnd p - p) (p - W)
      rwa [sub_add_sub_cancel] at this
    have : u * p ≤ u * (A * W) := mul_le_mul_of_nonneg_left b3 hu
    have : η ≤ A * (1 + u) * η := by
      have : 1 ≤ A * (1 + u) := by nlinarith
      nlinarith
    nlinarith
  · obtain ⟨p, e, w⟩ := key hI
    rw [e]
    obtain ⟨b1, b2, b3⟩ := bound p w
    refine ofReal_finite ?_
    have er := E.err p
    rw [abs_of_nonneg b2] at er
    rw [abs_of_nonneg (rnd_nonneg b2)]
    obtain ⟨-, er⟩ := abs_le.1 er
    rw [pow_succ, ← hA] at hb
    have : u * p ≤ u * (A * W) := mul_le_mul_of_nonneg_left b3 hu
    have : η ≤ A * (1 + u) * η := by
      have : 1 ≤ A * (1 + u) := by nlinarith
      nlinarith
    nlinarith

end FP
end StdBLAS

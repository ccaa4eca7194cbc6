import Verif.Spec.Modulus
import Verif.Lemmas.AccurateNorms
import Verif.Lemmas.AccurateComplex

/-! # Lemmas about norms of complex vectors and matrices -/

namespace StdBLAS
open Finset

/-! ## Perturbed norms -/

theorem sqrt_triangle (n : Nat) (p q r : Nat → ℝ)
    (hr : ∀ k, 0 ≤ r k) (hpq : ∀ k, k < n → r k ≤ p k + q k) :
    Real.sqrt (∑ k ∈ range n, r k ^ 2) ≤
      Real.sqrt (∑ k ∈ range n, p k ^ 2) + Real.sqrt (∑ k ∈ range n, q k ^ 2) := by
  have hP : 0 ≤ ∑ k ∈ range n, p k ^ 2 := Finset.sum_nonneg fun k _ => sq_nonneg _
  have hQ : 0 ≤ ∑ k ∈ range n, q k ^ 2 := Finset.sum_nonneg fun k _ => sq_nonneg _
  rw [Real.sqrt_le_left (add_nonneg (Real.sqrt_nonneg _) (Real.sqrt_nonneg _)), add_sq,
    Real.sq_sqrt hP, Real.sq_sqrt hQ]
  have cs := Real.sum_mul_le_sqrt_mul_sqrt (range n) p q
  have h1 : ∑ k ∈ range n, r k ^ 2 ≤ ∑ k ∈ range n, (p k + q k) ^ 2 :=
    sum_le_sum fun k hk => pow_le_pow_left₀ (hr k) (hpq k (mem_range.1 hk)) 2
  have h2 : ∑ k ∈ range n, (p k + q k) ^ 2 =
      ∑ k ∈ range n, p k ^ 2 + 2 * ∑ k ∈ range n, p k * q k + ∑ k ∈ range n, q k ^ 2 := by
    rw [mul_sum, ← sum_add_distrib, ← sum_add_distrib]
    exact sum_congr rfl fun k _ => by ring
  have h3 : 2 * ∑ k ∈ range n, p k * q k ≤
      2 * Real.sqrt (∑ k ∈ range n, p k ^ 2) * Real.sqrt (∑ k ∈ range n, q k ^ 2) := by
    rw [mul_assoc]
    exact mul_le_mul_of_nonneg_left cs (by norm_num)
  linarith

theorem sqrt_scaled (n : Nat) {c : ℝ} (hc : 0 ≤ c) (v : Nat → ℝ) :
    Real.sqrt (∑ k ∈ range n, (c * v k) ^ 2) = c * Real.sqrt (∑ k ∈ range n, v k ^ 2) := by
  simp only [mul_pow]
  rw [← mul_sum, Real.sqrt_mul (sq_nonneg c), Real.sqrt_sq hc]

theorem sqrt_const (n : Nat) {z : ℝ} (hz : 0 ≤ z) : Real.sqrt (∑ _k ∈ range n, z ^ 2) ≤ n * z := by
  rw [sum_const, card_range, nsmul_eq_mul]
  rw [Real.sqrt_le_left (by positivity), mul_pow]
  refine mul_le_mul_of_nonneg_right ?_ (sq_nonneg z)
  rcases Nat.eq_zero_or_pos n with e | e
  · subst e; simp
  · have : (1 : ℝ) ≤ n := by exact_mod_cast e
    nlinarith

theorem sqrt_near (n : Nat) {c z : ℝ} (hc : 0 ≤ c) (hz : 0 ≤ z) (a b v : Nat → ℝ) (ha : ∀ k, 0 ≤ a k)
    (hv : ∀ k, 0 ≤ v k) (h : ∀ k, k < n → a k ≤ b k + (c * v k + z)) :
    Real.sqrt (∑ k ∈ range n, a k ^ 2) ≤ Real.sqrt (∑ k ∈ range n, b k ^ 2) +
      (c * Real.sqrt (∑ k ∈ range n, v k ^ 2) + n * z) := by
  refine (sqrt_triangle n b (fun k => c * v k + z) a ha h).trans ?_
  refine add_le_add_right ((sqrt_triangle n (fun k => c * v k) (fun _ => z) _
    (fun k => add_nonneg (mul_nonneg hc (hv k)) hz) fun _ _ => le_rfl).trans ?_) _
  rw [sqrt_scaled n hc]
  exact add_le_add_right (sqrt_const n hz) _

/-- Two-norms of two sequences that differ a little. -/
theorem norm_near (n : Nat) {c z : ℝ} (hc : 0 ≤ c) (hz : 0 ≤ z) (g v : Nat → ℝ) (hg : ∀ k, 0 ≤ g k)
    (hv : ∀ k, 0 ≤ v k) (h : ∀ k, k < n → |g k - v k| ≤ c * v k + z) :
    |Real.sqrt (∑ k ∈ range n, g k ^ 2) - Real.sqrt (∑ k ∈ range n, v k ^ 2)| ≤
      c * Real.sqrt (∑ k ∈ range n, v k ^ 2) + n * z := by
  have h1 := sqrt_near n hc hz g v v hg hv fun k hk => by linarith [(abs_le.1 (h k hk)).2]
  have h2 := sqrt_near n hc hz v g v hv hv fun k hk => by linarith [(abs_le.1 (h k hk)).1]
  rw [abs_le]
  constructor <;> linarith

/-- Sums of two sequences that differ a little. -/
theorem sum_near (n : Nat) {c z : ℝ} (g v : Nat → ℝ) (h : ∀ k, k < n → |g k - v k| ≤ c * v k + z) :
    |∑ k ∈ range n, g k - ∑ k ∈ range n, v k| ≤ c * ∑ k ∈ range n, v k + n * z := by
  rw [← sum_sub_distrib]
  refine (abs_sum_le_sum_abs _ _).trans ((sum_le_sum fun k hk => h k (mem_range.1 hk)).trans ?_)
  rw [sum_add_distrib, ← mul_sum, sum_const, card_range, nsmul_eq_mul]

theorem greatest_near {m : Nat} {G V : Nat → ℝ} {N N' c z : ℝ} (hc : 0 ≤ c)
    (hN : IsGreatest {y | ∃ i, i < m ∧ y = V i} N) (hN' : IsGreatest {y | ∃ i, i < m ∧ y = G i} N')
    (h : ∀ i, i < m → |G i - V i| ≤ c * V i + z) : |N' - N| ≤ c * N + z := by
  obtain ⟨i, hi, ei⟩ := hN.1
  obtain ⟨j, hj, ej⟩ := hN'.1
  have h1 : G i ≤ N' := hN'.2 ⟨i, hi, rfl⟩
  have h2 : V j ≤ N := hN.2 ⟨j, hj, rfl⟩
  have h3 := abs_le.1 (h i hi)
  have h4 := abs_le.1 (h j hj)
  have h5 := mul_le_mul_of_nonneg_left h2 hc
  subst ei ej
  rw [abs_le]
  constructor <;> linarith

theorem exists_greatest {m : Nat} (hm : 0 < m) (G : Nat → ℝ) :
    ∃ N, IsGreatest {y | ∃ i, i < m ∧ y = G i} N := by
  obtain ⟨i, hi, h⟩ := (range m).exists_max_image G ⟨0, mem_range.2 hm⟩
  refine ⟨G i, ⟨i, mem_range.1 hi, rfl⟩, ?_⟩
  rintro _ ⟨j, hj, rfl⟩
  exact h j (mem_range.2 hj)

namespace FP
variable {f : Format} {u : ℝ}

theorem abs_nonneg_val {a : FP f} (h : abs a = a) : 0 ≤ a.val := by
  have e : (abs a).val = |a.val| := by cases a <;> simp [abs, val]
  rw [h] at e
  rw [e]
  exact _root_.abs_nonneg _

/-- Approximation of a number that depends on approximate numbers. -/
theorem Acc.through {m k : ℕ} {z ζ : ℝ} {I J : Prop} {r : FP f} {G S : ℝ} (hu : 0 ≤ u) (hS : 0 ≤ S)
    (hζ : 0 ≤ ζ) (c : Acc u m z I r G G) (hIJ : I → J)
    (hJI : J → (1 + u) ^ k * (S + ζ) ≤ f.big → I)
    (h : I → |G - S| ≤ ((1 + u) ^ k - 1) * S + (1 + u) ^ k * ζ) : Acc u (m + k) (z + ζ) J r S S := by
  have hm : 1 ≤ (1 + u) ^ m := one_le_pow₀ (by linarith)
  have hk : 1 ≤ (1 + u) ^ k := one_le_pow₀ (by linarith)
  have hz := c.z_nonneg
  generalize hA : (1 + u) ^ m = A at *
  generalize hB : (1 + u) ^ k = B at *
  have hBz : z ≤ B * z := le_mul_of_one_le_left hz hk
  have hAz : A * z ≤ A * (B * z) := mul_le_mul_of_nonneg_left hBz (by linarith)
  refine ⟨⟨fun hr => ?_, fun hJ hb => ?_⟩, c.valid, by rw [abs_of_nonneg hS], add_nonneg hz hζ⟩
  · obtain ⟨hI, e⟩ := c.error hr
    refine ⟨hIJ hI, ?_⟩
    have d := h hI
    rw [hA] at e
    have hG : G ≤ B * S + B * ζ := by linarith [(_root_.abs_le.1 d).2]
    have t := abs_add_le (r.val - G) (G - S)
    rw [sub_add_sub_cancel] at t
    have hG' := mul_le_mul_of_nonneg_left hG (sub_nonneg.2 hm)
    rw [pow_add, hA, hB]
    linarith
  · rw [pow_add, hA, hB] at hb
    have hSz : 0 ≤ S + ζ := add_nonneg hS hζ
    have h1 : B * (S + ζ) ≤ A * B * (S + ζ) := by
      have : B ≤ A * B := le_mul_of_one_le_left (by linarith) hm
      exact mul_le_mul_of_nonneg_right this hSz
    have h2 : A * B * (S + ζ) ≤ A * B * (S + (z + ζ)) :=
      mul_le_mul_of_nonneg_left (by linarith) (mul_nonneg (by linarith) (by linarith))
    have hI := hJI hJ (by linarith)
    refine c.finite hI ?_
    have hG : G ≤ B * S + B * ζ := by linarith [(_root_.abs_le.1 (h hI)).2]
    have hG' := mul_le_mul_of_nonneg_left hG (show 0 ≤ A by linarith)
    rw [hA]
    linarith
end FP

namespace CFP
variable {F : Format} {R : Recovery F} {u η ζ : ℝ} {k : ℕ} {modulus : CFP F R → FP F}

theorem Modulus.near (M : Modulus modulus u k ζ) {a : CFP F R} (h : (modulus a).Finite) :
    |(modulus a).val - ‖a.val‖| ≤ ((1 + u) ^ k - 1) * ‖a.val‖ + (1 + u) ^ k * ζ :=
  ((M.accurate a).error h).2

/-- The two-norm before `init` is added. -/
theorem acc_norm (E : F.Errors u η) (hu' : u ≤ 1 / 8) (M : Modulus modulus u k ζ) {n : ℕ}
    (hN : ∀ j : ℕ, j ≤ n → F.rnd j = j) (hbig : (n : ℝ) ≤ F.big) (hη : 16 * n * η ≤ u)
    (x : ℕ → CFP F R) :
    FP.Acc u (3 * n + 3 + k) (η + n * ζ) (∀ k, k < n → (x k).Finite)
      ((foldUp n (fun s k => ssqStepOf s (modulus (x k))) ⟨0, 1⟩).scalingFactor *
        FloatOps.sqrt (foldUp n (fun s k => ssqStepOf s (modulus (x k)))
          (⟨0, 1⟩ : SumOfSquaresOf (FP F))).scaledSumOfSquares)
      (Real.sqrt (∑ i ∈ range n, ‖(x i).val‖ ^ 2)) (Real.sqrt (∑ i ∈ range n, ‖(x i).val‖ ^ 2)) := by
  have hu := E.u_nonneg
  have hP : 1 ≤ (1 + u) ^ k := one_le_pow₀ (by linarith)
  have c := FP.norm_acc E hu' hN hbig hη fun k => modulus (x k)
  simp only [FP.mag_def, M.nonneg] at c
  refine c.through hu (Real.sqrt_nonneg _) (mul_nonneg (Nat.cast_nonneg n) M.zeta_nonneg)
    (fun h i hi => ((M.accurate _).error (h i hi)).1) (fun h hb i hi => (M.accurate _).finite (h i hi) ?_)
    fun h => ?_
  · refine hb.trans' (mul_le_mul_of_nonneg_left (add_le_add ?_ ?_) (by linarith))
    · refine Real.le_sqrt_of_sq_le ?_
      exact single_le_sum (f := fun i => ‖(x i).val‖ ^ 2) (fun i _ => sq_nonneg _) (mem_range.2 hi)
    · refine le_mul_of_one_le_left M.zeta_nonneg ?_
      exact_mod_cast Nat.lt_of_le_of_lt (Nat.zero_le i) hi
  · have := norm_near n (c := (1 + u) ^ k - 1) (z := (1 + u) ^ k * ζ) (by linarith)
      (mul_nonneg (by linarith) M.zeta_nonneg) (fun i => (modulus (x i)).val) (fun i => ‖(x i).val‖)
      (fun i => FP.abs_nonneg_val (M.nonneg _)) (fun i => norm_nonneg _) fun i hi => M.near (h i hi)
    linarith

/-- The largest of sums of absolute values. -/
theorem acc_max (E : F.Errors u η) (M : Modulus modulus u k ζ) {m n : ℕ} {x : ℕ → ℕ → CFP F R}
    (hn : 0 < n) (hx : ∀ i j, i < m → j < n → (x i j).Finite) {N : ℝ}
    (hN : IsGreatest {y | ∃ i, i < m ∧ y = ∑ j ∈ range n, ‖(x i j).val‖} N)
    (hbig : (1 + u) ^ (n + k) * (N + n * ζ) ≤ F.big) (r : FP F)
    (hr : (r = foldUp m (fun r i => stdMax (foldUp n (fun s j => s + modulus (x i j)) (0 : FP F)) r) 0) ∨
      m = 1 ∧ r = foldUp n (fun s j => s + modulus (x 0 j)) (0 : FP F)) :
    r.Finite ∧ |r.val - N| ≤ ((1 + u) ^ (n + k) - 1) * N + (1 + u) ^ (n + k) * (n * ζ) := by
  have hu := E.u_nonneg
  have hz := M.zeta_nonneg
  have hA : 1 ≤ (1 + u) ^ n := one_le_pow₀ (by linarith)
  have hB : 1 ≤ (1 + u) ^ k := one_le_pow₀ (by linarith)
  obtain ⟨i0, hi0, e0⟩ := hN.1
  have hn1 : (1 : ℝ) ≤ n := by exact_mod_cast hn
  have hN0 : 0 ≤ N := by rw [e0]; exact Finset.sum_nonneg fun _ _ => norm_nonneg _
  have hnz : ζ ≤ n * ζ := le_mul_of_one_le_left hz hn1
  have hk : (1 + u) ^ k * (N + n * ζ) ≤ F.big := by
    refine hbig.trans' (mul_le_mul_of_nonneg_right ?_ (by linarith))
    exact pow_le_pow_right₀ (by linarith) (by omega)
  have hle : ∀ i j, i < m → j < n → ‖(x i j).val‖ ≤ N := fun i j hi hj =>
    (single_le_sum (f := fun j => ‖(x i j).val‖) (fun _ _ => norm_nonneg _) (mem_range.2 hj)).trans
      (hN.2 ⟨i, hi, rfl⟩)
  have hg : ∀ i j, i < m → j < n → (modulus (x i j)).Finite := fun i j hi hj =>
    (M.accurate _).finite (hx i j hi hj) (hk.trans' (mul_le_mul_of_nonneg_left
      (add_le_add (hle i j hi hj) hnz) (by linarith)))
  have hv : ∀ i j, |(modulus (x i j)).val| = (modulus (x i j)).val := fun i j =>
    abs_of_nonneg (FP.abs_nonneg_val (M.nonneg _))
  obtain ⟨N', hN'⟩ := exists_greatest (m := m) (by omega)
    fun i => ∑ j ∈ range n, |(modulus (x i j)).val|
  have near := greatest_near (c := (1 + u) ^ k - 1) (z := n * ((1 + u) ^ k * ζ)) (by linarith) hN hN'
    fun i hi => by
      refine sum_near n _ _ fun j hj => ?_
      rw [hv]
      exact M.near (hg i j hi hj)
  have hN'u : N' ≤ (1 + u) ^ k * (N + n * ζ) := by linarith [(abs_le.1 near).2]
  have key := FP.acc_max E (x := fun i j => modulus (x i j)) (fun i j _ _ => M.valid _) hg hN' (by
    rw [pow_add, mul_assoc] at hbig
    exact hbig.trans' (mul_le_mul_of_nonneg_left hN'u (by linarith)))
  simp only [M.nonneg] at key
  have fin : r.Finite ∧ |r.val - N'| ≤ ((1 + u) ^ n - 1) * N' := by
    rcases hr with rfl | ⟨rfl, rfl⟩
    · exact key.2.2
    · refine ⟨key.1 0 Nat.one_pos, ?_⟩
      obtain ⟨i, hi, e⟩ := hN'.1
      obtain rfl : i = 0 := by omega
      have := key.2.1 0 Nat.one_pos
      rwa [← e] at this
  refine ⟨fin.1, ?_⟩
  have t := abs_add_le (r.val - N') (N' - N)
  rw [sub_add_sub_cancel] at t
  have h1 := mul_le_mul_of_nonneg_left hN'u (sub_nonneg.2 hA)
  have h2 := fin.2
  rw [pow_add]
  generalize (1 + u) ^ n = A at *
  generalize (1 + u) ^ k = B at *
  linarith

/-- Rounding the exact absolute value meets the assumption. -/
theorem roundedModulus_spec (E : F.Errors u η) : Modulus (roundedModulus (R := R)) u 1 η := by
  have hu := E.u_nonneg
  have h0 := E.eta_nonneg
  refine ⟨h0, fun a => ?_, fun a => ?_, fun a => ?_⟩
  · unfold roundedModulus
    split_ifs
    · exact FP.ofReal_valid _
    · trivial
    · trivial
  · unfold roundedModulus
    split_ifs
    · have := FP.rnd_nonneg (f := F) (norm_nonneg a.val)
      by_cases h : |F.rnd ‖a.val‖| ≤ F.big
      · rw [FP.ofReal_fin h]
        simp [FP.abs, abs_of_nonneg this]
      · unfold FP.ofReal
        rw [if_neg h, decide_eq_false (not_lt.2 (norm_nonneg _))]
        rfl
    · rfl
    · rfl
  · unfold roundedModulus
    have err := E.err ‖a.val‖
    rw [abs_of_nonneg (norm_nonneg a.val)] at err
    have hn := norm_nonneg a.val
    have hue := mul_nonneg hu h0
    refine ⟨fun h => ?_, fun h hb => ?_⟩
    · by_cases hf : a.Finite
      · rw [if_pos hf] at h ⊢
        refine ⟨hf, ?_⟩
        rw [FP.ofReal_val h]
        linarith
      · rw [if_neg hf] at h
        split_ifs at h <;> exact h.elim
    · rw [if_pos h]
      refine FP.ofReal_finite ?_
      rw [abs_of_nonneg (FP.rnd_nonneg hn)]
      linarith [(abs_le.1 err).2]

end CFP
end StdBLAS

import Verif.Lemmas.Modulus
import Verif.Props.AccurateNorms
import Verif.Props.AccurateComplex

/-!
# Property C62: accuracy of norms of complex vectors and matrices

These functions use `std::abs` of complex numbers, whose accuracy is a parameter: `Modulus modulus u k ζ`
(`Spec/Modulus`).  In the examples it is the exact absolute value, rounded once.  `‖z‖` is the absolute
value of the complex number `z`.
-/

namespace StdBLAS
open Finset Witness CFP

/-- **C62** `vector_two_norm(x, init)` of complex numbers. -/
theorem C62_complex_vector_two_norm {F : Format} {R : Recovery F} {u η ζ : ℝ} {k : ℕ}
    (H : F.Errors u η) (hu : u ≤ 1 / 8) (modulus : CFP F R → FP F) (M : Modulus modulus u k ζ)
    (x : VecV (CFP F R)) (init : FP F) (h : Heap (CFP F R)) (f : Nat → CFP F R) (hx : x.Holds h f)
    (vi : init.Valid) (hN : ∀ j : ℕ, j ≤ x.ext → F.rnd j = j) (hbig : (x.ext : ℝ) ≤ F.big)
    (hη : 16 * x.ext * η ≤ u) :
    letI := magOps modulus
    Ends (vectorTwoNormOf x init) h fun r h' => h' = h ∧
      FP.Accurate u (3 * x.ext + 4 + k) (η + x.ext * ζ)
        (init.Finite ∧ ∀ k, k < x.ext → (f k).Finite)
        r
        (init.val + Real.sqrt (∑ k ∈ range x.ext, ‖(f k).val‖ ^ 2))
        (|init.val| + Real.sqrt (∑ k ∈ range x.ext, ‖(f k).val‖ ^ 2)) := by
  let _ := magOps modulus
  refine (normOf_run hx init).mono ?_
  rintro _ _ ⟨rfl, rfl⟩
  refine ⟨rfl, ?_⟩
  have c := (FP.acc_input H.u_nonneg (3 * x.ext + 3 + k) vi).add H (acc_norm H hu M hN hbig hη f)
  rw [zero_add, show 3 * x.ext + 3 + k + 1 = 3 * x.ext + 4 + k by omega] at c
  exact c.toAccurate

example : letI := magOps (roundedModulus (F := binary64) (R := annexG binary64))
    Ends (vectorTwoNormOf (x.view : VecV Z) ((5 : ℤ) : D)) (heap Z) fun r h' => h' = heap Z ∧
      FP.Accurate ((2 : ℝ) ^ (-53 : ℤ)) (3 * 3 + 4 + 1)
        ((2 : ℝ) ^ (-1075 : ℤ) + (3 : ℕ) * (2 : ℝ) ^ (-1075 : ℤ))
        (((5 : ℤ) : D).Finite ∧ ∀ k, k < 3 → (vals Z x k).Finite) r
        (((5 : ℤ) : D).val + Real.sqrt (∑ k ∈ range 3, ‖(vals Z x k).val‖ ^ 2))
        (|((5 : ℤ) : D).val| + Real.sqrt (∑ k ∈ range 3, ‖(vals Z x k).val‖ ^ 2)) :=
  C62_complex_vector_two_norm binary64_errors binary64_u _ (roundedModulus_spec binary64_errors)
    (x.view : VecV Z) ((5 : ℤ) : D) (heap Z) _
    (holdsV bx) (int_valid 5) (fun j hj => binary64_int j (le_trans hj (by norm_num [x, Vec.view])))
    (binary64_big _ (by norm_num [x, Vec.view])) (binary64_eta _ (by norm_num [x, Vec.view]))

/-- **C62** `vector_sum_of_squares(x, init)` of complex numbers: scaling factor squared times scaled sum
is `s0² q0 + Σ |x(i)|²` with a relative error of at most `(1 + u)^(6 n) - 1`, if `|x(i)|` is taken as
`std::abs` computes it. -/
theorem C62_complex_vector_sum_of_squares {F : Format} {R : Recovery F} {u η ζ : ℝ} {k : ℕ}
    (H : F.Errors u η) (hu : u ≤ 1 / 8) (modulus : CFP F R → FP F) (D : Modulus modulus u k ζ)
    (x : VecV (CFP F R)) (h : Heap (CFP F R)) (f : Nat → CFP F R) (hx : x.Holds h f)
    (hf : ∀ i, i < x.ext → (f i).Finite ∧ (1 + u) ^ k * (‖(f i).val‖ + ζ) ≤ F.big)
    (m : ℕ) (s0 q0 : ℝ) (hs : 0 ≤ s0) (hq : 0 < s0 → 1 ≤ q0 ∧ q0 ≤ m) (hr : F.rnd q0 = q0)
    (hN : ∀ j : ℕ, j ≤ m + x.ext → F.rnd j = j) (hbig : ((m + x.ext : ℕ) : ℝ) ≤ F.big)
    (hη : 16 * (m + x.ext : ℕ) * η ≤ u) :
    letI := magOps modulus
    Ends (vectorSumOfSquaresOf x (⟨.fin s0, .fin q0⟩ : SumOfSquaresOf (FP F))) h fun r h' =>
      h' = h ∧ ∃ (M q : ℝ) (v : Nat → ℝ), r = ⟨.fin M, .fin q⟩ ∧
        (∀ i, i < x.ext →
          |v i - ‖(f i).val‖| ≤ ((1 + u) ^ k - 1) * ‖(f i).val‖ + (1 + u) ^ k * ζ) ∧
        |M ^ 2 * q - (s0 ^ 2 * q0 + ∑ i ∈ range x.ext, v i ^ 2)| ≤
          ((1 + u) ^ (6 * x.ext) - 1) * (s0 ^ 2 * q0 + ∑ i ∈ range x.ext, v i ^ 2) := by
  let _ := magOps modulus
  refine (ssqOf_run hx _).mono ?_
  rintro _ _ ⟨rfl, rfl⟩
  have hfin : ∀ i, i < x.ext → (modulus (f i)).Finite := fun i hi =>
    (D.accurate _).finite (hf i hi).1 (hf i hi).2
  obtain ⟨M, q, e, -, -, -, w⟩ := FP.ssq_acc H hu hN hbig hη hs hq hr fun i => (modulus (f i)).val
  refine ⟨rfl, M, q, fun i => (modulus (f i)).val, ?_, fun i hi => D.near (hfin i hi),
    w.error H.u_nonneg (by linarith)⟩
  rw [← e]
  refine foldUp_congr fun i s hi => ?_
  rw [← (hfin i hi).eq, FP.mag_def, D.nonneg]
  rfl

namespace Witness
theorem zint_norm (k : ℤ) (h : |k| ≤ 40) : ‖(k : Z).val‖ ≤ 200 := by
  rw [(zint_exact k (h.trans (by norm_num))).2]
  refine (Complex.norm_le_abs_re_add_abs_im _).trans ?_
  have h1 : |(k : ℝ)| ≤ 40 := by exact_mod_cast h
  change |(k : ℝ)| + |1 - 2 * (k : ℝ)| ≤ 200
  have h2 := abs_sub (1 : ℝ) (2 * k)
  rw [abs_one, abs_mul, abs_two] at h2
  linarith

theorem zmvals_A_le (i j : Nat) (hi : i < 3) (hj : j < 3) : ‖(mvals Z A i j).val‖ ≤ 200 :=
  zint_norm ((A.addr i j : ℤ) - 7) (by simp only [A]; rw [abs_le]; constructor <;> omega)

theorem eta_le_one : (2 : ℝ) ^ (-1075 : ℤ) ≤ 1 := zpow_le_one_of_nonpos₀ one_le_two (by norm_num)

theorem small_fits' (N : ℝ) (hN : N ≤ 600) :
    (1 + (2 : ℝ) ^ (-53 : ℤ)) ^ 4 * (N + (3 : ℕ) * (2 : ℝ) ^ (-1075 : ℤ)) ≤ binary64.big := by
  refine le_trans ?_ binary64_big_bounds.1
  have h1 : (2 : ℝ) ^ (-53 : ℤ) ≤ 1 := zpow_le_one_of_nonpos₀ one_le_two (by norm_num)
  have h2 : (0 : ℝ) ≤ (2 : ℝ) ^ (-53 : ℤ) := zpow_nonneg zero_le_two _
  have h3 : (1 + (2 : ℝ) ^ (-53 : ℤ)) ^ 4 ≤ 16 :=
    (pow_le_pow_left₀ (by linarith) (show 1 + (2 : ℝ) ^ (-53 : ℤ) ≤ 2 by linarith) 4).trans
      (by norm_num)
  have h4 : N + (3 : ℕ) * (2 : ℝ) ^ (-1075 : ℤ) ≤ 603 := by
    push_cast
    linarith [eta_le_one]
  have h5 : (2 : ℝ) ^ (14 : ℤ) ≤ (2 : ℝ) ^ (1023 : ℤ) := zpow_le_zpow_right₀ one_le_two (by norm_num)
  have h6 : (2 : ℝ) ^ (14 : ℤ) = 16384 := by norm_num
  rw [h6] at h5
  refine le_trans ?_ h5
  exact (mul_le_mul_of_nonneg_left h4 (pow_nonneg (by linarith) 4)).trans
    ((mul_le_mul_of_nonneg_right h3 (by norm_num)).trans (by norm_num))
end Witness

example := C62_complex_vector_sum_of_squares binary64_errors binary64_u _
  (roundedModulus_spec (R := annexG binary64) binary64_errors) (⟨3, fun i => A.addr i 0⟩ : Vec).view
  (heap Z) (fun i => mvals Z A i 0) (fun i hi => (mholdsV bA : (A.view : MatV Z).Holds (heap Z) _) i 0 hi (by decide) trivial)
  (fun i hi => ⟨zmvals_A_finite i 0 hi (by decide), by
    refine (small_fits' _ ((zmvals_A_le i 0 hi (by decide)).trans (by norm_num))).trans' ?_
    have h0 : (0 : ℝ) ≤ (2 : ℝ) ^ (-53 : ℤ) := zpow_nonneg zero_le_two _
    have h1 : (0 : ℝ) ≤ (2 : ℝ) ^ (-1075 : ℤ) := zpow_nonneg zero_le_two _
    refine mul_le_mul (pow_le_pow_right₀ (by linarith) (by norm_num))
      (add_le_add_right (by push_cast; linarith) _) (add_nonneg (norm_nonneg _) h1)
      (pow_nonneg (by linarith) 4)⟩)
  0 0 1 le_rfl (fun h => absurd h (lt_irrefl _)) binary64.one
  (fun j hj => binary64_int j (le_trans hj (by norm_num [Vec.view])))
  (binary64_big _ (by norm_num [Vec.view])) (binary64_eta _ (by norm_num [Vec.view]))

/-- **C62** `matrix_inf_norm(A, 0)` of complex numbers: if all elements are finite and the norm is not
too close to the largest finite number, the result is finite and has a small relative error. -/
theorem C62_complex_matrix_inf_norm {F : Format} {R : Recovery F} {u η ζ : ℝ} {k : ℕ}
    (H : F.Errors u η) (modulus : CFP F R → FP F) (M : Modulus modulus u k ζ)
    (A : MatV (CFP F R)) (h : Heap (CFP F R)) (f : Nat → Nat → CFP F R) (hA : A.Holds h f)
    (hf : ∀ i j, i < A.rows → j < A.cols → (f i j).Finite) (N : ℝ)
    (hN : IsGreatest {x | ∃ i, i < A.rows ∧ x = ∑ j ∈ range A.cols, ‖(f i j).val‖} N)
    (hbig : (1 + u) ^ (A.cols + k) * (N + A.cols * ζ) ≤ F.big) :
    letI := magOps modulus
    Ends (matrixInfNormOf A (0 : FP F)) h fun r h' => h' = h ∧ r.Finite ∧
      |r.val - N| ≤ ((1 + u) ^ (A.cols + k) - 1) * N + (1 + u) ^ (A.cols + k) * (A.cols * ζ) := by
  let _ := magOps modulus
  have hr : 0 < A.rows := by obtain ⟨i, hi, _⟩ := hN.1; omega
  by_cases h0 : A.cols = 0
  · have h0' : A.rows = 0 ∨ A.cols = 0 := .inr h0
    obtain ⟨i, hi, e⟩ := hN.1
    rw [h0, sum_range_zero] at e
    unfold matrixInfNormOf
    rw [if_pos h0', ends_pure, e, h0]
    refine ⟨rfl, trivial, ?_⟩
    simp [show (0 : FP F).val = 0 from rfl]
  have h0' : ¬ (A.rows = 0 ∨ A.cols = 0) := by omega
  by_cases h1 : A.rows = 1 ∧ A.cols = 1
  · unfold matrixInfNormOf
    rw [if_neg h0', if_pos h1]
    refine (scalarNormOf_one hA 0 h0').mono ?_
    rintro _ _ ⟨rfl, rfl⟩
    exact ⟨rfl, acc_max H M (Nat.pos_of_ne_zero h0) hf hN hbig _ (.inr ⟨h1.1, by rw [h1.2]; rfl⟩)⟩
  · refine (infOf_run hA 0 h0' h1).mono ?_
    rintro _ _ ⟨rfl, rfl⟩
    exact ⟨rfl, acc_max H M (Nat.pos_of_ne_zero h0) hf hN hbig _ (.inl rfl)⟩

example : ∃ N, IsGreatest {x | ∃ i, i < 3 ∧ x = ∑ j ∈ range 3, ‖(mvals Z A i j).val‖} N ∧
    letI := magOps (roundedModulus (F := binary64) (R := annexG binary64))
    Ends (matrixInfNormOf (A.view : MatV Z) (0 : D)) (heap Z) fun r h' => h' = heap Z ∧
      r.Finite ∧ |r.val - N| ≤ ((1 + (2 : ℝ) ^ (-53 : ℤ)) ^ (3 + 1) - 1) * N +
        (1 + (2 : ℝ) ^ (-53 : ℤ)) ^ (3 + 1) * ((3 : ℕ) * (2 : ℝ) ^ (-1075 : ℤ)) := by
  obtain ⟨N, hN⟩ := exists_greatest (m := 3) (by decide)
    fun i => ∑ j ∈ range 3, ‖(mvals Z A i j).val‖
  refine ⟨N, hN, C62_complex_matrix_inf_norm binary64_errors _ (roundedModulus_spec binary64_errors)
    (A.view : MatV Z) (heap Z) _ (mholdsV bA) (fun i j hi hj => zmvals_A_finite i j hi hj) N hN ?_⟩
  obtain ⟨i, hi, e⟩ := hN.1
  exact small_fits' N (e ▸ (sum_le_sum fun j hj => zmvals_A_le i j hi (mem_range.1 hj)).trans
    (by rw [sum_const, card_range, nsmul_eq_mul]; norm_num))

/-- **C62** `matrix_one_norm(A, 0)` of complex numbers: if all elements are finite and the norm is not
too close to the largest finite number, the result is finite and has a small relative error. -/
theorem C62_complex_matrix_one_norm {F : Format} {R : Recovery F} {u η ζ : ℝ} {k : ℕ}
    (H : F.Errors u η) (modulus : CFP F R → FP F) (M : Modulus modulus u k ζ)
    (A : MatV (CFP F R)) (h : Heap (CFP F R)) (f : Nat → Nat → CFP F R) (hA : A.Holds h f)
    (hf : ∀ i j, i < A.rows → j < A.cols → (f i j).Finite) (N : ℝ)
    (hN : IsGreatest {x | ∃ j, j < A.cols ∧ x = ∑ i ∈ range A.rows, ‖(f i j).val‖} N)
    (hbig : (1 + u) ^ (A.rows + k) * (N + A.rows * ζ) ≤ F.big) :
    letI := magOps modulus
    Ends (matrixOneNormOf A (0 : FP F)) h fun r h' => h' = h ∧ r.Finite ∧
      |r.val - N| ≤ ((1 + u) ^ (A.rows + k) - 1) * N + (1 + u) ^ (A.rows + k) * (A.rows * ζ) := by
  let _ := magOps modulus
  have hr : 0 < A.cols := by obtain ⟨i, hi, _⟩ := hN.1; omega
  have hf' : ∀ j i, j < A.cols → i < A.rows → (f i j).Finite := fun j i hj hi => hf i j hi hj
  by_cases h0 : A.rows = 0
  · have h0' : A.rows = 0 ∨ A.cols = 0 := .inl h0
    obtain ⟨i, hi, e⟩ := hN.1
    rw [h0, sum_range_zero] at e
    unfold matrixOneNormOf
    rw [if_pos h0', ends_pure, e, h0]
    refine ⟨rfl, trivial, ?_⟩
    simp [show (0 : FP F).val = 0 from rfl]
  have h0' : ¬ (A.rows = 0 ∨ A.cols = 0) := by omega
  by_cases h1 : A.rows = 1 ∧ A.cols = 1
  · unfold matrixOneNormOf
    rw [if_neg h0', if_pos h1]
    refine (scalarNormOf_one hA 0 h0').mono ?_
    rintro _ _ ⟨rfl, rfl⟩
    exact ⟨rfl, acc_max H M (x := fun j i => f i j) (Nat.pos_of_ne_zero h0) hf' hN hbig _
      (.inr ⟨h1.2, by rw [h1.1]; rfl⟩)⟩
  · refine (oneOf_run hA 0 h0' h1).mono ?_
    rintro _ _ ⟨rfl, rfl⟩
    exact ⟨rfl, acc_max H M (x := fun j i => f i j) (Nat.pos_of_ne_zero h0) hf' hN hbig _ (.inl rfl)⟩

example : ∃ N, IsGreatest {x | ∃ j, j < 3 ∧ x = ∑ i ∈ range 3, ‖(mvals Z A i j).val‖} N ∧
    letI := magOps (roundedModulus (F := binary64) (R := annexG binary64))
    Ends (matrixOneNormOf (A.view : MatV Z) (0 : D)) (heap Z) fun r h' => h' = heap Z ∧
      r.Finite ∧ |r.val - N| ≤ ((1 + (2 : ℝ) ^ (-53 : ℤ)) ^ (3 + 1) - 1) * N +
        (1 + (2 : ℝ) ^ (-53 : ℤ)) ^ (3 + 1) * ((3 : ℕ) * (2 : ℝ) ^ (-1075 : ℤ)) := by
  obtain ⟨N, hN⟩ := exists_greatest (m := 3) (by decide)
    fun j => ∑ i ∈ range 3, ‖(mvals Z A i j).val‖
  refine ⟨N, hN, C62_complex_matrix_one_norm binary64_errors _ (roundedModulus_spec binary64_errors)
    (A.view : MatV Z) (heap Z) _ (mholdsV bA) (fun i j hi hj => zmvals_A_finite i j hi hj) N hN ?_⟩
  obtain ⟨j, hj, e⟩ := hN.1
  exact small_fits' N (e ▸ (sum_le_sum fun i hi => zmvals_A_le i j (mem_range.1 hi) hj).trans
    (by rw [sum_const, card_range, nsmul_eq_mul]; norm_num))

end StdBLAS

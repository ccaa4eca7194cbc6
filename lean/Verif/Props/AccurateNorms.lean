import Verif.Lemmas.AccurateNorms
import Verif.Props.Accurate

/-!
# Property C62: accuracy of two-norms in the floating-point arithmetic that machines have

The algorithm divides by the largest magnitude seen so far, so that no square overflows.  What
underflows is negligible: the scaled sum of squares is at least 1.  See `Props/Accurate` for the
notions.
-/

namespace StdBLAS
open Finset Witness FP

/-- **C62** `vector_sum_of_squares(x, init)` of finite numbers: scaling factor squared times scaled sum
is `s0² q0 + Σ x(i)²` with a relative error of at most `(1 + u)^(6 n) - 1`, however large or small the
elements are.  `m`: number of elements that `init` already stands for. -/
theorem C62_vector_sum_of_squares {F : Format} {u η : ℝ} (H : F.Errors u η) (hu : u ≤ 1 / 8)
    (x : VecV (FP F)) (h : Heap (FP F)) (v : Nat → ℝ) (hx : x.Holds h fun i => fin (v i))
    (m : ℕ) (s0 q0 : ℝ) (hs : 0 ≤ s0) (hq : 0 < s0 → 1 ≤ q0 ∧ q0 ≤ m) (hr : F.rnd q0 = q0)
    (hN : ∀ j : ℕ, j ≤ m + x.ext → F.rnd j = j) (hbig : ((m + x.ext : ℕ) : ℝ) ≤ F.big)
    (hη : 16 * (m + x.ext : ℕ) * η ≤ u) :
    Ends (vectorSumOfSquaresOf x (⟨fin s0, fin q0⟩ : SumOfSquaresOf (FP F))) h fun r h' =>
      h' = h ∧ ∃ M q, r = ⟨fin M, fin q⟩ ∧
        |M ^ 2 * q - (s0 ^ 2 * q0 + ∑ i ∈ range x.ext, v i ^ 2)| ≤
          ((1 + u) ^ (6 * x.ext) - 1) * (s0 ^ 2 * q0 + ∑ i ∈ range x.ext, v i ^ 2) := by
  refine (ssqOf_run hx _).mono ?_
  rintro _ _ ⟨rfl, rfl⟩
  obtain ⟨M, q, e, -, -, -, w⟩ := ssq_acc H hu hN hbig hη hs hq hr v
  exact ⟨rfl, M, q, e, w.error H.u_nonneg (by linarith)⟩

theorem binary64_u : (2 : ℝ) ^ (-53 : ℤ) ≤ 1 / 8 := by norm_num

/-- Underflow is negligible for `double` and up to `2 ^ 53` elements. -/
theorem binary64_eta (n : ℕ) (hn : n ≤ 2 ^ 53) :
    16 * (n : ℝ) * (2 : ℝ) ^ (-1075 : ℤ) ≤ (2 : ℝ) ^ (-53 : ℤ) := by
  have h1 : (n : ℝ) ≤ (2 : ℝ) ^ (53 : ℤ) := by exact_mod_cast hn
  have h2 : (0 : ℝ) ≤ (2 : ℝ) ^ (-1075 : ℤ) := zpow_nonneg zero_le_two _
  have e : (16 : ℝ) = (2 : ℝ) ^ (4 : ℤ) := by norm_num
  calc 16 * (n : ℝ) * (2 : ℝ) ^ (-1075 : ℤ)
      ≤ 16 * (2 : ℝ) ^ (53 : ℤ) * (2 : ℝ) ^ (-1075 : ℤ) := by
        refine mul_le_mul_of_nonneg_right ?_ h2
        linarith
    _ = (2 : ℝ) ^ (-1018 : ℤ) := by
        rw [e, ← zpow_add₀ two_ne_zero, ← zpow_add₀ two_ne_zero]; norm_num
    _ ≤ (2 : ℝ) ^ (-53 : ℤ) := zpow_le_zpow_right₀ one_le_two (by norm_num)

theorem binary32_u : (2 : ℝ) ^ (-24 : ℤ) ≤ 1 / 8 := by norm_num

/-- Underflow is negligible for `float` and up to `2 ^ 24` elements. -/
theorem binary32_eta (n : ℕ) (hn : n ≤ 2 ^ 24) :
    16 * (n : ℝ) * (2 : ℝ) ^ (-150 : ℤ) ≤ (2 : ℝ) ^ (-24 : ℤ) := by
  have h1 : (n : ℝ) ≤ (2 : ℝ) ^ (24 : ℤ) := by exact_mod_cast hn
  have h2 : (0 : ℝ) ≤ (2 : ℝ) ^ (-150 : ℤ) := zpow_nonneg zero_le_two _
  have e : (16 : ℝ) = (2 : ℝ) ^ (4 : ℤ) := by norm_num
  calc 16 * (n : ℝ) * (2 : ℝ) ^ (-150 : ℤ)
      ≤ 16 * (2 : ℝ) ^ (24 : ℤ) * (2 : ℝ) ^ (-150 : ℤ) := by
        refine mul_le_mul_of_nonneg_right ?_ h2
        linarith
    _ = (2 : ℝ) ^ (-122 : ℤ) := by
        rw [e, ← zpow_add₀ two_ne_zero, ← zpow_add₀ two_ne_zero]; norm_num
    _ ≤ (2 : ℝ) ^ (-24 : ℤ) := zpow_le_zpow_right₀ one_le_two (by norm_num)

/-- Four million elements of type `double`, of any magnitude. -/
example (v : Nat → ℝ) : Ends (vectorSumOfSquaresOf (row binary64 4000000)
      (⟨fin 0, fin 1⟩ : SumOfSquaresOf (FP binary64))) (fun a => some (fin (v a))) fun r h' =>
      h' = (fun a => some (fin (v a))) ∧ ∃ M q, r = ⟨fin M, fin q⟩ ∧
        |M ^ 2 * q - (0 ^ 2 * 1 + ∑ i ∈ range 4000000, v i ^ 2)| ≤
          ((1 + (2 : ℝ) ^ (-53 : ℤ)) ^ (6 * 4000000) - 1) *
            (0 ^ 2 * 1 + ∑ i ∈ range 4000000, v i ^ 2) :=
  C62_vector_sum_of_squares binary64_errors binary64_u _ _ v (rowHolds _ _) 0 0 1 le_rfl
    (fun h => absurd h (lt_irrefl _)) binary64.one
    (fun j hj => binary64_int j (le_trans hj (by norm_num [row, Vec.view])))
    (binary64_big _ (by norm_num [row, Vec.view])) (binary64_eta _ (by norm_num [row, Vec.view]))

/-- **C62** `vector_two_norm(x, init)`: accurate although it squares numbers.  The condition for a
finite result is on the norm, not on its square, and underflow costs at most `η`, not its square root.
-/
theorem C62_vector_two_norm {F : Format} {u η : ℝ} (H : F.Errors u η) (hu : u ≤ 1 / 8)
    (x : VecV (FP F)) (init : FP F) (h : Heap (FP F)) (f : Nat → FP F) (hx : x.Holds h f)
    (vi : init.Valid) (hN : ∀ j : ℕ, j ≤ x.ext → F.rnd j = j) (hbig : (x.ext : ℝ) ≤ F.big)
    (hη : 16 * x.ext * η ≤ u) :
    Ends (vectorTwoNormOf x init) h fun r h' => h' = h ∧
      FP.Accurate u (3 * x.ext + 4) η
        (init.Finite ∧ ∀ k, k < x.ext → (f k).Finite)
        r
        (init.val + Real.sqrt (∑ k ∈ range x.ext, (f k).val ^ 2))
        (|init.val| + Real.sqrt (∑ k ∈ range x.ext, (f k).val ^ 2)) := by
  refine (normOf_run hx init).mono ?_
  rintro _ _ ⟨rfl, rfl⟩
  refine ⟨rfl, ?_⟩
  have c := (acc_input H.u_nonneg (3 * x.ext + 3) vi).add H (norm_acc H hu hN hbig hη f)
  rw [zero_add] at c
  exact c.toAccurate

example := C62_vector_two_norm binary64_errors binary64_u (x.view : VecV D) ((5 : ℤ) : D) (heap D) _
  (holdsV bx) (int_valid 5) (fun j hj => binary64_int j (le_trans hj (by norm_num [x, Vec.view])))
  (binary64_big _ (by norm_num [x, Vec.view])) (binary64_eta _ (by norm_num [x, Vec.view]))

theorem pow_le_three_halves {u : ℝ} (hu : 0 ≤ u) {n : ℕ} (h : n * u ≤ 1 / 4) :
    (1 + u) ^ n ≤ 3 / 2 := by
  rcases Nat.eq_zero_or_pos n with e | e
  · subst e; norm_num
  have hn : (1 : ℝ) ≤ n := by exact_mod_cast e
  have hu1 : u ≤ 1 / 4 := by nlinarith
  have b := one_add_mul_le_pow (show (-2 : ℝ) ≤ -u by linarith) n
  have c : (1 + u) ^ n * (1 + -u) ^ n ≤ 1 := by
    rw [← mul_pow]
    exact pow_le_one₀ (by nlinarith) (by nlinarith)
  have d : 0 ≤ (1 + u) ^ n := by positivity
  nlinarith

/-- **C62** `vector_two_norm(x)` of up to `2^40` finite `double`s: if the norm is at most `2^1022`, the
result is finite and differs from the norm by at most `((1 + 2^-53)^(3 n + 4) - 1)` times the norm, plus
`2^-1074`. -/
theorem C62_vector_two_norm_double (x : VecV (FP binary64)) (h : Heap (FP binary64)) (v : Nat → ℝ)
    (hx : x.Holds h fun i => fin (v i)) (hn : x.ext ≤ 2 ^ 40) (N : ℝ)
    (hN : N = Real.sqrt (∑ k ∈ range x.ext, v k ^ 2)) (hfit : N ≤ (2 : ℝ) ^ (1022 : ℤ)) :
    Ends (vectorTwoNormOf x (0 : FP binary64)) h fun r h' => h' = h ∧ ∃ s, r = fin s ∧
      |s - N| ≤ ((1 + (2 : ℝ) ^ (-53 : ℤ)) ^ (3 * x.ext + 4) - 1) * N + (2 : ℝ) ^ (-1074 : ℤ) := by
  have hn' : x.ext ≤ 2 ^ 53 := hn.trans (by norm_num)
  refine (C62_vector_two_norm binary64_errors binary64_u x 0 h _ hx zero_valid
    (fun j hj => binary64_int j (hj.trans hn')) (binary64_big _ hn') (binary64_eta _ hn')).mono ?_
  rintro r _ ⟨rfl, A⟩
  refine ⟨rfl, ?_⟩
  have e0 : (0 : FP binary64).val = 0 := rfl
  have ev : ∀ k, (fin (v k) : FP binary64).val = v k := fun _ => rfl
  have hN0 : 0 ≤ N := by rw [hN]; exact Real.sqrt_nonneg _
  simp only [e0, ev, zero_add, abs_zero, ← hN] at A
  have hP := pow_le_three_halves (show (0 : ℝ) ≤ (2 : ℝ) ^ (-53 : ℤ) by positivity) (by
    have h4 : ((3 * x.ext + 4 : ℕ) : ℝ) ≤ 2 ^ 42 := by
      have : 3 * x.ext + 4 ≤ 2 ^ 42 := by omega
      exact_mod_cast this
    calc ((3 * x.ext + 4 : ℕ) : ℝ) * (2 : ℝ) ^ (-53 : ℤ) ≤ 2 ^ 42 * (2 : ℝ) ^ (-53 : ℤ) :=
          mul_le_mul_of_nonneg_right h4 (by positivity)
      _ ≤ 1 / 4 := by norm_num)
  have hη0 : (0 : ℝ) ≤ (2 : ℝ) ^ (-1075 : ℤ) := zpow_nonneg zero_le_two _
  have h3 : (2 : ℝ) ^ (-1075 : ℤ) ≤ (2 : ℝ) ^ (1020 : ℤ) :=
    zpow_le_zpow_right₀ one_le_two (by norm_num)
  have e2 : (2 : ℝ) ^ (1022 : ℤ) = 4 * (2 : ℝ) ^ (1020 : ℤ) := by
    rw [show (1022 : ℤ) = 2 + 1020 by norm_num, zpow_add₀ two_ne_zero]; norm_num
  have e1 : (2 : ℝ) ^ (1023 : ℤ) = 8 * (2 : ℝ) ^ (1020 : ℤ) := by
    rw [show (1023 : ℤ) = 3 + 1020 by norm_num, zpow_add₀ two_ne_zero]; norm_num
  have e3 : (2 : ℝ) ^ (-1074 : ℤ) = 2 * (2 : ℝ) ^ (-1075 : ℤ) := by
    rw [← zpow_one_add₀ two_ne_zero]; norm_num
  have hle := binary64_big_bounds.1
  rw [e1] at hle
  rw [e2] at hfit
  rw [e3]
  generalize (2 : ℝ) ^ (1020 : ℤ) = B at *
  generalize (2 : ℝ) ^ (-1075 : ℤ) = η at *
  have hP0 : 0 ≤ (1 + (2 : ℝ) ^ (-53 : ℤ)) ^ (3 * x.ext + 4) := by positivity
  have fr := A.finite ⟨trivial, fun k _ => trivial⟩ (by
    refine (mul_le_mul hP (add_le_add hfit h3) (by linarith) (by norm_num)).trans ?_
    linarith only [hle, h3, hη0])
  refine ⟨r.val, fr.eq, (A.error fr).2.trans ?_⟩
  have := mul_le_mul_of_nonneg_right hP hη0
  generalize (1 + (2 : ℝ) ^ (-53 : ℤ)) ^ (3 * x.ext + 4) = P at *
  linarith only [this, hη0]

/-- Two elements whose squares overflow and underflow. -/
example : Ends (vectorTwoNormOf (row binary64 2) (0 : FP binary64))
    (fun a => some (fin (if a = 0 then (2 : ℝ) ^ (1021 : ℤ) else (2 : ℝ) ^ (-1000 : ℤ)))) fun r h' =>
    h' = (fun a => some (fin (if a = 0 then (2 : ℝ) ^ (1021 : ℤ) else (2 : ℝ) ^ (-1000 : ℤ)))) ∧
    ∃ s, r = fin s ∧
      |s - Real.sqrt (∑ k ∈ range 2, (if k = 0 then (2 : ℝ) ^ (1021 : ℤ) else (2 : ℝ) ^ (-1000 : ℤ)) ^ 2)| ≤
        ((1 + (2 : ℝ) ^ (-53 : ℤ)) ^ (3 * 2 + 4) - 1) *
          Real.sqrt (∑ k ∈ range 2, (if k = 0 then (2 : ℝ) ^ (1021 : ℤ) else (2 : ℝ) ^ (-1000 : ℤ)) ^ 2) +
        (2 : ℝ) ^ (-1074 : ℤ) := by
  refine C62_vector_two_norm_double _ _ (fun a => if a = 0 then (2 : ℝ) ^ (1021 : ℤ) else
    (2 : ℝ) ^ (-1000 : ℤ)) (rowHolds _ _) (by norm_num [row, Vec.view]) _ rfl ?_
  have h1 : (2 : ℝ) ^ (-1000 : ℤ) ≤ (2 : ℝ) ^ (1021 : ℤ) := zpow_le_zpow_right₀ one_le_two (by norm_num)
  have h2 : (0 : ℝ) ≤ (2 : ℝ) ^ (-1000 : ℤ) := zpow_nonneg zero_le_two _
  have e : (2 : ℝ) ^ (1022 : ℤ) = 2 * (2 : ℝ) ^ (1021 : ℤ) := by
    rw [show (1022 : ℤ) = 1 + 1021 by norm_num, zpow_add₀ two_ne_zero, zpow_one]
  rw [e, sum_range_succ, sum_range_succ, sum_range_zero, zero_add, if_pos rfl, if_neg one_ne_zero]
  generalize (2 : ℝ) ^ (1021 : ℤ) = a at *
  generalize (2 : ℝ) ^ (-1000 : ℤ) = b at *
  refine Real.sqrt_le_iff.2 ⟨by linarith only [h1, h2], ?_⟩
  nlinarith only [h1, h2]

end StdBLAS

import Verif.Lemmas.KokkosAccurate
import Verif.Lemmas.KokkosFloat
import Verif.Props.KokkosWitness
import Verif.Props.AccurateComplex

/-!
# Properties C65 and C66: reductions of the Kokkos backend on floating-point numbers

`C66`: under every schedule, that is, for every way of cutting the range into chunks, every order of
visits and every tree of joins, a finite result can be trusted (`FP.Accurate`, see `Props/Accurate`).

`C65`: the maxima (`matrix_inf_norm`, `matrix_one_norm`) have the same outcome under every schedule; the
sums do not (`C65_dot_false`).

`low` is the identity value of `Kokkos::Max<Scalar>`, the negative of the largest finite number.
-/

namespace StdBLAS
open Finset Witness

/-! ## dot, vector_abs_sum, vector_norm2 -/

section real
open FP

/-- **C66** `dot(exec, x, y, init)` -/
theorem C66_dot {F : Format} {u η : ℝ} (H : F.Errors u η) (x y : KVec) (init : FP F)
    (h : Heap (FP F)) (f g : Nat → FP F) (hx : x.mdspan.Holds h f) (hy : y.mdspan.Holds h g)
    (cx : x.stride = 1) (cy : y.stride = 1) (hext : x.ext = y.ext) (vi : init.Valid) :
    Surely (kkDot x y init) h fun r h' => h' = h ∧
      FP.Accurate u (x.ext + 1) (x.ext * η)
        (init.Finite ∧ ∀ k, k < x.ext → (f k).Finite ∧ (g k).Finite)
        r
        (init.val + ∑ k ∈ range x.ext, (f k).val * (g k).val)
        (|init.val| + ∑ k ∈ range x.ext, |(f k).val| * |(g k).val|) := by
  unfold kkDot
  rw [KVec.view_eq cx, KVec.view_eq cy]
  refine surely_require_bind hext (surely_bind ((FP.bounds H).surely (fun k => f k * g k) ?_
    (fun k _ => acc_mul H (f k) (g k)) fun r hr c => surely_pure.2 ⟨rfl, ?_⟩))
  · intro i hi s
    have hi' : i < y.mdspan.ext := by change i < y.ext; rw [← hext]; exact hi
    rw [Rd.bind_ok (hx.look hi), Rd.bind_ok (hy.look hi')]; rfl
  · change FP.Acc u (1 + (x.ext - 1)) _ _ r _ _ at c
    rcases Nat.eq_zero_or_pos x.ext with h0 | h0
    · rw [hr h0, FP.valid_zero_add vi, h0]
      exact ((acc_input H.u_nonneg 1 vi).congr (by simp) (by simp) (by simp) (by simp)).toAccurate
    · have c' := c.mono H.u_nonneg (show _ ≤ x.ext by omega)
      exact ((c'.add H (acc_input H.u_nonneg _ vi)).congr and_comm (add_comm _ _) (add_comm _ _)
        (by rw [sum_const, card_range, nsmul_eq_mul, add_zero]; rfl)).toAccurate

example := C66_dot binary64_errors kx ky ((5 : ℤ) : D) _ _ _ (holds bkx) (holds bky) rfl rfl rfl
  (int_valid 5)

/-- **C66** `vector_abs_sum(exec, x, init)` -/
theorem C66_vector_abs_sum {F : Format} {u η : ℝ} (H : F.Errors u η) (x : KVec) (init : FP F)
    (h : Heap (FP F)) (f : Nat → FP F) (hx : x.mdspan.Holds h f) (cx : x.stride = 1)
    (vi : init.Valid) (vf : ∀ k, k < x.ext → (f k).Valid) :
    Surely (kkAbsSumOf x init) h fun r h' => h' = h ∧
      FP.Accurate u x.ext 0
        (init.Finite ∧ ∀ k, k < x.ext → (f k).Finite)
        r
        (init.val + ∑ k ∈ range x.ext, |(f k).val|)
        (|init.val| + ∑ k ∈ range x.ext, |(f k).val|) := by
  unfold kkAbsSumOf
  rw [KVec.view_eq cx]
  refine surely_bind ((FP.bounds H).surely (fun k => FP.abs (f k)) ?_
    (fun k hk => FP.acc_of_abs H 0 (vf k hk)) fun r hr c => surely_pure.2 ⟨rfl, ?_⟩)
  · intro i hi s
    rw [Rd.bind_ok (hx.look hi)]; rfl
  · change FP.Acc u (0 + (x.ext - 1)) _ _ r _ _ at c
    rcases Nat.eq_zero_or_pos x.ext with h0 | h0
    · rw [hr h0, FP.valid_zero_add vi, h0]
      exact ((acc_input H.u_nonneg 0 vi).congr (by simp) (by simp) (by simp) (by simp)).toAccurate
    · have c' := (c.add H (acc_input H.u_nonneg _ vi)).mono H.u_nonneg (show _ ≤ x.ext by omega)
      exact (c'.congr and_comm (add_comm _ _) (add_comm _ _) (by simp)).toAccurate

example := C66_vector_abs_sum binary64_errors kx ((5 : ℤ) : D) _ _ (holds bkx) rfl (int_valid 5)
  fun k _ => vals_valid _ k

/-- **C66** `vector_norm2(exec, x, init)`: the square root of a number that is accurate. -/
theorem C66_vector_norm2 {F : Format} {u η : ℝ} (H : F.Errors u η) (x : KVec) (init : FP F)
    (h : Heap (FP F)) (f : Nat → FP F) (hx : x.mdspan.Holds h f) (cx : x.stride = 1)
    (vi : init.Valid) :
    Surely (kkNorm2Of x init) h fun r h' => h' = h ∧ ∃ s, r = FP.sqrt s ∧
      FP.Accurate u (x.ext + 1) (x.ext * η)
        (init.Finite ∧ ∀ k, k < x.ext → (f k).Finite)
        s
        (init.val + ∑ k ∈ range x.ext, (f k).val ^ 2)
        (|init.val| + ∑ k ∈ range x.ext, (f k).val ^ 2) := by
  unfold kkNorm2Of
  rw [KVec.view_eq cx]
  refine surely_bind ((FP.bounds H).surely (fun k => FP.abs (f k) * FP.abs (f k)) ?_
    (fun k _ => FP.acc_square_abs H (f k)) fun r hr c => surely_pure.2 ⟨rfl, _, rfl, ?_⟩)
  · intro i hi s
    rw [Rd.bind_ok (hx.look hi)]; rfl
  · change FP.Acc u (1 + (x.ext - 1)) _ _ r _ _ at c
    rcases Nat.eq_zero_or_pos x.ext with h0 | h0
    · rw [hr h0, FP.valid_zero_add vi, h0]
      exact ((acc_input H.u_nonneg 1 vi).congr (by simp) (by simp) (by simp) (by simp)).toAccurate
    · have c' := c.mono H.u_nonneg (show _ ≤ x.ext by omega)
      exact ((c'.add H (acc_input H.u_nonneg _ vi)).congr and_comm (add_comm _ _) (add_comm _ _)
        (by rw [sum_const, card_range, nsmul_eq_mul, add_zero]; rfl)).toAccurate

example := C66_vector_norm2 binary64_errors kx ((5 : ℤ) : D) _ _ (holds bkx) rfl (int_valid 5)
end real

section complex
open CFP

/-- **C66** `dot(exec, x, y, init)` on complex elements. -/
theorem C66_complex_dot {F : Format} {R : Recovery F} {u η : ℝ} (H : F.Errors u η) (x y : KVec)
    (init : CFP F R) (h : Heap (CFP F R)) (f g : Nat → CFP F R) (hx : x.mdspan.Holds h f)
    (hy : y.mdspan.Holds h g) (cx : x.stride = 1) (cy : y.stride = 1) (hext : x.ext = y.ext)
    (vi : init.Valid) :
    Surely (kkDot x y init) h fun r h' => h' = h ∧
      CFP.Accurate u (x.ext + 2) (x.ext * (4 * η))
        (init.Finite ∧ ∀ k, k < x.ext → (f k).Finite ∧ (g k).Finite)
        r
        (init.val + ∑ k ∈ range x.ext, (f k).val * (g k).val)
        (size init.val + ∑ k ∈ range x.ext, size (f k).val * size (g k).val) := by
  unfold kkDot
  rw [KVec.view_eq cx, KVec.view_eq cy]
  refine surely_require_bind hext (surely_bind ((CFP.bounds H).surely (fun k => f k * g k) ?_
    (fun k _ => acc_mul H (f k) (g k)) fun r hr c => surely_pure.2 ⟨rfl, ?_⟩))
  · intro i hi s
    have hi' : i < y.mdspan.ext := by change i < y.ext; rw [← hext]; exact hi
    rw [Rd.bind_ok (hx.look hi), Rd.bind_ok (hy.look hi')]; rfl
  · change CFP.Acc u (2 + (x.ext - 1)) _ _ r _ _ at c
    rcases Nat.eq_zero_or_pos x.ext with h0 | h0
    · rw [hr h0, CFP.valid_zero_add vi, h0]
      exact ((acc_input H.u_nonneg 2 vi).congr (by simp) (by simp) (by simp) (by simp)).toAccurate
    · have c' := c.mono H.u_nonneg (show _ ≤ x.ext + 1 by omega)
      exact ((c'.add H (acc_input H.u_nonneg _ vi)).congr and_comm (add_comm _ _) (add_comm _ _)
        (by rw [sum_const, card_range, nsmul_eq_mul, add_zero]; rfl)).toAccurate

example := C66_complex_dot (R := annexG binary64) binary64_errors kx ky ((5 : ℤ) : Z) _ _ _
  (holds bkx) (holds bky) rfl rfl rfl (zint_valid 5)
end complex

/-! ## Matrix norms -/

section norms
open FP

theorem Witness.fin_1000_valid : (FP.fin (-1000) : D).Valid := by
  have e := int_exact (-1000) (by norm_num)
  have := int_valid (-1000)
  rw [e] at this
  simpa using this

/-- **C65** `matrix_inf_norm(exec, A, init)` has one outcome: `init` plus the largest row sum of absolute
values.  Each row is summed from left to right. -/
theorem C65_matrix_inf_norm {F : Format} (low : FP F) (A : KMat) (init : FP F) (h : Heap (FP F))
    (f : Nat → Nat → FP F) (hA : A.toMat.Holds h f) (cA : A.transposed = false) (hlow : low ≠ nan)
    (hr : A.rows ≠ 0) (hc : A.cols ≠ 0) :
    ∃ M, LargestOf low A.rows
        (fun i => leftSum (FP.abs (f i 0)) (A.cols - 1) fun k => FP.abs (f i (1 + k))) M ∧
      Surely (kkInfNormOf low A init) h fun r h' => h' = h ∧ r = init + M := by
  obtain ⟨M, hM⟩ := exists_largest hlow A.rows
    fun i => leftSum (FP.abs (f i 0)) (A.cols - 1) fun k => FP.abs (f i (1 + k))
  refine ⟨M, hM, ?_⟩
  unfold kkInfNormOf
  rw [if_neg (by omega), KMat.view_eq cA]
  refine surely_bind (surely_max hlow
    (fun i => leftSum (FP.abs (f i 0)) (A.cols - 1) fun k => FP.abs (f i (1 + k))) ?_ fun r hr => ?_)
  · intro i hi s
    rw [Rd.bind_ok (hA.look hi (Nat.pos_of_ne_zero hc))]
    unfold Rd.foldUp
    rw [Rd.bind_ok (Rd.foldlM_ok (fun s j => s + FP.abs (f i j)) ?_)]
    · rw [foldl_range'_leftSum]; rfl
    · intro j hj s
      rw [Rd.bind_ok (hA.look hi (mem_up.1 hj).2)]; rfl
  · exact surely_pure.2 ⟨rfl, by rw [hM.unique hr]⟩

example := C65_matrix_inf_norm (FP.fin (-1000) : D) kT ((5 : ℤ) : D) _ _ (mholds bT) rfl (by simp)
  (by decide) (by decide)

/-- **C65** `matrix_one_norm(exec, A, init)` has one outcome: `init` plus the largest column sum of
absolute values.  Each column is summed from top to bottom. -/
theorem C65_matrix_one_norm {F : Format} (low : FP F) (A : KMat) (init : FP F) (h : Heap (FP F))
    (f : Nat → Nat → FP F) (hA : A.toMat.Holds h f) (cA : A.transposed = false) (hlow : low ≠ nan)
    (hr : A.rows ≠ 0) (hc : A.cols ≠ 0) :
    ∃ M, LargestOf low A.cols
        (fun j => leftSum (FP.abs (f 0 j)) (A.rows - 1) fun k => FP.abs (f (1 + k) j)) M ∧
      Surely (kkOneNormOf low A init) h fun r h' => h' = h ∧ r = init + M := by
  obtain ⟨M, hM⟩ := exists_largest hlow A.cols
    fun j => leftSum (FP.abs (f 0 j)) (A.rows - 1) fun k => FP.abs (f (1 + k) j)
  refine ⟨M, hM, ?_⟩
  unfold kkOneNormOf
  rw [if_neg (by omega), KMat.view_eq cA]
  refine surely_bind (surely_max hlow
    (fun j => leftSum (FP.abs (f 0 j)) (A.rows - 1) fun k => FP.abs (f (1 + k) j)) ?_ fun r hr => ?_)
  · intro j hj s
    rw [Rd.bind_ok (hA.look (Nat.pos_of_ne_zero hr) hj)]
    unfold Rd.foldUp
    rw [Rd.bind_ok (Rd.foldlM_ok (fun s i => s + FP.abs (f i j)) ?_)]
    · rw [foldl_range'_leftSum]; rfl
    · intro i hi s
      rw [Rd.bind_ok (hA.look (mem_up.1 hi).2 hj)]; rfl
  · exact surely_pure.2 ⟨rfl, by rw [hM.unique hr]⟩

example := C65_matrix_one_norm (FP.fin (-1000) : D) kT ((5 : ℤ) : D) _ _ (mholds bT) rfl (by simp)
  (by decide) (by decide)

/-- **C66** `matrix_inf_norm(exec, A, init)` of a matrix of finite elements, `N` its norm.  (With a NaN
among the elements nothing can be said: `C66_matrix_inf_norm_nan_false`.) -/
theorem C66_matrix_inf_norm_partial {F : Format} {u η : ℝ} (H : F.Errors u η) (l : ℝ) (A : KMat)
    (init : FP F) (h : Heap (FP F)) (f : Nat → Nat → FP F) (hA : A.toMat.Holds h f)
    (cA : A.transposed = false) (hl : l ≤ 0) (vl : (FP.fin l : FP F).Valid) (vi : init.Valid)
    (vf : ∀ i j, i < A.rows → j < A.cols → (f i j).Valid)
    (hf : ∀ i j, i < A.rows → j < A.cols → (f i j).Finite) (N : ℝ)
    (hN : IsGreatest {x | ∃ i, i < A.rows ∧ x = ∑ j ∈ range A.cols, |(f i j).val|} N) :
    Surely (kkInfNormOf (FP.fin l) A init) h fun r h' => h' = h ∧
      FP.Accurate u A.cols 0 init.Finite r (init.val + N) (|init.val| + N) := by
  have hr : A.rows ≠ 0 := by obtain ⟨i, hi, _⟩ := hN.1; omega
  by_cases hc : A.cols = 0
  · obtain ⟨i, hi, e⟩ := hN.1
    rw [hc, sum_range_zero] at e
    unfold kkInfNormOf
    rw [if_pos (.inr hc), hc, e, add_zero, add_zero]
    exact surely_pure.2 ⟨rfl, (acc_input H.u_nonneg 0 vi).toAccurate⟩
  · obtain ⟨M, hM, S⟩ := C65_matrix_inf_norm (FP.fin l) A init h f hA cA (by simp) hr hc
    refine S.mono fun r h' hb => ⟨hb.1, ?_⟩
    rw [hb.2]
    have c := acc_largest H (Nat.pos_of_ne_zero hc) hl vl vf hf hN hM
    exact ((((acc_input H.u_nonneg _ vi).add H c).mono H.u_nonneg (show _ ≤ A.cols by omega)).congr
      (by simp) rfl rfl (by simp)).toAccurate

example : ∃ N, IsGreatest {x | ∃ i, i < 3 ∧ x = ∑ j ∈ range 3, |(mvals D A i j).val|} N ∧
    Surely (kkInfNormOf (FP.fin (-1000)) kA ((5 : ℤ) : D)) (heap D) fun r h' => h' = heap D ∧
      FP.Accurate ((2 : ℝ) ^ (-53 : ℤ)) 3 0 ((5 : ℤ) : D).Finite r (((5 : ℤ) : D).val + N)
        (|((5 : ℤ) : D).val| + N) := by
  obtain ⟨N, hN⟩ := exists_greatest_sum (n := 3) (by decide)
    fun i => ∑ j ∈ range 3, |(mvals D A i j).val|
  exact ⟨N, hN, C66_matrix_inf_norm_partial binary64_errors (-1000) kA ((5 : ℤ) : D) _ _ (mholds bA)
    rfl (by norm_num) fin_1000_valid (int_valid 5) (fun i j _ _ => mvals_valid A i j)
    (fun i j hi hj => mvals_A_finite i j hi hj) N hN⟩

/-- **C66** `matrix_one_norm(exec, A, init)` of a matrix of finite elements, `N` its norm.  A matrix
with columns but no rows is excluded (`C50_one_norm_no_rows_false`). -/
theorem C66_matrix_one_norm_partial {F : Format} {u η : ℝ} (H : F.Errors u η) (l : ℝ) (A : KMat)
    (init : FP F) (h : Heap (FP F)) (f : Nat → Nat → FP F) (hA : A.toMat.Holds h f)
    (cA : A.transposed = false) (hl : l ≤ 0) (vl : (FP.fin l : FP F).Valid) (vi : init.Valid)
    (vf : ∀ i j, i < A.rows → j < A.cols → (f i j).Valid)
    (hf : ∀ i j, i < A.rows → j < A.cols → (f i j).Finite) (hr : A.rows ≠ 0) (N : ℝ)
    (hN : IsGreatest {x | ∃ j, j < A.cols ∧ x = ∑ i ∈ range A.rows, |(f i j).val|} N) :
    Surely (kkOneNormOf (FP.fin l) A init) h fun r h' => h' = h ∧
      FP.Accurate u A.rows 0 init.Finite r (init.val + N) (|init.val| + N) := by
  have hc : A.cols ≠ 0 := by obtain ⟨i, hi, _⟩ := hN.1; omega
  obtain ⟨M, hM, S⟩ := C65_matrix_one_norm (FP.fin l) A init h f hA cA (by simp) hr hc
  refine S.mono fun r h' hb => ⟨hb.1, ?_⟩
  rw [hb.2]
  have c := acc_largest H (x := fun j i => f i j) (Nat.pos_of_ne_zero hr) hl vl
    (fun j i hj hi => vf i j hi hj) (fun j i hj hi => hf i j hi hj) hN hM
  exact ((((acc_input H.u_nonneg _ vi).add H c).mono H.u_nonneg (show _ ≤ A.rows by omega)).congr
    (by simp) rfl rfl (by simp)).toAccurate

example : ∃ N, IsGreatest {x | ∃ j, j < 3 ∧ x = ∑ i ∈ range 3, |(mvals D A i j).val|} N ∧
    Surely (kkOneNormOf (FP.fin (-1000)) kA ((5 : ℤ) : D)) (heap D) fun r h' => h' = heap D ∧
      FP.Accurate ((2 : ℝ) ^ (-53 : ℤ)) 3 0 ((5 : ℤ) : D).Finite r (((5 : ℤ) : D).val + N)
        (|((5 : ℤ) : D).val| + N) := by
  obtain ⟨N, hN⟩ := exists_greatest_sum (n := 3) (by decide)
    fun j => ∑ i ∈ range 3, |(mvals D A i j).val|
  exact ⟨N, hN, C66_matrix_one_norm_partial binary64_errors (-1000) kA ((5 : ℤ) : D) _ _ (mholds bA)
    rfl (by norm_num) fin_1000_valid (int_valid 5) (fun i j _ _ => mvals_valid A i j)
    (fun i j hi hj => mvals_A_finite i j hi hj) (by decide) N hN⟩

end norms

end StdBLAS

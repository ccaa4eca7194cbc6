import Verif.Lemmas.RoundingNorms
import Verif.Props.Witness

/-!
# Property C47 for the reductions: rounding errors of sums of magnitudes and norms

`RoundedReal val u` (`Spec/RoundingReal.lean`): every operation of the `Scalar` type has relative
error at most `u`, comparisons are exact.  `RoundedMag val u mag`: the computed magnitude of an
element has relative error at most `u` with respect to the exact one, `mag`.
-/

namespace StdBLAS
open Finset Witness
variable {α F : Type} [Zero F] [One F] [Add F] [Sub F] [Mul F] [Div F] [FloatOps F] [MagOps α F]
variable {val : F → ℝ} {u : ℝ} {mag : α → ℝ}

theorem Within.close {m : ℕ} {v e : ℝ} (h0 : 0 ≤ u) (h1 : u ≤ 1) (w : Within u m v e) :
    Close u m v e e :=
  ⟨by rw [Real.norm_eq_abs, abs_of_nonneg w.1], w.error h0 h1⟩

/-- **C47** `vector_sum_of_squares(x, init)`: scaling factor squared times scaled sum is
`s0² q0 + Σ |x(i)|²` with a relative error of at most `(1 + u)^(5 n + 2) - 1`. -/
theorem C47_vector_sum_of_squares (R : RoundedReal val u) (M : RoundedMag (F := F) val u mag)
    (x : VecV α) (init : SumOfSquaresOf F) (h : Heap α) (f : Nat → α) (hx : x.Holds h f)
    (hs : 0 ≤ val init.scalingFactor) (hq : 0 ≤ val init.scaledSumOfSquares) :
    Ends (vectorSumOfSquaresOf x init) h fun r h' => h' = h ∧
      |val r.scalingFactor ^ 2 * val r.scaledSumOfSquares -
        (val init.scalingFactor ^ 2 * val init.scaledSumOfSquares +
          ∑ i ∈ range x.ext, mag (f i) ^ 2)| ≤
      ((1 + u) ^ (5 * x.ext + 2) - 1) *
        (val init.scalingFactor ^ 2 * val init.scaledSumOfSquares +
          ∑ i ∈ range x.ext, mag (f i) ^ 2) := by
  have h0 := R.nonneg
  have h1 := R.le_one
  refine (ssqOf_run hx init).mono ?_
  rintro _ _ ⟨rfl, rfl⟩
  refine ⟨rfl, Within.error h0 h1 ?_⟩
  obtain ⟨-, -, w⟩ := R.ssq x.ext (fun k => MagOps.abs (f k)) (fun i _ => (M.within R (f i)).nonneg h1)
    init hs hq
  refine w.trans h0 h1 (Within.add ((Within.refl (by positivity)).mono h0 h1 (by omega)) ?_)
  refine Within.sum _ fun i _ => ?_
  rw [pow_two, pow_two]
  exact (M.within R (f i)).mul h0 h1 (M.within R (f i))

example (p : ℕ) : Ends (vectorSumOfSquaresOf (y.view : VecV (Flt p)) (⟨0, 1⟩ : SumOfSquaresOf (Flt p)))
    (heap (Flt p)) fun r h' => h' = heap (Flt p) ∧
      |r.scalingFactor.val ^ 2 * r.scaledSumOfSquares.val -
        (0 ^ 2 * 1 + ∑ i ∈ range 3, |(vals (Flt p) y i).val| ^ 2)| ≤
      ((1 + (2 : ℝ)⁻¹ ^ p) ^ (5 * 3 + 2) - 1) *
        (0 ^ 2 * 1 + ∑ i ∈ range 3, |(vals (Flt p) y i).val| ^ 2) :=
  C47_vector_sum_of_squares (RoundedReal.flt p) (RoundedMag.flt p _ (by positivity)) _ _ _ _
    (holdsV by_) (le_of_eq (RoundedReal.flt p).zero.symm)
    (by rw [(RoundedReal.flt p).one]; exact zero_le_one)

/-- **C47** `vector_two_norm(x, init)`: error at most
`((1 + u)^(3 n + 4) - 1) * (|init| + sqrt (Σ |x(i)|²))`. -/
theorem C47_vector_two_norm (R : RoundedReal val u) (M : RoundedMag (F := F) val u mag)
    (x : VecV α) (init : F) (h : Heap α) (f : Nat → α) (hx : x.Holds h f) :
    Ends (vectorTwoNormOf x init) h fun r h' => h' = h ∧
      |val r - (val init + Real.sqrt (∑ i ∈ range x.ext, mag (f i) ^ 2))| ≤
      ((1 + u) ^ (3 * x.ext + 4) - 1) *
        (|val init| + Real.sqrt (∑ i ∈ range x.ext, mag (f i) ^ 2)) := by
  have h0 := R.nonneg
  have h1 := R.le_one
  refine (normOf_run hx init).mono ?_
  rintro _ _ ⟨rfl, rfl⟩
  refine ⟨rfl, ?_⟩
  obtain ⟨hs, hq, w⟩ := R.ssq x.ext (fun k => MagOps.abs (f k))
    (fun i _ => (M.within R (f i)).nonneg h1) ⟨0, 1⟩ (by rw [R.zero])
    (by rw [R.one]; exact zero_le_one)
  simp only [] at hs hq w
  generalize foldUp x.ext _ _ = r at *
  have w2 : Within u (5 * x.ext + 2) (val r.scalingFactor ^ 2 * val r.scaledSumOfSquares)
      (∑ i ∈ range x.ext, mag (f i) ^ 2) := by
    refine w.trans h0 h1 ?_
    rw [R.zero, zero_pow two_ne_zero, zero_mul, zero_add]
    refine Within.sum _ fun i _ => ?_
    rw [pow_two, pow_two]
    exact (M.within R (f i)).mul h0 h1 (M.within R (f i))
  have w3 := w2.sqrt h0 h1 (n := 3 * x.ext + 1) (by omega)
  rw [Real.sqrt_mul (sq_nonneg _), Real.sqrt_sq hs] at w3
  obtain ⟨d1, hd1, e1⟩ := R.sqrt r.scaledSumOfSquares hq
  obtain ⟨d2, hd2, e2⟩ := R.mul r.scalingFactor (FloatOps.sqrt r.scaledSumOfSquares)
  have w4 := (w3.round h1 hd1).round h1 hd2
  have e : val (r.scalingFactor * FloatOps.sqrt r.scaledSumOfSquares) =
      val r.scalingFactor * Real.sqrt (val r.scaledSumOfSquares) * (1 + d1) * (1 + d2) := by
    rw [e2, e1]; ring
  rw [← e] at w4
  have := R.close_add (Close.refl (v := val init) (3 * x.ext + 1 + 1 + 1) h0) (w4.close h0 h1)
  exact this.2

example (p : ℕ) : Ends (vectorTwoNormOf (y.view : VecV (Flt p)) (0 : Flt p)) (heap (Flt p))
    fun r h' => h' = heap (Flt p) ∧
      |r.val - (0 + Real.sqrt (∑ i ∈ range 3, |(vals (Flt p) y i).val| ^ 2))| ≤
      ((1 + (2 : ℝ)⁻¹ ^ p) ^ (3 * 3 + 4) - 1) *
        (|(0 : ℝ)| + Real.sqrt (∑ i ∈ range 3, |(vals (Flt p) y i).val| ^ 2)) :=
  C47_vector_two_norm (RoundedReal.flt p) (RoundedMag.flt p _ (by positivity)) _ _ _ _ (holdsV by_)

theorem RoundedReal.close_absSum (R : RoundedReal val u) (M : RoundedMag (F := F) val u mag) (n : ℕ)
    (f : ℕ → α) (init : F) :
    Close u (n + 1) (val (foldUp n (fun s k => s + MagOps.abs (f k)) init))
      (val init + ∑ i ∈ range n, mag (f i)) (|val init| + ∑ i ∈ range n, mag (f i)) := by
  have h0 := R.nonneg
  have h1 := R.le_one
  refine foldUp_inv (n := n) (step := fun s k => s + MagOps.abs (f k)) (s := init)
    (fun k s => Close u (k + 1) (val s) (val init + ∑ i ∈ range k, mag (f i))
      (|val init| + ∑ i ∈ range k, mag (f i))) ?_ ?_
  · simp only [sum_range_zero, add_zero]
    exact Close.refl _ h0
  · rintro k s - c
    rw [sum_range_succ, ← add_assoc, ← add_assoc]
    exact R.close_add c (((M.within R (f k)).mono h0 h1 (by omega)).close h0 h1)

/-- **C47** `vector_abs_sum(v, init)` of real elements: error at most
`((1 + u)^(n + 1) - 1) * (|init| + Σ |v(i)|)`. -/
theorem C47_vector_abs_sum (R : RoundedReal val u) (M : RoundedMag (F := F) val u mag)
    (v : VecV α) (init : F) (h : Heap α) (f : Nat → α) (hv : v.Holds h f)
    (hr : MagOps.isArith α F = true) :
    Ends (vectorAbsSumOf v init) h fun r h' => h' = h ∧
      |val r - (val init + ∑ i ∈ range v.ext, mag (f i))| ≤
      ((1 + u) ^ (v.ext + 1) - 1) * (|val init| + ∑ i ∈ range v.ext, mag (f i)) := by
  refine (absSumOf_run hv init).mono ?_
  rintro _ _ ⟨rfl, rfl⟩
  refine ⟨rfl, ?_⟩
  simp only [hr, if_true]
  exact (R.close_absSum M v.ext f init).2

example (p : ℕ) : Ends (vectorAbsSumOf (y.view : VecV (Flt p)) (0 : Flt p)) (heap (Flt p))
    fun r h' => h' = heap (Flt p) ∧
      |r.val - (0 + ∑ i ∈ range 3, |(vals (Flt p) y i).val|)| ≤
      ((1 + (2 : ℝ)⁻¹ ^ p) ^ (3 + 1) - 1) *
        (|(0 : ℝ)| + ∑ i ∈ range 3, |(vals (Flt p) y i).val|) :=
  C47_vector_abs_sum (RoundedReal.flt p) (RoundedMag.flt p _ (by positivity)) _ _ _ _ (holdsV by_) rfl

/-- **C47** `vector_abs_sum(v, init)` of complex elements (`re`, `im`: the exact magnitudes of the
parts, which are computed without error): error at most
`((1 + u)^(2 n) - 1) * (|init| + Σ (|Re v(i)| + |Im v(i)|))`. -/
theorem C47_vector_abs_sum_complex (R : RoundedReal val u) (re im : α → ℝ)
    (hre : ∀ a : α, val (MagOps.absRe a : F) = |re a|) (him : ∀ a : α, val (MagOps.absIm a : F) = |im a|)
    (v : VecV α) (init : F) (h : Heap α) (f : Nat → α) (hv : v.Holds h f)
    (hr : MagOps.isArith α F = false) :
    Ends (vectorAbsSumOf v init) h fun r h' => h' = h ∧
      |val r - (val init + ∑ i ∈ range v.ext, (|re (f i)| + |im (f i)|))| ≤
      ((1 + u) ^ (2 * v.ext) - 1) *
        (|val init| + ∑ i ∈ range v.ext, (|re (f i)| + |im (f i)|)) := by
  have h0 := R.nonneg
  refine (absSumOf_run hv init).mono ?_
  rintro _ _ ⟨rfl, rfl⟩
  refine ⟨rfl, ?_⟩
  refine (foldUp_inv (n := v.ext) (step := fun s k => if MagOps.isArith α F = true
      then s + MagOps.abs (f k) else s + MagOps.absRe (f k) + MagOps.absIm (f k)) (s := init)
    (fun k s => Close u (2 * k) (val s) (val init + ∑ i ∈ range k, (|re (f i)| + |im (f i)|))
      (|val init| + ∑ i ∈ range k, (|re (f i)| + |im (f i)|))) ?_ ?_).2
  · simp only [sum_range_zero, add_zero, Nat.mul_zero]
    exact Close.refl _ h0
  · rintro k s - c
    rw [if_neg (by simp [hr]), sum_range_succ, ← add_assoc, ← add_assoc, ← add_assoc, ← add_assoc]
    have c1 : Close u (2 * k) (val (MagOps.absRe (f k) : F)) |re (f k)| |re (f k)| := by
      have := Close.refl (u := u) (v := |re (f k)|) (2 * k) h0
      rw [hre]; simpa using this
    have c2 : Close u (2 * k + 1) (val (MagOps.absIm (f k) : F)) |im (f k)| |im (f k)| := by
      have := Close.refl (u := u) (v := |im (f k)|) (2 * k + 1) h0
      rw [him]; simpa using this
    exact R.close_add (R.close_add c c1) c2

example : Ends (vectorAbsSumOf (y.view : VecV ℂ) (0 : ℝ)) (heap ℂ)
    fun r h' => h' = heap ℂ ∧
      |r - (0 + ∑ i ∈ range 3, (|(vals ℂ y i).re| + |(vals ℂ y i).im|))| ≤
      ((1 + (0 : ℝ)) ^ (2 * 3) - 1) *
        (|(0 : ℝ)| + ∑ i ∈ range 3, (|(vals ℂ y i).re| + |(vals ℂ y i).im|)) :=
  C47_vector_abs_sum_complex RoundedReal.exact Complex.re Complex.im (fun _ => rfl) (fun _ => rfl)
    _ _ _ _ (holdsV by_) rfl

/-- The largest of `n` sums computed with bounded relative error. -/
theorem RoundedReal.maxSum (R : RoundedReal val u) {m n : ℕ} {r : ℕ → F} {e : ℕ → ℝ}
    (w : ∀ i, i < n → Within u m (val (r i)) (e i)) (N : ℝ)
    (hN : IsGreatest {x | ∃ i, i < n ∧ x = e i} N) (s : F) (hs : val s = 0) :
    Within u m (val (foldUp n (fun s i => StdBLAS.stdMax (r i) s) s)) N := by
  have h0 := R.nonneg
  have h1 := R.le_one
  obtain ⟨i0, hi0, eN⟩ := hN.1
  have hN0 : 0 ≤ N := by rw [eN]; exact (w i0 hi0).1
  have key := foldUp_inv (n := n) (step := fun s i => StdBLAS.stdMax (r i) s) (s := s)
    (fun k t => val t ≤ (1 + u) ^ m * N ∧ ∀ i, i < k → val (r i) ≤ val t)
    ⟨by rw [hs]; positivity, fun i hi => absurd hi (by omega)⟩ (by
      rintro k t hk ⟨q1, q2⟩
      rw [R.stdMax]
      refine ⟨max_le ?_ q1, fun i hi => ?_⟩
      · exact (w k hk).2.2.trans (mul_le_mul_of_nonneg_left (hN.2 ⟨k, hk, rfl⟩) (by positivity))
      · by_cases e : i = k
        · rw [e]; exact le_max_left _ _
        · exact (q2 i (by omega)).trans (le_max_right _ _))
  refine ⟨hN0, ?_, key.1⟩
  rw [eN]
  exact (w i0 hi0).2.1.trans (key.2 i0 hi0)

/-- **C47** `matrix_inf_norm(A, 0)` of a non-empty matrix: relative error at most
`(1 + u)^(cols + 1) - 1`. -/
theorem C47_matrix_inf_norm (R : RoundedReal val u) (M : RoundedMag (F := F) val u mag)
    (A : MatV α) (h : Heap α) (f : Nat → Nat → α) (hA : A.Holds h f) (hc : 0 < A.cols) (N : ℝ)
    (hN : IsGreatest {x | ∃ i, i < A.rows ∧ x = ∑ j ∈ range A.cols, mag (f i j)} N) :
    Ends (matrixInfNormOf A (0 : F)) h fun r h' => h' = h ∧
      |val r - N| ≤ ((1 + u) ^ (A.cols + 1) - 1) * N := by
  have h0 := R.nonneg
  have h1 := R.le_one
  have w (i : ℕ) : Within u (A.cols + 1)
      (val (foldUp A.cols (fun s j => s + MagOps.abs (f i j)) (0 : F)))
      (∑ j ∈ range A.cols, mag (f i j)) := by
    have := R.absSum M A.cols (f i) 0 (by rw [R.zero])
    rwa [R.zero, zero_add] at this
  have hr : 0 < A.rows := by obtain ⟨i, hi, _⟩ := hN.1; omega
  have hne : ¬ (A.rows = 0 ∨ A.cols = 0) := by omega
  by_cases h1' : A.rows = 1 ∧ A.cols = 1
  · unfold matrixInfNormOf
    rw [if_neg hne, if_pos h1']
    refine (scalarNormOf_one hA 0 hne).mono ?_
    rintro _ _ ⟨rfl, rfl⟩
    refine ⟨rfl, Within.error h0 h1 ?_⟩
    obtain ⟨i, hi, eN⟩ := hN.1
    obtain rfl : i = 0 := by omega
    have := w 0
    rw [eN]
    rw [h1'.2] at this ⊢
    exact this
  · refine (infOf_run hA 0 hne h1').mono ?_
    rintro _ _ ⟨rfl, rfl⟩
    exact ⟨rfl, (R.maxSum (fun i _ => w i) N hN 0 R.zero).error h0 h1⟩

/-- **C47** `matrix_one_norm(A, 0)` of a non-empty matrix: relative error at most
`(1 + u)^(rows + 1) - 1`. -/
theorem C47_matrix_one_norm (R : RoundedReal val u) (M : RoundedMag (F := F) val u mag)
    (A : MatV α) (h : Heap α) (f : Nat → Nat → α) (hA : A.Holds h f) (hr : 0 < A.rows) (N : ℝ)
    (hN : IsGreatest {x | ∃ j, j < A.cols ∧ x = ∑ i ∈ range A.rows, mag (f i j)} N) :
    Ends (matrixOneNormOf A (0 : F)) h fun r h' => h' = h ∧
      |val r - N| ≤ ((1 + u) ^ (A.rows + 1) - 1) * N := by
  have h0 := R.nonneg
  have h1 := R.le_one
  have w (j : ℕ) : Within u (A.rows + 1)
      (val (foldUp A.rows (fun s i => s + MagOps.abs (f i j)) (0 : F)))
      (∑ i ∈ range A.rows, mag (f i j)) := by
    have := R.absSum M A.rows (fun i => f i j) 0 (by rw [R.zero])
    rwa [R.zero, zero_add] at this
  have hc : 0 < A.cols := by obtain ⟨i, hi, _⟩ := hN.1; omega
  have hne : ¬ (A.rows = 0 ∨ A.cols = 0) := by omega
  by_cases h1' : A.rows = 1 ∧ A.cols = 1
  · unfold matrixOneNormOf
    rw [if_neg hne, if_pos h1']
    refine (scalarNormOf_one hA 0 hne).mono ?_
    rintro _ _ ⟨rfl, rfl⟩
    refine ⟨rfl, Within.error h0 h1 ?_⟩
    obtain ⟨i, hi, eN⟩ := hN.1
    obtain rfl : i = 0 := by omega
    have := w 0
    rw [eN]
    rw [h1'.1] at this ⊢
    exact this
  · refine (oneOf_run hA 0 hne h1').mono ?_
    rintro _ _ ⟨rfl, rfl⟩
    exact ⟨rfl, (R.maxSum (fun i _ => w i) N hN 0 R.zero).error h0 h1⟩

/-- The largest of finitely many sums exists: the hypothesis `hN` can be met for every matrix. -/
theorem exists_greatest_sum {n : ℕ} (hn : 0 < n) (e : ℕ → ℝ) :
    ∃ N, IsGreatest {x | ∃ i, i < n ∧ x = e i} N := by
  obtain ⟨i, hi, h⟩ := exists_max_image (range n) e ⟨0, by simpa using hn⟩
  refine ⟨e i, ⟨i, by simpa using hi, rfl⟩, ?_⟩
  rintro x ⟨j, hj, rfl⟩
  exact h j (by simpa using hj)

example (p : ℕ) : ∃ N, IsGreatest {x | ∃ i, i < 3 ∧
      x = ∑ j ∈ range 2, |(mvals (Flt p) T i j).val|} N ∧
    Ends (matrixInfNormOf (T.view : MatV (Flt p)) (0 : Flt p)) (heap (Flt p)) fun r h' =>
      h' = heap (Flt p) ∧ |r.val - N| ≤ ((1 + (2 : ℝ)⁻¹ ^ p) ^ (2 + 1) - 1) * N := by
  obtain ⟨N, hN⟩ := exists_greatest_sum (n := 3) (by decide)
    fun i => ∑ j ∈ range 2, |(mvals (Flt p) T i j).val|
  exact ⟨N, hN, C47_matrix_inf_norm (RoundedReal.flt p) (RoundedMag.flt p _ (by positivity)) _ _ _
    (mholdsV bT) (Nat.succ_pos _) N hN⟩

example (p : ℕ) : ∃ N, IsGreatest {x | ∃ j, j < 2 ∧
      x = ∑ i ∈ range 3, |(mvals (Flt p) T i j).val|} N ∧
    Ends (matrixOneNormOf (T.view : MatV (Flt p)) (0 : Flt p)) (heap (Flt p)) fun r h' =>
      h' = heap (Flt p) ∧ |r.val - N| ≤ ((1 + (2 : ℝ)⁻¹ ^ p) ^ (3 + 1) - 1) * N := by
  obtain ⟨N, hN⟩ := exists_greatest_sum (n := 2) (by decide)
    fun j => ∑ i ∈ range 3, |(mvals (Flt p) T i j).val|
  exact ⟨N, hN, C47_matrix_one_norm (RoundedReal.flt p) (RoundedMag.flt p _ (by positivity)) _ _ _
    (mholdsV bT) (Nat.succ_pos _) N hN⟩

end StdBLAS

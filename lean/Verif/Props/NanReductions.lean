import Verif.Lemmas.Ieee
import Verif.Props.SpecialValues

/-!
# Property C55 for the reductions: which NaN elements reach the result

The numbers are those of an arbitrary floating-point format (`Spec/Ieee.lean`).
-/

namespace StdBLAS
open Witness
open FP hiding abs
variable {f : Format}

/-! ## Sums -/

/-- **C55** `vector_abs_sum(v, init)` is NaN if an element of `v` or `init` is. -/
theorem C55_vector_abs_sum (v : VecV (FP f)) (init : FP f) (h : Heap (FP f)) (g : Nat → FP f)
    (hv : v.Holds h g) (hn : init = nan ∨ ∃ k, k < v.ext ∧ g k = nan) :
    Ends (vectorAbsSumOf v init) h fun r h' => r = nan ∧ h' = h := by
  refine (absSumOf_run hv init).mono ?_
  rintro _ _ ⟨rfl, rfl⟩
  refine ⟨foldUp_reach (· = nan) ?_ ?_, rfl⟩
  · rintro k _ - rfl
    exact nan_add _
  · refine hn.imp id ?_
    rintro ⟨k, hk, e⟩
    refine ⟨k, hk, fun s => ?_⟩
    rw [e]
    exact add_nan _

example : Ends (vectorAbsSumOf y.view (0 : FP f)) (heapN f) fun r h' => r = nan ∧ h' = heapN f :=
  C55_vector_abs_sum _ _ _ _ (holdsVN by_) (Or.inr ⟨1, (show 1 < 3 by decide), y1⟩)

theorem ssqStepOf_keeps_nan (s : SumOfSquaresOf (FP f)) (a : FP f)
    (h : s.scaledSumOfSquares = nan) : (ssqStepOf s a).scaledSumOfSquares = nan := by
  unfold ssqStepOf
  rw [h]
  split
  · split <;> simp
  · exact h

theorem ssqStepOf_nan (s : SumOfSquaresOf (FP f)) :
    (ssqStepOf s nan).scaledSumOfSquares = nan := by
  unfold ssqStepOf
  rw [ne_def, nan_ne, if_pos rfl, lt_def, lt_nan]
  simp

theorem frobStepOf_keeps_nan (s : SumOfSquaresOf (FP f)) (a : FP f)
    (h : s.scaledSumOfSquares = nan) : (frobStepOf s a).scaledSumOfSquares = nan := by
  unfold frobStepOf
  rw [h]
  split
  · simp only []
    split <;> simp
  · exact h

theorem frobStepOf_nan (s : SumOfSquaresOf (FP f)) :
    (frobStepOf s nan).scaledSumOfSquares = nan := by
  unfold frobStepOf
  rw [ne_def, nan_ne, if_pos rfl, lt_def, lt_nan]
  simp

theorem ssq_nan {n : Nat} {g : Nat → FP f} {s : SumOfSquaresOf (FP f)}
    (hn : s.scaledSumOfSquares = nan ∨ ∃ k, k < n ∧ g k = nan) :
    (foldUp n (fun s k => ssqStepOf s (MagOps.abs (g k))) s).scaledSumOfSquares = nan := by
  refine foldUp_reach (fun s : SumOfSquaresOf (FP f) => s.scaledSumOfSquares = nan)
    (fun k s _ hs => ssqStepOf_keeps_nan s _ hs) (hn.imp id ?_)
  rintro ⟨k, hk, e⟩
  refine ⟨k, hk, fun s => ?_⟩
  rw [e]
  exact ssqStepOf_nan s

/-- **C55** `vector_sum_of_squares(x, init)`: the scaled sum of squares is NaN if an element of `x`
or the initial one is. -/
theorem C55_vector_sum_of_squares (x : VecV (FP f)) (init : SumOfSquaresOf (FP f))
    (h : Heap (FP f)) (g : Nat → FP f) (hx : x.Holds h g)
    (hn : init.scaledSumOfSquares = nan ∨ ∃ k, k < x.ext ∧ g k = nan) :
    Ends (vectorSumOfSquaresOf x init) h fun r h' => r.scaledSumOfSquares = nan ∧ h' = h := by
  refine (ssqOf_run hx init).mono ?_
  rintro _ _ ⟨rfl, rfl⟩
  exact ⟨ssq_nan hn, rfl⟩

example : Ends (vectorSumOfSquaresOf y.view (⟨0, 1⟩ : SumOfSquaresOf (FP f))) (heapN f)
    fun r h' => r.scaledSumOfSquares = nan ∧ h' = heapN f :=
  C55_vector_sum_of_squares _ _ _ _ (holdsVN by_) (Or.inr ⟨1, (show 1 < 3 by decide), y1⟩)

/-- **C55** `vector_two_norm(x, init)` is NaN if an element of `x` or `init` is. -/
theorem C55_vector_two_norm (x : VecV (FP f)) (init : FP f) (h : Heap (FP f)) (g : Nat → FP f)
    (hx : x.Holds h g) (hn : init = nan ∨ ∃ k, k < x.ext ∧ g k = nan) :
    Ends (vectorTwoNormOf x init) h fun r h' => r = nan ∧ h' = h := by
  refine (normOf_run hx init).mono ?_
  rintro _ _ ⟨rfl, rfl⟩
  refine ⟨?_, rfl⟩
  rcases hn with rfl | hn
  · exact nan_add _
  · rw [ssq_nan (Or.inr hn), sqrt_def, sqrt_nan, mul_nan, add_nan]

example : Ends (vectorTwoNormOf y.view (0 : FP f)) (heapN f) fun r h' => r = nan ∧ h' = heapN f :=
  C55_vector_two_norm _ _ _ _ (holdsVN by_) (Or.inr ⟨1, (show 1 < 3 by decide), y1⟩)

/-- **C55** `matrix_frob_norm(A, init)` is NaN if an element of `A` is. -/
theorem C55_matrix_frob_norm (A : MatV (FP f)) (init : FP f) (h : Heap (FP f))
    (g : Nat → Nat → FP f) (hA : A.Holds h g)
    (hn : ∃ i j, i < A.rows ∧ j < A.cols ∧ g i j = nan) :
    Ends (matrixFrobNormOf A init) h fun r h' => r = nan ∧ h' = h := by
  obtain ⟨i, j, hi, hj, e⟩ := hn
  have h0 : ¬ (A.rows = 0 ∨ A.cols = 0) := by omega
  by_cases h1 : A.rows = 1 ∧ A.cols = 1
  · unfold matrixFrobNormOf
    rw [if_neg h0, if_pos h1]
    refine (scalarNormOf_one hA init h0).mono ?_
    rintro _ _ ⟨rfl, rfl⟩
    obtain ⟨rfl, rfl⟩ : i = 0 ∧ j = 0 := by omega
    rw [e]
    exact ⟨add_nan _, rfl⟩
  · refine (frobOf_run hA init h0 h1).mono ?_
    rintro _ _ ⟨rfl, rfl⟩
    refine ⟨?_, rfl⟩
    have inner (i : Nat) (s : SumOfSquaresOf (FP f)) (hs : s.scaledSumOfSquares = nan) :
        (foldUp A.cols (fun s j => frobStepOf s (MagOps.abs (g i j))) s).scaledSumOfSquares =
          nan :=
      foldUp_reach (fun s : SumOfSquaresOf (FP f) => s.scaledSumOfSquares = nan)
        (fun k s _ hs => frobStepOf_keeps_nan s _ hs) (Or.inl hs)
    rw [foldUp_reach (fun s : SumOfSquaresOf (FP f) => s.scaledSumOfSquares = nan)
      (fun i s _ hs => inner i s hs) (Or.inr ⟨i, hi, fun s => ?_⟩), sqrt_def, sqrt_nan, mul_nan,
      add_nan]
    refine foldUp_reach (fun s : SumOfSquaresOf (FP f) => s.scaledSumOfSquares = nan)
      (fun k s _ hs => frobStepOf_keeps_nan s _ hs) (Or.inr ⟨j, hj, fun s => ?_⟩)
    rw [e]
    exact frobStepOf_nan s

example : Ends (matrixFrobNormOf A.view (0 : FP f)) (heapN f) fun r h' =>
    r = nan ∧ h' = heapN f :=
  C55_matrix_frob_norm _ _ _ _ (mholdsVN bA) ⟨1, 0, (show 1 < 3 by decide), (show 0 < 3 by decide), A10⟩

/-! ## Norms with a maximum

`std::max(sum, result)` is `(sum < result) ? result : sum`: a NaN `result` is lost as soon as the
next row (column) has a sum. -/

/-- Not NaN and not negative. -/
def Nonneg (a : FP f) : Prop := a ≠ nan ∧ lt a 0 = false

theorem nonneg_zero : Nonneg (0 : FP f) := ⟨by rw [zero_def]; simp, by simp [lt]⟩

theorem nonneg_add_abs {s a : FP f} (hs : Nonneg s) (ha : a ≠ nan) :
    Nonneg (s + MagOps.abs a) := by
  rw [mag_def, add_def]
  obtain ⟨h1, h2⟩ := hs
  cases s with
  | nan => exact absurd rfl h1
  | inf t =>
    have ht : t = false := by cases t <;> simp_all [lt]
    subst ht
    cases a with
    | nan => exact absurd rfl ha
    | inf t => exact ⟨by simp [FP.abs, add], by simp [FP.abs, add, lt, zero_def]⟩
    | fin y => exact ⟨by simp [FP.abs, add], by simp [FP.abs, add, lt, zero_def]⟩
  | fin x =>
    have hx : 0 ≤ x := by simpa [lt, zero_def] using h2
    cases a with
    | nan => exact absurd rfl ha
    | inf t => exact ⟨by simp [FP.abs, add], by simp [FP.abs, add, lt, zero_def]⟩
    | fin y =>
      have hxy : 0 ≤ x + |y| := add_nonneg hx (abs_nonneg y)
      simp only [FP.abs, add, ofReal]
      split
      · exact ⟨by simp, by simpa [lt, zero_def] using rnd_nonneg hxy⟩
      · rw [decide_eq_false (not_lt.2 hxy)]
        exact ⟨by simp, by simp [lt]⟩

theorem sum_nonneg {n : Nat} {g : Nat → FP f} {init : FP f} (hi : Nonneg init)
    (hg : ∀ k, k < n → g k ≠ nan) : Nonneg (foldUp n (fun s k => s + MagOps.abs (g k)) init) :=
  foldUp_inv (fun _ s => Nonneg s) hi fun k _ hk hs => nonneg_add_abs hs (hg k hk)

theorem sum_nan {n : Nat} {g : Nat → FP f} {init : FP f} (hn : ∃ k, k < n ∧ g k = nan) :
    foldUp n (fun s k => s + MagOps.abs (g k)) init = nan := by
  refine foldUp_reach (· = nan) ?_ (Or.inr ?_)
  · rintro k _ - rfl
    exact nan_add _
  · obtain ⟨k, hk, e⟩ := hn
    refine ⟨k, hk, fun s => ?_⟩
    rw [e]
    exact add_nan _

theorem stdMax_nan_left (r : FP f) : stdMax nan r = nan := by
  unfold stdMax
  rw [lt_def, nan_lt]
  rfl

theorem stdMax_ne_nan {s : FP f} (hs : s ≠ nan) (r : FP f) : stdMax s r ≠ nan := by
  unfold stdMax
  split
  · next e =>
    rintro rfl
    rw [lt_def, lt_nan] at e
    exact absurd e (by simp)
  · exact hs

theorem foldUp_last {σ : Type} {n : Nat} (hn : 0 < n) (step : σ → Nat → σ) (s : σ) :
    ∃ s', foldUp n step s = step s' (n - 1) := by
  obtain ⟨m, rfl⟩ := Nat.exists_eq_succ_of_ne_zero hn.ne'
  exact ⟨foldUp m step s, rfl⟩

/-- **C55** (part) `matrix_inf_norm(A, init)` is NaN if an element of the *last* row is.

Missing: the same for the other rows, which is false, see `C55_matrix_inf_norm_false`. -/
theorem C55_matrix_inf_norm_partial (A : MatV (FP f)) (init : FP f) (h : Heap (FP f))
    (g : Nat → Nat → FP f) (hA : A.Holds h g) (hr : 0 < A.rows)
    (hn : ∃ j, j < A.cols ∧ g (A.rows - 1) j = nan) :
    Ends (matrixInfNormOf A init) h fun r h' => r = nan ∧ h' = h := by
  have h0 : ¬ (A.rows = 0 ∨ A.cols = 0) := by obtain ⟨j, hj, _⟩ := hn; omega
  by_cases h1 : A.rows = 1 ∧ A.cols = 1
  · unfold matrixInfNormOf
    rw [if_neg h0, if_pos h1]
    refine (scalarNormOf_one hA init h0).mono ?_
    rintro _ _ ⟨rfl, rfl⟩
    obtain ⟨j, hj, e⟩ := hn
    obtain ⟨rfl, h2⟩ : j = 0 ∧ A.rows - 1 = 0 := by omega
    rw [h2] at e
    rw [e]
    exact ⟨add_nan _, rfl⟩
  · refine (infOf_run hA init h0 h1).mono ?_
    rintro _ _ ⟨rfl, rfl⟩
    refine ⟨?_, rfl⟩
    obtain ⟨s', e⟩ := foldUp_last hr (fun r i =>
      stdMax (foldUp A.cols (fun s j => s + MagOps.abs (g i j)) init) r) init
    rw [e, sum_nan hn, stdMax_nan_left]

example : Ends (matrixInfNormOf (⟨2, 3, A.addr⟩ : Mat).view (0 : FP f)) (heapN f)
    fun r h' => r = nan ∧ h' = heapN f :=
  C55_matrix_inf_norm_partial _ _ _ _
    (mholdsVN (m := ⟨2, 3, A.addr⟩) fun i j hi hj => bA i j (Nat.lt_succ_of_lt hi) hj)
    (Nat.succ_pos _) ⟨0, Nat.succ_pos _, A10⟩

/-- **C55** (negative) with at least two rows, `matrix_inf_norm` is never NaN when the last row has
no NaN, whatever the other rows hold. -/
theorem C55_matrix_inf_norm_lost (A : MatV (FP f)) (init : FP f) (h : Heap (FP f))
    (g : Nat → Nat → FP f) (hA : A.Holds h g) (hr : 2 ≤ A.rows) (hc : 0 < A.cols)
    (hi : init ≠ nan ∧ lt init 0 = false) (hn : ∀ j, j < A.cols → g (A.rows - 1) j ≠ nan) :
    Ends (matrixInfNormOf A init) h fun r h' => r ≠ nan ∧ h' = h := by
  refine (infOf_run hA init (by omega) (by omega)).mono ?_
  rintro _ _ ⟨rfl, rfl⟩
  refine ⟨?_, rfl⟩
  obtain ⟨s', e⟩ := foldUp_last (show 0 < A.rows by omega) (fun r i =>
    stdMax (foldUp A.cols (fun s j => s + MagOps.abs (g i j)) init) r) init
  rw [e]
  exact stdMax_ne_nan (sum_nonneg hi hn).1 _

theorem ofReal_ne_nan (x : ℝ) : ofReal f x ≠ nan := by
  unfold ofReal
  split <;> simp

namespace Witness
theorem mvalsN_ne {m : Mat} {i j : Nat} (h1 : m.addr i j < 200)
    (h2 : m.addr i j ≠ 12 ∧ m.addr i j ≠ 31 ∧ m.addr i j ≠ 112) : mvalsN f m i j ≠ nan := by
  have e : mvalsN f m i j = ofReal f (((m.addr i j : ℤ) - 7 : ℤ) : ℝ) := by
    unfold mvalsN heapN
    rw [if_neg (by omega), heap_lt h1]
    rfl
  rw [e]
  exact ofReal_ne_nan _
theorem valsN_ne {v : Vec} {i : Nat} (h1 : v.addr i < 200)
    (h2 : v.addr i ≠ 12 ∧ v.addr i ≠ 31 ∧ v.addr i ≠ 112) : valsN f v i ≠ nan := by
  have e : valsN f v i = ofReal f (((v.addr i : ℤ) - 7 : ℤ) : ℝ) := by
    unfold valsN heapN
    rw [if_neg (by omega), heap_lt h1]
    rfl
  rw [e]
  exact ofReal_ne_nan _
end Witness

/-- Element (1, 0) of `A` is NaN. -/
example : mvalsN f A 1 0 = nan ∧ Ends (matrixInfNormOf A.view (0 : FP f)) (heapN f) fun r h' =>
    r ≠ nan ∧ h' = heapN f :=
  ⟨A10, C55_matrix_inf_norm_lost A.view 0 (heapN f) _ (mholdsVN bA) (Nat.le_add_left _ _)
    (Nat.le_add_left _ _) nonneg_zero fun j hj => mvalsN_ne (bA 2 j (by decide) hj)
      (by change j < 3 at hj; simp only [A, Mat.view]; omega)⟩

/-- **C55** (negative) in every format there is a matrix with a NaN element whose infinity norm, as
computed by `matrix_inf_norm`, is not NaN. -/
theorem C55_matrix_inf_norm_false (f : Format) :
    ¬ ∀ (A : MatV (FP f)) (h : Heap (FP f)) (g : Nat → Nat → FP f), A.Holds h g →
      (∃ i j, i < A.rows ∧ j < A.cols ∧ g i j = nan) →
      Ends (matrixInfNormOf A (0 : FP f)) h fun r h' => r = nan ∧ h' = h := by
  intro H
  have h1 := H A.view (heapN f) _ (mholdsVN bA) ⟨1, 0, (show 1 < 3 by decide), (show 0 < 3 by decide), A10⟩
  have h2 := C55_matrix_inf_norm_lost A.view 0 (heapN f) _ (mholdsVN bA) (Nat.le_add_left _ _) (Nat.le_add_left _ _)
    nonneg_zero fun j hj => mvalsN_ne (bA 2 j (by decide) hj)
      (by change j < 3 at hj; simp only [A, Mat.view]; omega)
  obtain ⟨_, _, _, q, q', _⟩ := h1.and h2
  exact q' q.1

/-- **C55** (part) `matrix_one_norm(A, init)` is NaN if an element of the *last* column is.

Missing: the same for the other columns, which is false, see `C55_matrix_one_norm_false`. -/
theorem C55_matrix_one_norm_partial (A : MatV (FP f)) (init : FP f) (h : Heap (FP f))
    (g : Nat → Nat → FP f) (hA : A.Holds h g) (hc : 0 < A.cols)
    (hn : ∃ i, i < A.rows ∧ g i (A.cols - 1) = nan) :
    Ends (matrixOneNormOf A init) h fun r h' => r = nan ∧ h' = h := by
  have h0 : ¬ (A.rows = 0 ∨ A.cols = 0) := by obtain ⟨j, hj, _⟩ := hn; omega
  by_cases h1 : A.rows = 1 ∧ A.cols = 1
  · unfold matrixOneNormOf
    rw [if_neg h0, if_pos h1]
    refine (scalarNormOf_one hA init h0).mono ?_
    rintro _ _ ⟨rfl, rfl⟩
    obtain ⟨i, hi, e⟩ := hn
    obtain ⟨rfl, h2⟩ : i = 0 ∧ A.cols - 1 = 0 := by omega
    rw [h2] at e
    rw [e]
    exact ⟨add_nan _, rfl⟩
  · refine (oneOf_run hA init h0 h1).mono ?_
    rintro _ _ ⟨rfl, rfl⟩
    refine ⟨?_, rfl⟩
    obtain ⟨s', e⟩ := foldUp_last hc (fun r j =>
      stdMax (foldUp A.rows (fun s i => s + MagOps.abs (g i j)) init) r) init
    rw [e, sum_nan (g := fun i => g i (A.cols - 1)) hn, stdMax_nan_left]

example : Ends (matrixOneNormOf (⟨3, 1, A.addr⟩ : Mat).view (0 : FP f)) (heapN f)
    fun r h' => r = nan ∧ h' = heapN f :=
  C55_matrix_one_norm_partial _ _ _ _
    (mholdsVN (m := ⟨3, 1, A.addr⟩) fun i j hi hj =>
      bA i j hi (Nat.lt_of_lt_of_le hj (show 1 ≤ 3 by decide)))
    (Nat.succ_pos _) ⟨1, (show 1 < 3 by decide), A10⟩

/-- **C55** (negative) with at least two columns, `matrix_one_norm` is never NaN when the last
column has no NaN, whatever the other columns hold. -/
theorem C55_matrix_one_norm_lost (A : MatV (FP f)) (init : FP f) (h : Heap (FP f))
    (g : Nat → Nat → FP f) (hA : A.Holds h g) (hr : 0 < A.rows) (hc : 2 ≤ A.cols)
    (hi : init ≠ nan ∧ lt init 0 = false) (hn : ∀ i, i < A.rows → g i (A.cols - 1) ≠ nan) :
    Ends (matrixOneNormOf A init) h fun r h' => r ≠ nan ∧ h' = h := by
  refine (oneOf_run hA init (by omega) (by omega)).mono ?_
  rintro _ _ ⟨rfl, rfl⟩
  refine ⟨?_, rfl⟩
  obtain ⟨s', e⟩ := foldUp_last (show 0 < A.cols by omega) (fun r j =>
    stdMax (foldUp A.rows (fun s i => s + MagOps.abs (g i j)) init) r) init
  rw [e]
  exact stdMax_ne_nan (sum_nonneg (g := fun i => g i (A.cols - 1)) hi hn).1 _

/-- Element (1, 0) of `A` is NaN. -/
example : mvalsN f A 1 0 = nan ∧ Ends (matrixOneNormOf A.view (0 : FP f)) (heapN f) fun r h' =>
    r ≠ nan ∧ h' = heapN f :=
  ⟨A10, C55_matrix_one_norm_lost A.view 0 (heapN f) _ (mholdsVN bA) (Nat.le_add_left _ _)
    (Nat.le_add_left _ _) nonneg_zero fun i hi => mvalsN_ne (bA i 2 hi (by decide))
      (by change i < 3 at hi; simp only [A, Mat.view]; omega)⟩

/-- **C55** (negative) in every format there is a matrix with a NaN element whose one norm, as
computed by `matrix_one_norm`, is not NaN. -/
theorem C55_matrix_one_norm_false (f : Format) :
    ¬ ∀ (A : MatV (FP f)) (h : Heap (FP f)) (g : Nat → Nat → FP f), A.Holds h g →
      (∃ i j, i < A.rows ∧ j < A.cols ∧ g i j = nan) →
      Ends (matrixOneNormOf A (0 : FP f)) h fun r h' => r = nan ∧ h' = h := by
  intro H
  have h1 := H A.view (heapN f) _ (mholdsVN bA) ⟨1, 0, (show 1 < 3 by decide), (show 0 < 3 by decide), A10⟩
  have h2 := C55_matrix_one_norm_lost A.view 0 (heapN f) _ (mholdsVN bA) (Nat.le_add_left _ _) (Nat.le_add_left _ _)
    nonneg_zero fun i hi => mvalsN_ne (bA i 2 hi (by decide))
      (by change i < 3 at hi; simp only [A, Mat.view]; omega)
  obtain ⟨_, _, _, q, q', _⟩ := h1.and h2
  exact q' q.1

/-! ## Index of the maximum -/

theorem idxMagnitudeOf_eq (a : FP f) : idxMagnitudeOf (FP f) a = FP.abs a := rfl

/-- **C55** `vector_idx_abs_max` of a vector that starts with a NaN is 0. -/
theorem C55_vector_idx_abs_max_first (v : VecV (FP f)) (sizeMax : Nat) (h : Heap (FP f))
    (g : Nat → FP f) (hv : v.Holds h g) (h0 : 0 < v.ext) (hn : g 0 = nan) :
    Ends (vectorIdxAbsMaxOf (FP f) sizeMax v) h fun r h' => r = 0 ∧ h' = h := by
  refine (idxOf_run hv sizeMax (by omega)).mono ?_
  rintro _ _ ⟨rfl, rfl⟩
  refine ⟨?_, rfl⟩
  rw [foldUp_inv (fun _ s => s = ((0 : Nat), (nan : FP f)))]
  · rw [hn]; rfl
  · rintro k _ - rfl
    simp only [lt_def, nan_lt]
    rfl

example : Ends (vectorIdxAbsMaxOf (FP f) 99 (⟨2, fun i => 12 + i⟩ : Vec).view) (heapN f)
    fun r h' => r = 0 ∧ h' = heapN f :=
  C55_vector_idx_abs_max_first _ _ _ _
    (holdsVN (v := ⟨2, fun i => 12 + i⟩) fun i hi =>
      (show 12 + i < 200 by change i < 2 at hi; omega))
    (Nat.succ_pos _) rfl

/-- **C55** otherwise `vector_idx_abs_max` ignores the NaN elements: its result is the first index
of an element that is not NaN and whose magnitude no other element exceeds. -/
theorem C55_vector_idx_abs_max (v : VecV (FP f)) (sizeMax : Nat) (h : Heap (FP f))
    (g : Nat → FP f) (hv : v.Holds h g) (h0 : 0 < v.ext) (hn : g 0 ≠ nan) :
    Ends (vectorIdxAbsMaxOf (FP f) sizeMax v) h fun r h' => h' = h ∧ r < v.ext ∧ g r ≠ nan ∧
      (∀ k, k < v.ext → g k ≠ nan → lt (FP.abs (g r)) (FP.abs (g k)) = false) ∧
      (∀ k, k < r → g k ≠ nan → lt (FP.abs (g k)) (FP.abs (g r)) = true) := by
  refine (idxOf_run hv sizeMax (by omega)).mono ?_
  rintro _ _ ⟨rfl, rfl⟩
  refine ⟨rfl, ?_⟩
  have key := foldUp_inv (n := v.ext - 1)
    (step := fun (s : Nat × FP f) k => if lt s.2 (FP.abs (g (k + 1))) = true
        then (k + 1, FP.abs (g (k + 1))) else s)
    (fun k s => s.1 ≤ k ∧ s.2 = FP.abs (g s.1) ∧ g s.1 ≠ nan ∧
      (∀ j, j ≤ k → g j ≠ nan → lt s.2 (FP.abs (g j)) = false) ∧
      (∀ j, j < s.1 → g j ≠ nan → lt (FP.abs (g j)) s.2 = true)) (s := (0, FP.abs (g 0)))
    ⟨le_rfl, rfl, hn, fun j hj hj' => by
      obtain rfl : j = 0 := by omega
      rw [lt_false_iff (abs_ne_nan hn) (abs_ne_nan hn)], fun j hj => absurd hj (by omega)⟩
    (by
      rintro k ⟨r, m⟩ hk ⟨h1, h2, h3, h4, h5⟩
      simp only at h1 h2 h3 h4 h5 ⊢
      subst h2
      split
      · next e =>
        have hk' : g (k + 1) ≠ nan := by
          intro q; rw [q, abs_nan, lt_nan] at e; exact absurd e (by simp)
        rw [lt_iff (abs_ne_nan h3) (abs_ne_nan hk')] at e
        refine ⟨le_rfl, rfl, hk', fun j hj hj' => ?_, fun j hj hj' => ?_⟩
        · rw [lt_false_iff (abs_ne_nan hk') (abs_ne_nan hj')]
          by_cases q : j = k + 1
          · rw [q]
          · exact ((lt_false_iff (abs_ne_nan h3) (abs_ne_nan hj')).1
              (h4 j (by omega) hj')).trans e.le
        · rw [lt_iff (abs_ne_nan hj') (abs_ne_nan hk')]
          exact lt_of_le_of_lt ((lt_false_iff (abs_ne_nan h3) (abs_ne_nan hj')).1
              (h4 j (by simpa using Nat.lt_succ_iff.1 hj) hj')) e
      · next e =>
        refine ⟨by simp only; omega, rfl, h3, fun j hj hj' => ?_, h5⟩
        by_cases q : j = k + 1
        · rw [q]; simpa using e
        · exact h4 j (by omega) hj')
  suffices H : ∀ s : Nat × FP f, (s.1 ≤ v.ext - 1 ∧ s.2 = FP.abs (g s.1) ∧ g s.1 ≠ nan ∧
      (∀ j, j ≤ v.ext - 1 → g j ≠ nan → lt s.2 (FP.abs (g j)) = false) ∧
      (∀ j, j < s.1 → g j ≠ nan → lt (FP.abs (g j)) s.2 = true)) → s.1 < v.ext ∧ g s.1 ≠ nan ∧
      (∀ k, k < v.ext → g k ≠ nan → lt (FP.abs (g s.1)) (FP.abs (g k)) = false) ∧
      (∀ k, k < s.1 → g k ≠ nan → lt (FP.abs (g k)) (FP.abs (g s.1)) = true) from H _ key
  rintro s ⟨h1, h2, h3, h4, h5⟩
  refine ⟨by omega, h3, fun k hk => ?_, fun k hk => ?_⟩
  · rw [← h2]; exact h4 k (by omega)
  · rw [← h2]; exact h5 k hk

example : Ends (vectorIdxAbsMaxOf (FP f) 99 y.view) (heapN f) fun r h' => h' = heapN f ∧ r < 3 ∧
    valsN f y r ≠ nan ∧
    (∀ k, k < 3 → valsN f y k ≠ nan → lt (FP.abs (valsN f y r)) (FP.abs (valsN f y k)) = false) ∧
    (∀ k, k < r → valsN f y k ≠ nan → lt (FP.abs (valsN f y k)) (FP.abs (valsN f y r)) = true) :=
  C55_vector_idx_abs_max _ _ _ _ (holdsVN by_) (Nat.succ_pos _)
    (valsN_ne (by decide) (by decide))

end StdBLAS

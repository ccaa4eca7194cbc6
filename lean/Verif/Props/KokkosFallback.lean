import Verif.Props.AccurateComplex
import Verif.Props.FloatExact
import Verif.Props.KokkosKernels

/-!
# Properties C65, C66, C67 and C70: `matrix_product` with a Kokkos policy and foreign accessors

For accessors that KokkosKernels does not know the Kokkos backend runs the native loops.
-/

namespace StdBLAS
open Finset Witness CFP
variable {α : Type}

/-- **C67** `matrix_product(exec, A, B, C)` by the native loops: with matching extents every schedule
has exactly the outcome of the call without a policy, also if `C` overlaps `A` or `B`. -/
theorem C67_gemm_fallback [Add α] [Mul α] [Zero α] (A B : MatV α) (C : Mat) (h : Heap α)
    (hAB : A.cols = B.rows) (hAC : A.rows = C.rows) (hBC : B.cols = C.cols) :
    ∀ r, kkGemmFallback A B C h r ↔ r = gemm A B C h := by
  unfold kkGemmFallback
  rw [kkCheckGemm_ok hAB hAC hBC, sched_pure_bind]
  exact fun r => eq_comm

/-- Squaring a matrix in place. -/
example := C67_gemm_fallback (A.view : MatV Term) A.view A (heap Term) rfl rfl rfl

/-- **C65** `matrix_product(exec, A, B, C)` by the native loops: one sum from left to right, under every
schedule. -/
theorem C65_gemm_fallback [Add α] [Mul α] [Zero α] (A B : MatV α) (C : Mat) (h : Heap α)
    (a b : Nat → Nat → α) (hA : A.Holds h a) (hB : B.Holds h b) (hC : C.Alloc h)
    (hAB : A.cols = B.rows) (hAC : A.rows = C.rows) (hBC : B.cols = C.cols) (hu : C.Unique)
    (hApC : Apart A.toMat.Cell C.Cell) (hBpC : Apart B.toMat.Cell C.Cell) :
    Surely (kkGemmFallback A B C) h fun _ h' => C.Becomes h h' fun i j =>
      leftSum 0 A.cols fun k => a i k * b k j := by
  unfold kkGemmFallback
  rw [kkCheckGemm_ok hAB hAC hBC, sched_pure_bind]
  exact surely_lift.2 (C54_gemm A B C h a b hA hB hC hAC.symm hAB hBC.symm hu hApC hBpC)

example := C65_gemm_fallback (T.view : MatV Term) W.view C (heap Term) _ _ (mholdsV bT) (mholdsV bW)
  (malloc bC) rfl rfl rfl (by view_facts) (by view_facts) (by view_facts)

/-- **C66** `matrix_product(exec, A, B, C)` by the native loops -/
theorem C66_gemm_fallback {F : Format} {u η : ℝ} (H : F.Errors u η) (A B : MatV (FP F)) (C : Mat)
    (h : Heap (FP F)) (a b : Nat → Nat → FP F) (hA : A.Holds h a) (hB : B.Holds h b) (hC : C.Alloc h)
    (hAB : A.cols = B.rows) (hAC : A.rows = C.rows) (hBC : B.cols = C.cols) (hu : C.Unique)
    (hApC : Apart A.toMat.Cell C.Cell) (hBpC : Apart B.toMat.Cell C.Cell) :
    Surely (kkGemmFallback A B C) h fun _ h' => ∃ r, C.Becomes h h' r ∧
      ∀ i j, i < C.rows → j < C.cols →
      FP.Accurate u (A.cols + 1) (A.cols * η)
        (∀ k, k < A.cols → (a i k).Finite ∧ (b k j).Finite)
        (r i j)
        (∑ k ∈ range A.cols, (a i k).val * (b k j).val)
        (∑ k ∈ range A.cols, |(a i k).val| * |(b k j).val|) := by
  unfold kkGemmFallback
  rw [kkCheckGemm_ok hAB hAC hBC, sched_pure_bind]
  exact surely_lift.2 (C62_gemm H A B C h a b hA hB hC hAC.symm hAB hBC.symm hu hApC hBpC)

example := C66_gemm_fallback binary64_errors (T.view : MatV D) W.view C (heap D) _ _ (mholdsV bT)
  (mholdsV bW) (malloc bC) rfl rfl rfl (by view_facts) (by view_facts) (by view_facts)

/-- **C66** `matrix_product(exec, A, B, C)` by the native loops, for complex elements -/
theorem C66_complex_gemm_fallback {F : Format} {R : Recovery F} {u η : ℝ} (H : F.Errors u η)
    (A B : MatV (CFP F R)) (C : Mat) (h : Heap (CFP F R)) (a b : Nat → Nat → CFP F R)
    (hA : A.Holds h a) (hB : B.Holds h b) (hC : C.Alloc h)
    (hAB : A.cols = B.rows) (hAC : A.rows = C.rows) (hBC : B.cols = C.cols) (hu : C.Unique)
    (hApC : Apart A.toMat.Cell C.Cell) (hBpC : Apart B.toMat.Cell C.Cell) :
    Surely (kkGemmFallback A B C) h fun _ h' => ∃ r, C.Becomes h h' r ∧
      ∀ i j, i < C.rows → j < C.cols →
      CFP.Accurate u (A.cols + 2) (A.cols * (4 * η))
        (∀ k, k < A.cols → (a i k).Finite ∧ (b k j).Finite)
        (r i j)
        (∑ k ∈ range A.cols, (a i k).val * (b k j).val)
        (∑ k ∈ range A.cols, size (a i k).val * size (b k j).val) := by
  unfold kkGemmFallback
  rw [kkCheckGemm_ok hAB hAC hBC, sched_pure_bind]
  exact surely_lift.2 (C62_complex_gemm H A B C h a b hA hB hC hAC.symm hAB hBC.symm hu hApC hBpC)

example := C66_complex_gemm_fallback binary64_errors (T.view : MatV Z) W.view C (heap Z) _ _ (mholdsV bT)
  (mholdsV bW) (malloc bC) rfl rfl rfl (by view_facts) (by view_facts) (by view_facts)

/-- **C70** `matrix_product(exec, A, B, C)` by the native loops -/
theorem C70_kokkos_gemm_fallback {F : Format} {N : ℕ} {g₁ g₂ : ℝ} (H : F.Grid N (g₁ * g₂))
    (A B : MatV (FP F)) (C : Mat) (h : Heap (FP F)) (a b : Nat → Nat → FP F) (hA : A.Holds h a)
    (hB : B.Holds h b) (hC : C.Alloc h)
    (hAB : A.cols = B.rows) (hAC : A.rows = C.rows) (hBC : B.cols = C.cols) (hu : C.Unique)
    (hApC : Apart A.toMat.Cell C.Cell) (hBpC : Apart B.toMat.Cell C.Cell) :
    Surely (kkGemmFallback A B C) h fun _ h' => ∃ r, C.Becomes h h' r ∧
      ∀ i j, i < C.rows → j < C.cols →
      FP.Exact N (g₁ * g₂)
        (∀ k, k < A.cols → (a i k).On g₁ ∧ (b k j).On g₂)
        (r i j)
        (∑ k ∈ range A.cols, (a i k).val * (b k j).val)
        (∑ k ∈ range A.cols, |(a i k).val| * |(b k j).val|) := by
  unfold kkGemmFallback
  rw [kkCheckGemm_ok hAB hAC hBC, sched_pure_bind]
  exact surely_lift.2 (C70_gemm H A B C h a b hA hB hC hAC.symm hAB hBC.symm hu hApC hBpC)

example := C70_kokkos_gemm_fallback binary64_integers (T.view : MatV D) W.view C (heap D) _ _ (mholdsV bT)
  (mholdsV bW) (malloc bC) rfl rfl rfl (by view_facts) (by view_facts) (by view_facts)

end StdBLAS

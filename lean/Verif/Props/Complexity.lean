import Mathlib.Tactic.NormNum
import Verif.Lemmas.Cost
import Verif.Lemmas.Steps
import Verif.Props.Blas2Products
import Verif.Props.Witness

/-!
# C68: the number of accesses to elements

How many elements of its arguments a call reads and writes, exactly, for every algorithm, every size
and every contents of memory, and (`C68_linear`) that it is at most six times the product of extents
that the algorithm is meant to be linear in.

`Steps.f` is the algorithm `f` as a sequence of single accesses; that it is the function of the other
properties is `C58_same_model`.
-/

namespace StdBLAS
variable {α R : Type}

/-- **C68** `scale(alpha, x)`: one read and one write per element. -/
theorem C68_scale_vector [Mul α] (alpha : α) (x : Vec)
    (h : Heap α) :
    Performs (Steps.scale1 alpha x) h x.ext
      x.ext := by
  refine Task.Costs.performs ?_ h
  unfold Steps.scale1
  count if_true

/-- **C68** `scale(alpha, A)`. -/
theorem C68_scale_matrix [Mul α] (alpha : α) (A : Mat)
    (h : Heap α) :
    Performs (Steps.scale2 alpha A) h (A.rows * A.cols)
      (A.rows * A.cols) := by
  refine Task.Costs.performs ?_ h
  unfold Steps.scale2
  count if_true

/-- **C68** `copy(x, y)`. -/
theorem C68_copy_vector (x : VecV α) (y : Vec)
    (h : Heap α) :
    Performs (Steps.copy1 x y) h y.ext
      y.ext := by
  refine Task.Costs.performs ?_ h
  unfold Steps.copy1
  count if_true

/-- **C68** `copy(x, y)`. -/
theorem C68_copy_matrix (x : MatV α) (y : Mat)
    (h : Heap α) :
    Performs (Steps.copy2 x y) h (y.rows * y.cols)
      (y.rows * y.cols) := by
  refine Task.Costs.performs ?_ h
  unfold Steps.copy2
  count if_true

/-- **C68** `swap_elements(x, y)`. -/
theorem C68_swap_vector (x y : Vec)
    (h : Heap α) :
    Performs ((Steps.swap1 x y : Task α Unit)) h (2 * y.ext)
      (2 * y.ext) := by
  refine Task.Costs.performs ?_ h
  unfold Steps.swap1
  count if_true

/-- **C68** `swap_elements(x, y)`. -/
theorem C68_swap_matrix (x y : Mat)
    (h : Heap α) :
    Performs ((Steps.swap2 x y : Task α Unit)) h (2 * (y.rows * y.cols))
      (2 * (y.rows * y.cols)) := by
  refine Task.Costs.performs ?_ h
  unfold Steps.swap2
  count if_true

/-- **C68** `add(x, y, z)`. -/
theorem C68_add_vector [Add α] (x y : VecV α) (z : Vec)
    (h : Heap α) :
    Performs (Steps.add1 x y z) h (2 * z.ext)
      z.ext := by
  refine Task.Costs.performs ?_ h
  unfold Steps.add1
  count if_true

/-- **C68** `add(x, y, z)`. -/
theorem C68_add_matrix [Add α] (x y : MatV α) (z : Mat)
    (h : Heap α) :
    Performs (Steps.add2 x y z) h (2 * (x.rows * x.cols))
      (x.rows * x.cols) := by
  refine Task.Costs.performs ?_ h
  unfold Steps.add2
  count if_true

/-- **C68** `dot(v1, v2, init)`. -/
theorem C68_dot [Add α] [Mul α] (v1 v2 : VecV α) (init : α)
    (h : Heap α) :
    Performs (Steps.dot v1 v2 init) h (2 * v1.ext)
      0 := by
  refine Task.Costs.performs ?_ h
  unfold Steps.dot
  count if_true

/-- **C68** `dotc(v1, v2, init)`. -/
theorem C68_dotc [Add α] [Mul α] [ConjOps α] (v1 v2 : VecV α) (init : α)
    (h : Heap α) :
    Performs (Steps.dotc v1 v2 init) h (2 * v1.ext)
      0 := by
  refine Task.Costs.performs ?_ h
  unfold Steps.dotc Steps.dot VecV.conjugated
  count if_true

/-- **C68** `apply_givens_rotation(x, y, c, s)` with real `s`. -/
theorem C68_apply_givens [Add α] [Sub α] [Mul α] (x y : Vec) (c s : α)
    (h : Heap α) :
    Performs (Steps.applyGivens x y c s) h (4 * x.ext)
      (2 * x.ext) := by
  refine Task.Costs.performs ?_ h
  unfold Steps.applyGivens
  count if_true

/-- **C68** `apply_givens_rotation(x, y, c, s)` with complex `s`. -/
theorem C68_apply_givens_complex [Add α] [Sub α] [Mul α] [ConjOps α] (x y : Vec) (c s : α)
    (h : Heap α) :
    Performs (Steps.applyGivensC x y c s) h (4 * x.ext)
      (2 * x.ext) := by
  refine Task.Costs.performs ?_ h
  unfold Steps.applyGivensC
  count if_true

/-- **C68** `matrix_vector_product(A, x, y)`: each element of `A` is read once. -/
theorem C68_gemv [Add α] [Mul α] [Zero α] (A : MatV α) (x : VecV α) (y : Vec)
    (h : Heap α) :
    Performs (Steps.gemv A x y) h (3 * (A.rows * A.cols))
      (A.rows + A.rows * A.cols) := by
  refine Task.Costs.performs ?_ h
  unfold Steps.gemv
  count if_true

section
open Witness

example : (Steps.gemv (A.view : MatV ℝ) x.view y).reads (heap ℝ) = 27 ∧
    (Steps.gemv (A.view : MatV ℝ) x.view y).writes (heap ℝ) = 12 := by
  obtain ⟨_, g, e, -⟩ := C16_gemv (A.view : MatV ℝ) x.view y (heap ℝ) _ _ (mholdsV bA) (holdsV bx)
    (alloc by_) rfl le_rfl (by view_facts) (by view_facts) (by view_facts)
  exact (C68_gemv (A.view : MatV ℝ) x.view y (heap ℝ)).exact () g (by rw [Steps.gemv_run]; exact e)

end

/-- **C68** `matrix_vector_product(A, x, y, z)`. -/
theorem C68_gemv_update [Add α] [Mul α] (A : MatV α) (x y : VecV α) (z : Vec)
    (h : Heap α) :
    Performs (Steps.gemvUpdate A x y z) h (A.rows + 3 * (A.rows * A.cols))
      (A.rows + A.rows * A.cols) := by
  refine Task.Costs.performs ?_ h
  unfold Steps.gemvUpdate
  count if_true

/-- **C68** `symmetric_matrix_vector_product(A, t, x, y)`: only one triangle is read, each element once. -/
theorem C68_symv [Add α] [Mul α] [Zero α] (A : MatV α) (t : Triangle) (x : VecV α) (y : Vec) (hA : A.rows = A.cols)
    (h : Heap α) :
    Performs (Steps.symv A t x y) h (3 * A.cols + 5 * pairs A.cols)
      (2 * A.cols + 2 * pairs A.cols) := by
  refine Task.Costs.performs ?_ h
  unfold Steps.symv Steps.symvAcc Steps.fillZero
  cases t <;> count hA

section
open Witness

example (t : Triangle) : (A.view : MatV ℝ).rows = (A.view : MatV ℝ).cols ∧
    (Steps.symv (A.view : MatV ℝ) t x.view y).reads (heap ℝ) = 24 ∧
    (Steps.symv (A.view : MatV ℝ) t x.view y).writes (heap ℝ) = 12 := by
  refine ⟨rfl, ?_⟩
  obtain ⟨_, g, e, -⟩ := C17_symv (A.view : MatV ℝ) t x.view y (heap ℝ) _ _ (mholdsV bA) (holdsV bx)
    (alloc by_) rfl rfl le_rfl (by view_facts) (by view_facts) (by view_facts)
  exact (C68_symv (A.view : MatV ℝ) t x.view y rfl (heap ℝ)).exact () g
    (by rw [Steps.symv_run]; exact e)

end

/-- **C68** `symmetric_matrix_vector_product(A, t, x, y, z)`. -/
theorem C68_symv_update [Add α] [Mul α] (A : MatV α) (t : Triangle) (x y : VecV α) (z : Vec) (hA : A.rows = A.cols)
    (h : Heap α) :
    Performs (Steps.symvUpdate A t x y z) h (4 * A.cols + 5 * pairs A.cols)
      (2 * A.cols + 2 * pairs A.cols) := by
  refine Task.Costs.performs ?_ h
  unfold Steps.symvUpdate Steps.symvAcc Steps.fillFrom
  cases t <;> count hA

/-- **C68** `hermitian_matrix_vector_product(A, t, x, y)`: only one triangle is read, each element once. -/
theorem C68_hemv [Add α] [Mul α] [Zero α] [ConjOps α] (A : MatV α) (t : Triangle) (x : VecV α) (y : Vec) (hA : A.rows = A.cols)
    (h : Heap α) :
    Performs (Steps.hemv A t x y) h (3 * A.cols + 5 * pairs A.cols)
      (2 * A.cols + 2 * pairs A.cols) := by
  refine Task.Costs.performs ?_ h
  unfold Steps.hemv Steps.hemvAcc Steps.fillZero
  cases t <;> count hA

/-- **C68** `hermitian_matrix_vector_product(A, t, x, y, z)`. -/
theorem C68_hemv_update [Add α] [Mul α] [ConjOps α] (A : MatV α) (t : Triangle) (x y : VecV α) (z : Vec) (hA : A.rows = A.cols)
    (h : Heap α) :
    Performs (Steps.hemvUpdate A t x y z) h (4 * A.cols + 5 * pairs A.cols)
      (2 * A.cols + 2 * pairs A.cols) := by
  refine Task.Costs.performs ?_ h
  unfold Steps.hemvUpdate Steps.hemvAcc Steps.fillFrom
  cases t <;> count hA

/-- **C68** `triangular_matrix_vector_product(A, t, d, x, y)`. -/
theorem C68_trmv [Add α] [Mul α] [Zero α] (A : MatV α) (t : Triangle) (d : Diag) (x : VecV α) (y : Vec) (hA : A.rows = A.cols)
    (h : Heap α) :
    Performs (Steps.trmv A t d x y) h ((if d = .explicit then 3 else 2) * A.cols + 3 * pairs A.cols)
      (2 * A.cols + pairs A.cols) := by
  refine Task.Costs.performs ?_ h
  unfold Steps.trmv Steps.trmvAcc Steps.fillZero
  cases t <;> cases d <;> simp only [reduceCtorEq, if_true, if_false]
  all_goals count hA

/-- **C68** `triangular_matrix_vector_product(A, t, d, x, y, z)`. -/
theorem C68_trmv_update [Add α] [Mul α] (A : MatV α) (t : Triangle) (d : Diag) (x y : VecV α) (z : Vec) (hA : A.rows = A.cols)
    (h : Heap α) :
    Performs (Steps.trmvUpdate A t d x y z) h ((if d = .explicit then 4 else 3) * A.cols + 3 * pairs A.cols)
      (2 * A.cols + pairs A.cols) := by
  refine Task.Costs.performs ?_ h
  unfold Steps.trmvUpdate Steps.trmvAcc Steps.fillFrom
  cases t <;> cases d <;> simp only [reduceCtorEq, if_true, if_false]
  all_goals count hA

/-- **C68** `triangular_matrix_vector_product(A, t, d, y)`. -/
theorem C68_trmv_in_place [Add α] [Mul α] (A : MatV α) (t : Triangle) (d : Diag) (y : Vec) (hA : A.rows = A.cols)
    (h : Heap α) :
    Performs (Steps.trmvInPlace A t d y) h ((if d = .explicit then 3 else 1) * A.cols + 2 * pairs A.cols)
      ((if d = .explicit then A.cols else 0) + pairs A.cols) := by
  refine Task.Costs.performs ?_ h
  unfold Steps.trmvInPlace
  cases t <;> cases d <;> simp only [reduceCtorEq, if_true, if_false]
  all_goals count hA

/-- **C68** `triangular_matrix_vector_solve(A, t, d, b, x)`. -/
theorem C68_trsv [Sub α] [Mul α] (divide : α → α → α) (A : MatV α) (t : Triangle) (d : Diag) (b : VecV α) (x : Vec) (hA : A.rows = A.cols)
    (h : Heap α) :
    Performs (Steps.trsv divide A t d b x) h ((if d = .explicit then 2 else 1) * A.cols + 2 * pairs A.cols)
      A.cols := by
  refine Task.Costs.performs ?_ h
  unfold Steps.trsv Steps.trsvLower Steps.trsvUpper
  cases t <;> cases d <;> simp only [reduceCtorEq, if_true, if_false]
  all_goals count hA

/-- **C68** `matrix_rank_1_update(x, y, A)`. -/
theorem C68_ger [Add α] [Mul α] (x y : VecV α) (A : Mat)
    (h : Heap α) :
    Performs (Steps.ger x y A) h (3 * (A.rows * A.cols))
      (A.rows * A.cols) := by
  refine Task.Costs.performs ?_ h
  unfold Steps.ger
  count if_true

/-- **C68** `matrix_rank_1_update_c(x, y, A)`. -/
theorem C68_gerc [Add α] [Mul α] [ConjOps α] (x y : VecV α) (A : Mat)
    (h : Heap α) :
    Performs (Steps.gerc x y A) h (3 * (A.rows * A.cols))
      (A.rows * A.cols) := by
  refine Task.Costs.performs ?_ h
  unfold Steps.gerc Steps.ger
  count if_true

/-- **C68** `symmetric_matrix_rank_1_update(alpha, x, A, t)`. -/
theorem C68_syr_alpha [Add α] [Mul α] (alpha : α) (x : VecV α) (A : Mat) (t : Triangle) (hA : A.rows = A.cols)
    (h : Heap α) :
    Performs (Steps.syrAlpha alpha x A t) h (3 * (pairs A.cols + A.cols))
      ((pairs A.cols + A.cols)) := by
  refine Task.Costs.performs ?_ h
  unfold Steps.syrAlpha Steps.triangleLoop
  cases t <;> count hA

/-- **C68** `symmetric_matrix_rank_1_update(x, A, t)`. -/
theorem C68_syr [Add α] [Mul α] (x : VecV α) (A : Mat) (t : Triangle) (hA : A.rows = A.cols)
    (h : Heap α) :
    Performs (Steps.syr x A t) h (3 * (pairs A.cols + A.cols))
      ((pairs A.cols + A.cols)) := by
  refine Task.Costs.performs ?_ h
  unfold Steps.syr Steps.triangleLoop
  cases t <;> count hA

/-- **C68** `symmetric_matrix_rank_2_update(x, y, A, t)`. -/
theorem C68_syr2 [Add α] [Mul α] (x y : VecV α) (A : Mat) (t : Triangle) (hA : A.rows = A.cols)
    (h : Heap α) :
    Performs (Steps.syr2 x y A t) h (5 * (pairs A.cols + A.cols))
      ((pairs A.cols + A.cols)) := by
  refine Task.Costs.performs ?_ h
  unfold Steps.syr2 Steps.triangleLoop
  cases t <;> count hA

/-- **C68** `symmetric_matrix_rank_k_update(alpha, A, C, t)`. -/
theorem C68_syrk_alpha [Add α] [Mul α] (alpha : α) (A : MatV α) (C : Mat) (t : Triangle) (hC : C.rows = C.cols)
    (h : Heap α) :
    Performs (Steps.syrkAlpha alpha A C t) h (3 * ((pairs C.cols + C.cols) * A.cols))
      ((pairs C.cols + C.cols) * A.cols) := by
  refine Task.Costs.performs ?_ h
  unfold Steps.syrkAlpha Steps.triangleLoop
  cases t <;> count hC

/-- **C68** `symmetric_matrix_rank_k_update(A, C, t)`. -/
theorem C68_syrk [Add α] [Mul α] (A : MatV α) (C : Mat) (t : Triangle) (hC : C.rows = C.cols)
    (h : Heap α) :
    Performs (Steps.syrk A C t) h (3 * ((pairs C.cols + C.cols) * A.cols))
      ((pairs C.cols + C.cols) * A.cols) := by
  refine Task.Costs.performs ?_ h
  unfold Steps.syrk Steps.triangleLoop
  cases t <;> count hC

/-- **C68** `symmetric_matrix_rank_2k_update(A, B, C, t)`. -/
theorem C68_syr2k [Add α] [Mul α] (A B : MatV α) (C : Mat) (t : Triangle) (hC : C.rows = C.cols)
    (h : Heap α) :
    Performs (Steps.syr2k A B C t) h (5 * ((pairs C.cols + C.cols) * A.cols))
      ((pairs C.cols + C.cols) * A.cols) := by
  refine Task.Costs.performs ?_ h
  unfold Steps.syr2k Steps.triangleLoop
  cases t <;> count hC

/-- **C68** `hermitian_matrix_rank_1_update(alpha, x, A, t)`. -/
theorem C68_her_alpha [Add α] [Mul α] [ConjOps α] (alpha : α) (x : VecV α) (A : Mat) (t : Triangle) (hA : A.rows = A.cols)
    (h : Heap α) :
    Performs (Steps.herAlpha alpha x A t) h (A.cols + 3 * (pairs A.cols + A.cols))
      (A.cols + (pairs A.cols + A.cols)) := by
  refine Task.Costs.performs ?_ h
  unfold Steps.herAlpha Steps.triangleLoop Steps.makeDiagReal
  cases t <;> count hA

/-- **C68** `hermitian_matrix_rank_1_update(x, A, t)`. -/
theorem C68_her [Add α] [Mul α] [ConjOps α] (x : VecV α) (A : Mat) (t : Triangle) (hA : A.rows = A.cols)
    (h : Heap α) :
    Performs (Steps.her x A t) h (A.cols + 3 * (pairs A.cols + A.cols))
      (A.cols + (pairs A.cols + A.cols)) := by
  refine Task.Costs.performs ?_ h
  unfold Steps.her Steps.triangleLoop Steps.makeDiagReal
  cases t <;> count hA

/-- **C68** `hermitian_matrix_rank_2_update(x, y, A, t)`. -/
theorem C68_her2 [Add α] [Mul α] [ConjOps α] (x y : VecV α) (A : Mat) (t : Triangle) (hA : A.rows = A.cols)
    (h : Heap α) :
    Performs (Steps.her2 x y A t) h (A.cols + 5 * (pairs A.cols + A.cols))
      (A.cols + (pairs A.cols + A.cols)) := by
  refine Task.Costs.performs ?_ h
  unfold Steps.her2 Steps.triangleLoop Steps.makeDiagReal
  cases t <;> count hA

/-- **C68** `hermitian_matrix_rank_k_update(alpha, A, C, t)`. -/
theorem C68_herk_alpha [Add α] [Mul α] [ConjOps α] (alpha : α) (A : MatV α) (C : Mat) (t : Triangle) (hC : C.rows = C.cols)
    (h : Heap α) :
    Performs (Steps.herkAlpha alpha A C t) h (C.cols + 3 * ((pairs C.cols + C.cols) * A.cols))
      (C.cols + (pairs C.cols + C.cols) * A.cols) := by
  refine Task.Costs.performs ?_ h
  unfold Steps.herkAlpha Steps.triangleLoop Steps.makeDiagReal
  cases t <;> count hC

/-- **C68** `hermitian_matrix_rank_k_update(A, C, t)`. -/
theorem C68_herk [Add α] [Mul α] [ConjOps α] (A : MatV α) (C : Mat) (t : Triangle) (hC : C.rows = C.cols)
    (h : Heap α) :
    Performs (Steps.herk A C t) h (C.cols + 3 * ((pairs C.cols + C.cols) * A.cols))
      (C.cols + (pairs C.cols + C.cols) * A.cols) := by
  refine Task.Costs.performs ?_ h
  unfold Steps.herk Steps.triangleLoop Steps.makeDiagReal
  cases t <;> count hC

/-- **C68** `hermitian_matrix_rank_2k_update(A, B, C, t)`. -/
theorem C68_her2k [Add α] [Mul α] [ConjOps α] (A B : MatV α) (C : Mat) (t : Triangle) (hC : C.rows = C.cols)
    (h : Heap α) :
    Performs (Steps.her2k A B C t) h (C.cols + 5 * ((pairs C.cols + C.cols) * A.cols))
      (C.cols + (pairs C.cols + C.cols) * A.cols) := by
  refine Task.Costs.performs ?_ h
  unfold Steps.her2k Steps.triangleLoop Steps.makeDiagReal
  cases t <;> count hC

/-- **C68** `matrix_product(A, B, C)`. -/
theorem C68_gemm [Add α] [Mul α] [Zero α] (A B : MatV α) (C : Mat)
    (h : Heap α) :
    Performs (Steps.gemm A B C) h (3 * (C.rows * C.cols * A.cols))
      (C.rows * C.cols + C.rows * C.cols * A.cols) := by
  refine Task.Costs.performs ?_ h
  unfold Steps.gemm
  count if_true

/-- **C68** `matrix_product(A, B, E, C)`. -/
theorem C68_gemm_update [Add α] [Mul α] (A B E : MatV α) (C : Mat)
    (h : Heap α) :
    Performs (Steps.gemmUpdate A B E C) h (C.rows * C.cols + 3 * (C.rows * C.cols * A.cols))
      (C.rows * C.cols + C.rows * C.cols * A.cols) := by
  refine Task.Costs.performs ?_ h
  unfold Steps.gemmUpdate
  count if_true

/-- **C68** `triangular_matrix_product(A, t, d, B, C)`. -/
theorem C68_trmm_left [Add α] [Mul α] [Zero α] (A : MatV α) (t : Triangle) (d : Diag) (B : MatV α) (C : Mat)
    (h : Heap α) :
    Performs (Steps.trmmLeft A t d B C) h (C.cols * ((if d = .explicit then 3 else 2) * C.rows + 3 * pairs C.rows))
      (C.cols * (2 * C.rows + pairs C.rows)) := by
  refine Task.Costs.performs ?_ h
  unfold Steps.trmmLeft
  cases t <;> cases d <;> simp only [reduceCtorEq, if_true, if_false]
  all_goals count if_true

/-- **C68** `triangular_matrix_product(B, A, t, d, C)`. -/
theorem C68_trmm_right [Add α] [Mul α] [Zero α] (B : MatV α) (A : MatV α) (t : Triangle) (d : Diag) (C : Mat)
    (h : Heap α) :
    Performs (Steps.trmmRight B A t d C) h (C.rows * ((if d = .explicit then 3 else 2) * C.cols + 3 * pairs C.cols))
      (C.rows * (2 * C.cols + pairs C.cols)) := by
  refine Task.Costs.performs ?_ h
  unfold Steps.trmmRight
  cases t <;> cases d <;> simp only [reduceCtorEq, if_true, if_false]
  all_goals count if_true

/-- **C68** `triangular_matrix_left_product(A, t, d, C)`. -/
theorem C68_trmm_left_in_place [Add α] [Mul α] (A : MatV α) (t : Triangle) (d : Diag) (C : Mat)
    (h : Heap α) :
    Performs (Steps.trmmLeftInPlace A t d C) h (C.cols * ((if d = .explicit then 2 * C.rows else 0) + 3 * pairs C.rows))
      (C.cols * ((if d = .explicit then C.rows else 0) + pairs C.rows)) := by
  refine Task.Costs.performs ?_ h
  unfold Steps.trmmLeftInPlace
  cases t <;> cases d <;> simp only [reduceCtorEq, if_true, if_false]
  all_goals count if_true

/-- **C68** `triangular_matrix_right_product(A, t, d, C)`. -/
theorem C68_trmm_right_in_place [Add α] [Mul α] (A : MatV α) (t : Triangle) (d : Diag) (C : Mat)
    (h : Heap α) :
    Performs (Steps.trmmRightInPlace A t d C) h (C.rows * ((if d = .explicit then 2 * C.cols else 0) + 3 * pairs C.cols))
      (C.rows * ((if d = .explicit then C.cols else 0) + pairs C.cols)) := by
  refine Task.Costs.performs ?_ h
  unfold Steps.trmmRightInPlace
  cases t <;> cases d <;> simp only [reduceCtorEq, if_true, if_false]
  all_goals count if_true

/-- **C68** `symmetric_matrix_product(A, t, B, C)`. -/
theorem C68_symm_left [Add α] [Mul α] [Zero α] (A : MatV α) (t : Triangle) (B : MatV α) (C : Mat)
    (h : Heap α) :
    Performs (Steps.symmLeft A t B C) h (3 * (C.rows * C.cols * A.cols))
      (C.rows * C.cols + C.rows * C.cols * A.cols) := by
  refine Task.Costs.performs ?_ h
  unfold Steps.symmLeft
  cases t <;> count if_true

/-- **C68** `symmetric_matrix_product(B, A, t, C)`. -/
theorem C68_symm_right [Add α] [Mul α] [Zero α] (B : MatV α) (A : MatV α) (t : Triangle) (C : Mat)
    (h : Heap α) :
    Performs (Steps.symmRight B A t C) h (3 * (C.rows * C.cols * A.cols))
      (C.rows * C.cols + C.rows * C.cols * A.cols) := by
  refine Task.Costs.performs ?_ h
  unfold Steps.symmRight
  cases t <;> count if_true

/-- **C68** `hermitian_matrix_product(A, t, B, C)`. -/
theorem C68_hemm_left [Add α] [Mul α] [Zero α] [ConjOps α] (A : MatV α) (t : Triangle) (B : MatV α) (C : Mat) (hA : A.rows = A.cols) (hC : C.rows = A.cols)
    (h : Heap α) :
    Performs (Steps.hemmLeft A t B C) h (3 * (C.rows * C.cols * A.cols))
      (C.rows * C.cols + C.rows * C.cols * A.cols) := by
  refine Task.Costs.performs ?_ h
  unfold Steps.hemmLeft
  have two := two_pairs A.cols
  cases t
  all_goals (
    apply Task.Costs.congr
    · costs
    all_goals (
      simp only [hA, hC, Finset.sum_const, Finset.card_range, smul_eq_mul, Nat.sub_zero, Nat.zero_add,
        Nat.mul_one, mul_add, Finset.sum_add_distrib,
        sum_range_pairs, sum_range_pairs_down]
      generalize pairs A.cols = p at two
      nlinarith))

/-- **C68** `hermitian_matrix_product(B, A, t, C)`. -/
theorem C68_hemm_right [Add α] [Mul α] [Zero α] [ConjOps α] (B : MatV α) (A : MatV α) (t : Triangle) (C : Mat)
    (h : Heap α) :
    Performs (Steps.hemmRight B A t C) h (3 * (C.rows * C.cols * A.cols))
      (C.rows * C.cols + C.rows * C.cols * A.cols) := by
  refine Task.Costs.performs ?_ h
  unfold Steps.hemmRight
  cases t <;> count if_true

/-- **C68** `triangular_matrix_matrix_left_solve(A, t, d, B, X)`. -/
theorem C68_trsm_left [Sub α] [Mul α] [Div α] (A : MatV α) (t : Triangle) (d : Diag) (B : MatV α) (X : Mat)
    (h : Heap α) :
    Performs (Steps.trsmLeft A t d B X) h (B.cols * ((if d = .explicit then 2 else 1) * A.rows + 2 * pairs A.rows))
      (B.cols * A.rows) := by
  refine Task.Costs.performs ?_ h
  unfold Steps.trsmLeft Steps.trsmLowerLeft Steps.trsmUpperLeft
  cases t <;> cases d <;> simp only [reduceCtorEq, if_true, if_false]
  all_goals count if_true

/-- **C68** `triangular_matrix_matrix_right_solve(A, t, d, B, X)`. -/
theorem C68_trsm_right [Sub α] [Mul α] [Div α] (A : MatV α) (t : Triangle) (d : Diag) (B : MatV α) (X : Mat) (hA : A.rows = A.cols)
    (h : Heap α) :
    Performs (Steps.trsmRight A t d B X) h (B.rows * ((if d = .explicit then 2 else 1) * A.cols + 2 * pairs A.cols))
      (B.rows * A.cols) := by
  refine Task.Costs.performs ?_ h
  unfold Steps.trsmRight Steps.trsmLowerRight Steps.trsmUpperRight
  cases t <;> cases d <;> simp only [reduceCtorEq, if_true, if_false]
  all_goals count hA

/-! ## Reductions -/

section
variable [Zero R] [One R] [Add R] [Mul R] [Div R] [FloatOps R] [MagOps α R]

omit [One R] [Mul R] [Div R] [FloatOps R] [Zero R] in
/-- **C68** `vector_abs_sum(v, init)`: one read per element, two for complex elements. -/
theorem C68_vector_abs_sum (v : VecV α) (init : R) (h : Heap α) :
    Performs (Steps.vectorAbsSumOf v init) h ((if MagOps.isArith α R then 1 else 2) * v.ext) 0 := by
  refine Task.Costs.performs ?_ h
  unfold Steps.vectorAbsSumOf
  by_cases c : MagOps.isArith α R = true <;> simp only [c, if_true, if_false, Bool.false_eq_true] <;>
    count if_true

theorem vectorSumOfSquaresOf_costs (x : VecV α) (init : SumOfSquaresOf R) :
    (Steps.vectorSumOfSquaresOf x init).CostsLe (x.ext * 2) (x.ext * 0) := by
  unfold Steps.vectorSumOfSquaresOf
  split
  · exact .done _ _ _
  · have h := Task.CostsLe.foldEach (l := List.range' 0 x.ext) (s := init) (r := 2) (w := 0)
      (body := fun s i => do
        let v ← x.rd i
        if FloatOps.ne (MagOps.abs v : R) 0 then
          let v ← x.rd i
          let absxi : R := MagOps.abs v
          if FloatOps.lt s.scalingFactor absxi then
            let quotient := s.scalingFactor / absxi
            pure ⟨absxi, 1 + s.scaledSumOfSquares * quotient * quotient⟩
          else
            let quotient := absxi / s.scalingFactor
            pure ⟨s.scalingFactor, s.scaledSumOfSquares + quotient * quotient⟩
        else pure s)
      fun s i => by
        refine Task.CostsLe.bind (r := 1) (r' := 1) (w := 0) (w' := 0)
          ((VecV.rd_costs x i).le le_rfl le_rfl) fun v => ?_
        split
        · refine Task.CostsLe.bind (r := 1) (r' := 0) (w := 0) (w' := 0)
            ((VecV.rd_costs x i).le le_rfl le_rfl) fun v => ?_
          dsimp only
          split <;> exact .done _ _ _
        · exact .done _ _ _
    rwa [List.length_range'] at h

/-- **C68** `vector_sum_of_squares(x, init)`: at most two reads per element (an element that is zero is
read once). -/
theorem C68_vector_sum_of_squares (x : VecV α) (init : SumOfSquaresOf R) (h : Heap α) :
    (Steps.vectorSumOfSquaresOf x init).reads h ≤ 2 * x.ext ∧
      (Steps.vectorSumOfSquaresOf x init).writes h = 0 := by
  have := (vectorSumOfSquaresOf_costs x init).bound h
  omega

/-- **C68** `vector_two_norm(x, init)`: at most two reads per element. -/
theorem C68_vector_two_norm (x : VecV α) (init : R) (h : Heap α) :
    (Steps.vectorTwoNormOf x init).reads h ≤ 2 * x.ext ∧
      (Steps.vectorTwoNormOf x init).writes h = 0 := by
  have := ((vectorSumOfSquaresOf_costs x (⟨0, 1⟩ : SumOfSquaresOf R)).bind
    (r' := 0) (w' := 0) (f := fun r => pure (init + r.scalingFactor * FloatOps.sqrt r.scaledSumOfSquares))
    fun _ => .done _ _ _).bound h
  unfold Steps.vectorTwoNormOf
  omega

omit [Zero R] [One R] [Mul R] [Div R] in
theorem vectorIdxAbsMaxOf_costs (sizeMax : Nat) (v : VecV α) :
    (Steps.vectorIdxAbsMaxOf R sizeMax v).CostsLe (v.ext * 2) 0 := by
  unfold Steps.vectorIdxAbsMaxOf
  split
  · exact .done _ _ _
  · rename_i h0
    split
    · refine Task.CostsLe.mono (Task.CostsLe.bind (r := 1) (w := 0) (w' := 0)
        (r' := (v.ext - 1) * 2 + 0) ((VecV.rd_costs v 0).le le_rfl le_rfl) fun a => ?_)
        (by omega) le_rfl
      refine Task.CostsLe.bind (w := 0) (w' := 0) ?_ fun r => .done _ _ _
      rw [show (v.ext - 1) * 2 = (List.range' 1 (v.ext - 1)).length * 2 by rw [List.length_range'],
        show 0 = (List.range' 1 (v.ext - 1)).length * 0 from (Nat.mul_zero _).symm]
      refine Task.CostsLe.foldEach fun s i => ?_
      refine Task.CostsLe.bind (r := 1) (r' := 1) (w := 0) (w' := 0)
        ((VecV.rd_costs v i).le le_rfl le_rfl) fun b => ?_
      split
      · exact Task.CostsLe.bind (r := 1) (r' := 0) (w := 0) (w' := 0)
          ((VecV.rd_costs v i).le le_rfl le_rfl) fun _ => .done _ _ _
      · exact .done _ _ _
    · refine Task.CostsLe.mono (Task.CostsLe.bind (r := 1) (w := 0) (w' := 0)
        (r' := 1 + ((v.ext - 1) * 2 + 0)) ((VecV.rd_costs v 0).le le_rfl le_rfl) fun a => ?_)
        (by omega) le_rfl
      refine Task.CostsLe.bind (w := 0) (w' := 0) ((VecV.rd_costs v 0).le le_rfl le_rfl) fun b => ?_
      refine Task.CostsLe.bind (w := 0) (w' := 0) ?_ fun r => .done _ _ _
      rw [show (v.ext - 1) * 2 = (List.range' 1 (v.ext - 1)).length * 2 by rw [List.length_range'],
        show 0 = (List.range' 1 (v.ext - 1)).length * 0 from (Nat.mul_zero _).symm]
      refine Task.CostsLe.foldEach fun s i => ?_
      refine Task.CostsLe.bind (r := 1) (r' := 1) (w := 0) (w' := 0)
        ((VecV.rd_costs v i).le le_rfl le_rfl) fun b => ?_
      refine Task.CostsLe.bind (r := 1) (r' := 0) (w := 0) (w' := 0)
        ((VecV.rd_costs v i).le le_rfl le_rfl) fun b => ?_
      dsimp only
      split <;> exact .done _ _ _

omit [Zero R] [One R] [Mul R] [Div R] in
/-- **C68** `vector_idx_abs_max(v)`: at most two reads per element. -/
theorem C68_vector_idx_abs_max (sizeMax : Nat) (v : VecV α) (h : Heap α) :
    (Steps.vectorIdxAbsMaxOf R sizeMax v).reads h ≤ 2 * v.ext ∧
      (Steps.vectorIdxAbsMaxOf R sizeMax v).writes h = 0 := by
  have := (vectorIdxAbsMaxOf_costs (R := R) sizeMax v).bound h
  omega

/-- **C68** `matrix_frob_norm(A, init)`: each element is read once. -/
theorem C68_matrix_frob_norm (A : MatV α) (init : R) (h : Heap α) :
    Performs (Steps.matrixFrobNormOf A init) h (A.rows * A.cols) 0 := by
  refine Task.Costs.performs ?_ h
  unfold Steps.matrixFrobNormOf
  split
  · rename_i c
    rw [show A.rows * A.cols = 0 by rcases c with c | c <;> simp [c]]
    exact .done _
  · split
    · rename_i c
      rw [c.1, c.2]
      exact (MatV.rd_costs A 0 0).bind fun _ => .done _
    · count if_true

omit [One R] [Mul R] [Div R] [Zero R] in
/-- **C68** `matrix_one_norm(A, init)`: each element is read once. -/
theorem C68_matrix_one_norm (A : MatV α) (init : R) (h : Heap α) :
    Performs (Steps.matrixOneNormOf A init) h (A.rows * A.cols) 0 := by
  refine Task.Costs.performs ?_ h
  unfold Steps.matrixOneNormOf
  split
  · rename_i c
    rw [show A.rows * A.cols = 0 by rcases c with c | c <;> simp [c]]
    exact .done _
  · split
    · rename_i c
      rw [c.1, c.2]
      exact (MatV.rd_costs A 0 0).bind fun _ => .done _
    · count if_true

omit [One R] [Mul R] [Div R] [Zero R] in
/-- **C68** `matrix_inf_norm(A, init)`: each element is read once. -/
theorem C68_matrix_inf_norm (A : MatV α) (init : R) (h : Heap α) :
    Performs (Steps.matrixInfNormOf A init) h (A.rows * A.cols) 0 := by
  refine Task.Costs.performs ?_ h
  unfold Steps.matrixInfNormOf
  split
  · rename_i c
    rw [show A.rows * A.cols = 0 by rcases c with c | c <;> simp [c]]
    exact .done _
  · split
    · rename_i c
      rw [c.1, c.2]
      exact (MatV.rd_costs A 0 0).bind fun _ => .done _
    · count if_true

end

/-! ## All algorithms -/

theorem Task.trace_length {β : Type} (p : Task α β) (h : Heap α) :
    (p.trace h).length = p.reads h + p.writes h := by
  unfold Task.reads Task.writes
  rw [List.length_eq_countP_add_countP (p := Access.isRead)]
  congr 2
  funext a
  cases a <;> rfl

theorem Task.into_length {β : Type} (p : Task α β) (f : β → α) (out : Nat) (h : Heap α) :
    ((p.into f out).trace h).length ≤ (p.trace h).length + 1 := by
  unfold Task.into
  change ((p.bind _).trace h).length ≤ _
  induction p generalizing h with
  | done b =>
    simp only [Task.bind, Task.trace]
    cases h out <;> simp
  | fail e => simp [Task.bind, Task.trace]
  | load a k ih =>
    simp only [Task.bind, Task.trace]
    cases h a with
    | none => simp
    | some v => simpa using ih v h
  | store a v k ih =>
    simp only [Task.bind, Task.trace]
    cases h a with
    | none => simp
    | some u => simpa using ih (Function.update h a (some v))

theorem Performs.length {β : Type} {p : Task α β} {h : Heap α} {r w : Nat} (hp : Performs p h r w) :
    (p.trace h).length ≤ r + w := by
  rw [Task.trace_length]
  exact Nat.add_le_add hp.reads_le hp.writes_le

section
variable [Add α] [Sub α] [Mul α] [Div α] [Zero α] [ConjOps α]
  [Zero R] [One R] [Add R] [Mul R] [Div R] [FloatOps R] [MagOps α R]

/-- **C68** Every algorithm makes at most six accesses for each unit of the work it is meant to be
linear in (`Call.work`: the number of elements of the vector or matrix, or for products of matrices
the number of elements of the result times the length of the sums), whatever the memory contains, also
if arguments overlap, and also if an argument is too small, so that the call is undefined. -/
theorem C68_linear (c : Call α R) (hc : c.Square) (h : Heap α) :
    (c.steps.trace h).length ≤ 6 * c.work := by
  cases c with
  | scale1 alpha x => have := (C68_scale_vector alpha x h).length; simp only [Call.work, Call.steps]; omega
  | scale2 alpha A => have := (C68_scale_matrix alpha A h).length; simp only [Call.work, Call.steps]; omega
  | copy1 x y => have := (C68_copy_vector x y h).length; simp only [Call.work, Call.steps]; omega
  | copy2 x y => have := (C68_copy_matrix x y h).length; simp only [Call.work, Call.steps]; omega
  | swap1 x y => have := (C68_swap_vector x y h).length; simp only [Call.work, Call.steps]; omega
  | swap2 x y => have := (C68_swap_matrix x y h).length; simp only [Call.work, Call.steps]; omega
  | add1 x y z => have := (C68_add_vector x y z h).length; simp only [Call.work, Call.steps]; omega
  | add2 x y z => have := (C68_add_matrix x y z h).length; simp only [Call.work, Call.steps]; omega
  | givens x y c s => have := (C68_apply_givens x y c s h).length; simp only [Call.work, Call.steps]; omega
  | givensC x y c s =>
    have := (C68_apply_givens_complex x y c s h).length; simp only [Call.work, Call.steps]; omega
  | dot v1 v2 init f out =>
    have := (C68_dot v1 v2 init h).length
    have := Task.into_length (Steps.dot v1 v2 init) f out h
    simp only [Call.work, Call.steps]; omega
  | dotc v1 v2 init f out =>
    have := (C68_dotc v1 v2 init h).length
    have := Task.into_length (Steps.dotc v1 v2 init) f out h
    simp only [Call.work, Call.steps]; omega
  | sumOfSquares x init f out =>
    have := C68_vector_sum_of_squares x init h
    have := Task.into_length (Steps.vectorSumOfSquaresOf x init) f out h
    rw [Task.trace_length (Steps.vectorSumOfSquaresOf x init)] at this
    simp only [Call.work, Call.steps]; omega
  | twoNorm x init f out =>
    have := C68_vector_two_norm x init h
    have := Task.into_length (Steps.vectorTwoNormOf x init) f out h
    rw [Task.trace_length (Steps.vectorTwoNormOf x init)] at this
    simp only [Call.work, Call.steps]; omega
  | absSum x init f out =>
    have l := (C68_vector_abs_sum x init h).length
    have := Task.into_length (Steps.vectorAbsSumOf x init) f out h
    simp only [Call.work, Call.steps]
    split at l <;> omega
  | idxAbsMax sizeMax x f out =>
    have := C68_vector_idx_abs_max (R := R) sizeMax x h
    have := Task.into_length (Steps.vectorIdxAbsMaxOf R sizeMax x) f out h
    rw [Task.trace_length (Steps.vectorIdxAbsMaxOf R sizeMax x)] at this
    simp only [Call.work, Call.steps]; omega
  | frobNorm A init f out =>
    have := (C68_matrix_frob_norm A init h).length
    have := Task.into_length (Steps.matrixFrobNormOf A init) f out h
    simp only [Call.work, Call.steps]; omega
  | oneNorm A init f out =>
    have := (C68_matrix_one_norm A init h).length
    have := Task.into_length (Steps.matrixOneNormOf A init) f out h
    simp only [Call.work, Call.steps]; omega
  | infNorm A init f out =>
    have := (C68_matrix_inf_norm A init h).length
    have := Task.into_length (Steps.matrixInfNormOf A init) f out h
    simp only [Call.work, Call.steps]; omega
  | gemv A x y =>
    have := (C68_gemv A x y h).length
    simp only [Call.work, Call.steps]; rw [Nat.mul_add]; omega
  | gemvUpdate A x y z =>
    have := (C68_gemv_update A x y z h).length
    simp only [Call.work, Call.steps]; rw [Nat.mul_add]; omega
  | symv A t x y =>
    have e : A.rows = A.cols := hc
    have l := (C68_symv A t x y e h).length
    have two := two_pairs A.cols
    simp only [Call.work, Call.steps, e, Nat.mul_add]
    omega
  | symvUpdate A t x y z =>
    have e : A.rows = A.cols := hc
    have l := (C68_symv_update A t x y z e h).length
    have two := two_pairs A.cols
    simp only [Call.work, Call.steps, e, Nat.mul_add]
    omega
  | hemv A t x y =>
    have e : A.rows = A.cols := hc
    have l := (C68_hemv A t x y e h).length
    have two := two_pairs A.cols
    simp only [Call.work, Call.steps, e, Nat.mul_add]
    omega
  | hemvUpdate A t x y z =>
    have e : A.rows = A.cols := hc
    have l := (C68_hemv_update A t x y z e h).length
    have two := two_pairs A.cols
    simp only [Call.work, Call.steps, e, Nat.mul_add]
    omega
  | trmv A t d x y =>
    have e : A.rows = A.cols := hc
    have l := (C68_trmv A t d x y e h).length
    have two := two_pairs A.cols
    simp only [Call.work, Call.steps, e, Nat.mul_add]
    cases d <;> simp only [reduceCtorEq, if_true, if_false] at l <;> omega
  | trmvUpdate A t d x y z =>
    have e : A.rows = A.cols := hc
    have l := (C68_trmv_update A t d x y z e h).length
    have two := two_pairs A.cols
    simp only [Call.work, Call.steps, e, Nat.mul_add]
    cases d <;> simp only [reduceCtorEq, if_true, if_false] at l <;> omega
  | trmvInPlace A t d y =>
    have e : A.rows = A.cols := hc
    have l := (C68_trmv_in_place A t d y e h).length
    have two := two_pairs A.cols
    simp only [Call.work, Call.steps, e, Nat.mul_add]
    cases d <;> simp only [reduceCtorEq, if_true, if_false] at l <;> omega
  | trsv divide A t d b x =>
    have e : A.rows = A.cols := hc
    have l := (C68_trsv divide A t d b x e h).length
    have two := two_pairs A.cols
    simp only [Call.work, Call.steps, e, Nat.mul_add]
    cases d <;> simp only [reduceCtorEq, if_true, if_false] at l <;> omega
  | ger x y A => have := (C68_ger x y A h).length; simp only [Call.work, Call.steps]; omega
  | gerc x y A => have := (C68_gerc x y A h).length; simp only [Call.work, Call.steps]; omega
  | syrAlpha alpha x A t =>
    have e : A.rows = A.cols := hc
    have l := (C68_syr_alpha alpha x A t e h).length
    have two := two_pairs A.cols
    simp only [Call.work, Call.steps, e]
    omega
  | syr x A t =>
    have e : A.rows = A.cols := hc
    have l := (C68_syr x A t e h).length
    have two := two_pairs A.cols
    simp only [Call.work, Call.steps, e]
    omega
  | syr2 x y A t =>
    have e : A.rows = A.cols := hc
    have l := (C68_syr2 x y A t e h).length
    have two := two_pairs A.cols
    simp only [Call.work, Call.steps, e]
    omega
  | herAlpha alpha x A t =>
    have e : A.rows = A.cols := hc
    have l := (C68_her_alpha alpha x A t e h).length
    have two := two_pairs A.cols
    simp only [Call.work, Call.steps, e, Nat.mul_add]
    omega
  | her x A t =>
    have e : A.rows = A.cols := hc
    have l := (C68_her x A t e h).length
    have two := two_pairs A.cols
    simp only [Call.work, Call.steps, e, Nat.mul_add]
    omega
  | her2 x y A t =>
    have e : A.rows = A.cols := hc
    have l := (C68_her2 x y A t e h).length
    have two := two_pairs A.cols
    simp only [Call.work, Call.steps, e, Nat.mul_add]
    omega
  | syrkAlpha alpha A C t =>
    have e : C.rows = C.cols := hc
    have l := (C68_syrk_alpha alpha A C t e h).length
    have two := two_pairs C.cols
    have two' := congrArg (· * A.cols) two
    simp only [Call.work, Call.steps, e, Nat.mul_add, Nat.add_mul] at two' ⊢ l
    nlinarith
  | syrk A C t =>
    have e : C.rows = C.cols := hc
    have l := (C68_syrk A C t e h).length
    have two := two_pairs C.cols
    have two' := congrArg (· * A.cols) two
    simp only [Call.work, Call.steps, e, Nat.mul_add, Nat.add_mul] at two' ⊢ l
    nlinarith
  | syr2k A B C t =>
    have e : C.rows = C.cols := hc
    have l := (C68_syr2k A B C t e h).length
    have two := two_pairs C.cols
    have two' := congrArg (· * A.cols) two
    simp only [Call.work, Call.steps, e, Nat.mul_add, Nat.add_mul] at two' ⊢ l
    nlinarith
  | herkAlpha alpha A C t =>
    have e : C.rows = C.cols := hc
    have l := (C68_herk_alpha alpha A C t e h).length
    have two := two_pairs C.cols
    have two' := congrArg (· * A.cols) two
    simp only [Call.work, Call.steps, e, Nat.mul_add, Nat.add_mul] at two' ⊢ l
    nlinarith
  | herk A C t =>
    have e : C.rows = C.cols := hc
    have l := (C68_herk A C t e h).length
    have two := two_pairs C.cols
    have two' := congrArg (· * A.cols) two
    simp only [Call.work, Call.steps, e, Nat.mul_add, Nat.add_mul] at two' ⊢ l
    nlinarith
  | her2k A B C t =>
    have e : C.rows = C.cols := hc
    have l := (C68_her2k A B C t e h).length
    have two := two_pairs C.cols
    have two' := congrArg (· * A.cols) two
    simp only [Call.work, Call.steps, e, Nat.mul_add, Nat.add_mul] at two' ⊢ l
    nlinarith
  | gemm A B C =>
    have := (C68_gemm A B C h).length
    simp only [Call.work, Call.steps]; rw [Nat.mul_add]; omega
  | gemmUpdate A B E C =>
    have := (C68_gemm_update A B E C h).length
    simp only [Call.work, Call.steps]; rw [Nat.mul_add]; omega
  | trmmLeft A t d B C =>
    have e : C.rows = A.cols := hc.2
    have l := (C68_trmm_left A t d B C h).length
    have two := congrArg (C.cols * ·) (two_pairs C.rows)
    simp only [Call.work, Call.steps, ← e, Nat.mul_add] at two ⊢
    cases d <;> simp only [reduceCtorEq, if_true, if_false] at l <;> nlinarith
  | trmmRight B A t d C =>
    have e : C.cols = A.rows := hc.2
    have l := (C68_trmm_right B A t d C h).length
    have two := congrArg (C.rows * ·) (two_pairs C.cols)
    simp only [Call.work, Call.steps, ← e, Nat.mul_add] at two ⊢
    cases d <;> simp only [reduceCtorEq, if_true, if_false] at l <;> nlinarith
  | trmmLeftInPlace A t d C =>
    have e : C.rows = A.cols := hc.2
    have l := (C68_trmm_left_in_place A t d C h).length
    have two := congrArg (C.cols * ·) (two_pairs C.rows)
    simp only [Call.work, Call.steps, ← e, Nat.mul_add] at two ⊢
    cases d <;> simp only [reduceCtorEq, if_true, if_false] at l <;> nlinarith
  | trmmRightInPlace A t d C =>
    have e : C.cols = A.rows := hc.2
    have l := (C68_trmm_right_in_place A t d C h).length
    have two := congrArg (C.rows * ·) (two_pairs C.cols)
    simp only [Call.work, Call.steps, ← e, Nat.mul_add] at two ⊢
    cases d <;> simp only [reduceCtorEq, if_true, if_false] at l <;> nlinarith
  | symmLeft A t B C =>
    have l := (C68_symm_left A t B C h).length
    have e : A.rows = A.cols := hc.1
    simp only [Call.work, Call.steps, Nat.mul_add]; omega
  | symmRight B A t C =>
    have l := (C68_symm_right B A t C h).length
    have e : A.rows = A.cols := hc.1
    simp only [Call.work, Call.steps, e, Nat.mul_add]; omega
  | hemmLeft A t B C =>
    have l := (C68_hemm_left A t B C hc.1 hc.2 h).length
    have e : A.rows = A.cols := hc.1
    simp only [Call.work, Call.steps, Nat.mul_add]; omega
  | hemmRight B A t C =>
    have l := (C68_hemm_right B A t C h).length
    have e : A.rows = A.cols := hc.1
    simp only [Call.work, Call.steps, e, Nat.mul_add]; omega
  | trsm A t d side B X =>
    have e : A.rows = A.cols := hc
    cases side with
    | left =>
      have l := (C68_trsm_left A t d B X h).length
      have two := congrArg (B.cols * ·) (two_pairs A.rows)
      simp only [Call.work, Call.steps, Steps.trsm, Nat.mul_add, if_true] at two ⊢
      cases d <;> simp only [reduceCtorEq, if_true, if_false] at l <;> nlinarith
    | right =>
      have l := (C68_trsm_right A t d B X e h).length
      have two := congrArg (B.rows * ·) (two_pairs A.cols)
      simp only [Call.work, Call.steps, Steps.trsm, Nat.mul_add, reduceCtorEq, if_false, e] at two ⊢
      cases d <;> simp only [reduceCtorEq, if_true, if_false] at l <;> nlinarith

end

section
open Witness

example : (Call.trsm (A.view : MatV ℝ) .upper .explicit .left B.view C : Call ℝ ℝ).Square ∧
    (Call.trsm (A.view : MatV ℝ) .upper .explicit .left B.view C : Call ℝ ℝ).work = 36 :=
  ⟨rfl, rfl⟩

example (t : Triangle) :
    Performs (Steps.symvUpdate (A.view : MatV ℝ) t (x.view : VecV ℝ) (y.view : VecV ℝ) z) (heap ℝ) 27 12 :=
  C68_symv_update _ _ _ _ _ rfl _

example (t : Triangle) :
    Performs (Steps.hemv (A.view : MatV ℝ) t (x.view : VecV ℝ) y) (heap ℝ) 24 12 :=
  C68_hemv _ _ _ _ rfl _

example (t : Triangle) :
    Performs (Steps.hemvUpdate (A.view : MatV ℝ) t (x.view : VecV ℝ) (y.view : VecV ℝ) z) (heap ℝ) 27 12 :=
  C68_hemv_update _ _ _ _ _ rfl _

example (t : Triangle) :
    Performs (Steps.trmv (A.view : MatV ℝ) t .explicit (x.view : VecV ℝ) y) (heap ℝ) 18 9 :=
  C68_trmv _ _ _ _ _ rfl _

example (t : Triangle) :
    Performs (Steps.trmvUpdate (A.view : MatV ℝ) t .explicit (x.view : VecV ℝ) (y.view : VecV ℝ) z) (heap ℝ) 21 9 :=
  C68_trmv_update _ _ _ _ _ _ rfl _

example (t : Triangle) :
    Performs (Steps.trmvInPlace (A.view : MatV ℝ) t .explicit y) (heap ℝ) 15 6 :=
  C68_trmv_in_place _ _ _ _ rfl _

example (t : Triangle) :
    Performs (Steps.trsv (· / ·) (A.view : MatV ℝ) t .explicit (x.view : VecV ℝ) y) (heap ℝ) 12 3 :=
  C68_trsv _ _ _ _ _ _ rfl _

example (t : Triangle) :
    Performs (Steps.syrAlpha (2 : ℝ) (x.view : VecV ℝ) A t) (heap ℝ) 18 6 :=
  C68_syr_alpha _ _ _ _ rfl _

example (t : Triangle) :
    Performs (Steps.syr (x.view : VecV ℝ) A t) (heap ℝ) 18 6 :=
  C68_syr _ _ _ rfl _

example (t : Triangle) :
    Performs (Steps.syr2 (x.view : VecV ℝ) (y.view : VecV ℝ) A t) (heap ℝ) 30 6 :=
  C68_syr2 _ _ _ _ rfl _

example (t : Triangle) :
    Performs (Steps.syrkAlpha (2 : ℝ) (A.view : MatV ℝ) C t) (heap ℝ) 54 18 :=
  C68_syrk_alpha _ _ _ _ rfl _

example (t : Triangle) :
    Performs (Steps.syrk (A.view : MatV ℝ) C t) (heap ℝ) 54 18 :=
  C68_syrk _ _ _ rfl _

example (t : Triangle) :
    Performs (Steps.syr2k (A.view : MatV ℝ) (B.view : MatV ℝ) C t) (heap ℝ) 90 18 :=
  C68_syr2k _ _ _ _ rfl _

example (t : Triangle) :
    Performs (Steps.herAlpha (2 : ℝ) (x.view : VecV ℝ) A t) (heap ℝ) 21 9 :=
  C68_her_alpha _ _ _ _ rfl _

example (t : Triangle) :
    Performs (Steps.her (x.view : VecV ℝ) A t) (heap ℝ) 21 9 :=
  C68_her _ _ _ rfl _

example (t : Triangle) :
    Performs (Steps.her2 (x.view : VecV ℝ) (y.view : VecV ℝ) A t) (heap ℝ) 33 9 :=
  C68_her2 _ _ _ _ rfl _

example (t : Triangle) :
    Performs (Steps.herkAlpha (2 : ℝ) (A.view : MatV ℝ) C t) (heap ℝ) 57 21 :=
  C68_herk_alpha _ _ _ _ rfl _

example (t : Triangle) :
    Performs (Steps.herk (A.view : MatV ℝ) C t) (heap ℝ) 57 21 :=
  C68_herk _ _ _ rfl _

example (t : Triangle) :
    Performs (Steps.her2k (A.view : MatV ℝ) (B.view : MatV ℝ) C t) (heap ℝ) 93 21 :=
  C68_her2k _ _ _ _ rfl _

example (t : Triangle) :
    Performs (Steps.hemmLeft (A.view : MatV ℝ) t (B.view : MatV ℝ) C) (heap ℝ) 81 36 :=
  C68_hemm_left _ _ _ _ rfl rfl _

example (t : Triangle) :
    Performs (Steps.trsmRight (A.view : MatV ℝ) t .explicit (B.view : MatV ℝ) C) (heap ℝ) 36 9 :=
  C68_trsm_right _ _ _ _ _ rfl _

end

end StdBLAS

import Verif.Lemmas.KokkosChecks
import Verif.Props.KokkosWitness
import Verif.Props.KokkosProducts

/-!
# Property C52: what the Kokkos backend does with arguments of wrong sizes

`ThrowsIff p bad`: the call throws an exception if `bad`, whatever memory holds and whatever
the schedule (so before it accesses any element), and otherwise no schedule throws.

`copy` between different layouts, `vector_abs_sum`, `vector_norm2`, `vector_sum_of_squares` and
the matrix norms check nothing; for `copy` and for the `E` of `hermitian_matrix_right_product`
that means that a call with wrong sizes is undefined behaviour instead.
-/

namespace StdBLAS
open Witness
variable {α : Type}

/-- Proves that the code after the checks does not throw. -/
macro "no_throw" : tactic => `(tactic| (
  repeat' (first
    | apply Task.NoThrow.vecRd
    | apply Task.NoThrow.vecWr
    | apply Task.NoThrow.matRd
    | apply Task.NoThrow.matWr
    | apply Task.NoThrow.incr
    | apply Rd.NoThrow.vecLook
    | apply Rd.NoThrow.matLook
    | apply Rd.NoThrow.divLook
    | refine Task.NoThrow.forUp fun _ => ?_
    | refine Task.NoThrow.foldUp (fun _ _ => ?_) _
    | refine Rd.NoThrow.foldUp (fun _ _ => ?_) _
    | refine NeverThrows.forEachMatrixElement fun _ _ => ?_
    | refine NeverThrows.forEachTriangleElement fun _ _ => ?_
    | refine NeverThrows.kkProduct (fun _ _ => ?_) fun _ _ _ => ?_
    | refine parFor_neverThrows fun _ => ?_
    | refine parReduce_neverThrows fun _ _ => ?_
    | refine NeverThrows.forEach fun _ => ?_
    | refine Task.NoThrow.bind ?_ fun _ => ?_
    | refine Rd.NoThrow.bind ?_ fun _ => ?_
    | refine NeverThrows.bind ?_ fun _ => ?_
    | exact Task.NoThrow.pure _
    | exact Rd.NoThrow.pure _
    | exact NeverThrows.pure _
    | split
    | dsimp only)))

/-- The inner loops of the matrix-vector products do not throw. -/
theorem kkSymRow_noThrow [Add α] [Mul α] [Zero α] (c : α → α) (A : Mat) (t : Triangle) (x : Vec)
    (i : Nat) : (kkSymRow c A t x i).NoThrow := by
  unfold kkSymRow
  no_throw

theorem kkTriRow_noThrow [Add α] [Mul α] [Zero α] (A : Mat) (t : Triangle) (d : Diag) (x : Vec)
    (i : Nat) : (kkTriRow A t d x i : Task α α).NoThrow := by
  unfold kkTriRow
  no_throw

theorem kkLeftTerm_noThrow [Mul α] (c : α → α) (t : Triangle) (A B : KMat) (i j k : Nat) :
    (kkLeftTerm c t A B i j k).NoThrow := by
  unfold kkLeftTerm
  no_throw

theorem kkRightTerm_noThrow [Mul α] (c : α → α) (t : Triangle) (A B : KMat) (i j k : Nat) :
    (kkRightTerm c t A B i j k).NoThrow := by
  unfold kkRightTerm
  no_throw

theorem kkCheckSquare_throws (A : KMat) (x y : KVec) :
    ThrowsIff (kkCheckSquare A x y : Sched α Unit)
      (A.rows ≠ A.cols ∨ A.cols ≠ x.ext ∨ A.rows ≠ y.ext) :=
  .require (.require .last)

theorem kkCheckLeft_throws (A B C : KMat) :
    ThrowsIff (kkCheckLeft A B C : Sched α Unit)
      (A.rows ≠ A.cols ∨ A.cols ≠ B.rows ∨ A.rows ≠ C.rows ∨ B.cols ≠ C.cols) :=
  .require (.require (.require .last))

theorem kkCheckRight_throws (A B C : KMat) :
    ThrowsIff (kkCheckRight A B C : Sched α Unit)
      (A.rows ≠ A.cols ∨ B.cols ≠ A.rows ∨ B.rows ≠ C.rows ∨ A.cols ≠ C.cols) :=
  .require (.require (.require .last))

theorem kkCheckLeft_ok {A B C : KMat}
    (ok : ¬ (A.rows ≠ A.cols ∨ A.cols ≠ B.rows ∨ A.rows ≠ C.rows ∨ B.cols ≠ C.cols)) :
    (kkCheckLeft A B C : Sched α Unit) = pure () := by
  simp only [not_or, not_not] at ok
  obtain ⟨h1, h2, h3, h4⟩ := ok
  simp only [kkCheckLeft, require, if_pos h1, if_pos h2, if_pos h3, if_pos h4, sched_pure_bind]

theorem kkCheckRight_ok {A B C : KMat}
    (ok : ¬ (A.rows ≠ A.cols ∨ B.cols ≠ A.rows ∨ B.rows ≠ C.rows ∨ A.cols ≠ C.cols)) :
    (kkCheckRight A B C : Sched α Unit) = pure () := by
  simp only [not_or, not_not] at ok
  obtain ⟨h1, h2, h3, h4⟩ := ok
  simp only [kkCheckRight, require, if_pos h1, if_pos h2, if_pos h3, if_pos h4, sched_pure_bind]

theorem kkCheckE_throws (E C : KMat) :
    ThrowsIff (kkCheckE E C : Sched α Unit) (E.rows ≠ C.rows ∨ E.cols ≠ C.cols) :=
  .require .last


/-- **C52** `swap_elements(exec, x, y)`, vectors -/
theorem C52_swap_vectors (x y : KVec) :
    ThrowsIff (kkSwap1 x y : Sched α Unit)
      (x.ext ≠ y.ext) := by
  unfold kkSwap1
  refine ThrowsIff.congr (.require (.of_never ?_)) (by simp)
  no_throw

example : Throws (kkSwap1 kx ⟨2, 10, 1⟩ : Sched ℤ Unit) := (C52_swap_vectors _ _).1 (by decide)

example (h : Heap ℤ) : ¬ kkSwap1 kx ky h (.error .exn) := (C52_swap_vectors kx ky).2 (by decide) h

/-- **C52** `swap_elements(exec, x, y)`, matrices -/
theorem C52_swap_matrices (x y : KMat) :
    ThrowsIff (kkSwap2 x y : Sched α Unit)
      (x.rows ≠ y.rows ∨ x.cols ≠ y.cols) := by
  unfold kkSwap2
  refine ThrowsIff.congr (.require (.require (.of_never ?_))) (by simp)
  no_throw

example : Throws (kkSwap2 kT kW : Sched ℤ Unit) := (C52_swap_matrices _ _).1 (by decide)

example (h : Heap ℤ) : ¬ kkSwap2 kA kB h (.error .exn) := (C52_swap_matrices kA kB).2 (by decide) h

/-- **C52** `dot(exec, x, y, init)` -/
theorem C52_dot [Add α] [Mul α] [Zero α] (x y : KVec) (init : α) :
    ThrowsIff (kkDot x y init) (x.ext ≠ y.ext) := by
  unfold kkDot
  refine ThrowsIff.congr (.require (.of_never ?_)) (by simp)
  no_throw

example : Throws (kkDot kx ⟨2, 10, 1⟩ (5 : ℤ)) := (C52_dot _ _ _).1 (by decide)

example (h : Heap ℤ) : ¬ kkDot kx ky 5 h (.error .exn) := (C52_dot kx ky 5).2 (by decide) h

/-- **C52** `matrix_vector_product(exec, A, x, y, z)` -/
theorem C52_gemv_update [Add α] [Mul α] [Zero α] (A : KMat) (x y z : KVec) :
    ThrowsIff (kkGemvUpdate A x y z : Sched α Unit)
      (A.cols ≠ x.ext ∨ A.rows ≠ y.ext ∨ A.rows ≠ z.ext) := by
  unfold kkGemvUpdate
  refine ThrowsIff.congr (.require (.require (.require (.of_never ?_)))) (by simp)
  no_throw

example : Throws (kkGemvUpdate kT kx ky kz : Sched ℤ Unit) := (C52_gemv_update _ _ _ _).1 (by decide)

example (h : Heap ℤ) : ¬ kkGemvUpdate kA kx ky kz h (.error .exn) :=
  (C52_gemv_update kA kx ky kz).2 (by decide) h

/-- **C52** `symmetric_matrix_vector_product(exec, A, t, x, y)` -/
theorem C52_symv [Add α] [Mul α] [Zero α] (A : KMat) (t : Triangle) (x y : KVec) :
    ThrowsIff (kkSymv A t x y : Sched α Unit)
      (A.rows ≠ A.cols ∨ A.cols ≠ x.ext ∨ A.rows ≠ y.ext) := by
  unfold kkSymv
  refine .checks (kkCheckSquare_throws A x y) (parFor_neverThrows fun i => ?_)
  exact (kkSymRow_noThrow ..).bind fun _ => .vecWr ..

example : Throws (kkSymv kT .upper kx ky : Sched ℂ Unit) := (C52_symv ..).1 (by decide)

example (h : Heap ℂ) : ¬ kkSymv kA .upper kx ky h (.error .exn) :=
  (C52_symv kA .upper kx ky).2 (by decide) h

/-- **C52** `symmetric_matrix_vector_product(exec, A, t, x, y, z)` -/
theorem C52_symv_update [Add α] [Mul α] [Zero α] (A : KMat) (t : Triangle) (x y z : KVec) :
    ThrowsIff (kkSymvUpdate A t x y z : Sched α Unit)
      (A.rows ≠ A.cols ∨ A.cols ≠ x.ext ∨ A.rows ≠ y.ext ∨ A.rows ≠ z.ext) := by
  unfold kkSymvUpdate kkCheckSquare
  simp only [sched_bind_assoc]
  refine ThrowsIff.congr (.require (.require (.require (.require (.of_never
    (parFor_neverThrows fun i => ?_)))))) (by simp)
  exact (kkSymRow_noThrow ..).bind fun _ => (Task.NoThrow.vecRd ..).bind fun _ => .vecWr ..

example : Throws (kkSymvUpdate kA .upper kx ky ⟨2, 20, 1⟩ : Sched ℂ Unit) :=
  (C52_symv_update ..).1 (by decide)

example (h : Heap ℂ) : ¬ kkSymvUpdate kA .upper kx ky kz h (.error .exn) :=
  (C52_symv_update kA .upper kx ky kz).2 (by decide) h

/-- **C52** `hermitian_matrix_vector_product(exec, A, t, x, y)` -/
theorem C52_hemv [Add α] [Mul α] [Zero α] [ConjOps α] (A : KMat) (t : Triangle) (x y : KVec) :
    ThrowsIff (kkHemv A t x y : Sched α Unit)
      (A.rows ≠ A.cols ∨ A.cols ≠ x.ext ∨ A.rows ≠ y.ext) := by
  unfold kkHemv
  refine .checks (kkCheckSquare_throws A x y) (parFor_neverThrows fun i => ?_)
  exact (kkSymRow_noThrow ..).bind fun _ => .vecWr ..

example : Throws (kkHemv kT .upper kx ky : Sched ℂ Unit) := (C52_hemv ..).1 (by decide)

example (h : Heap ℂ) : ¬ kkHemv kA .upper kx ky h (.error .exn) :=
  (C52_hemv kA .upper kx ky).2 (by decide) h

/-- **C52** `hermitian_matrix_vector_product(exec, A, t, x, y, z)` -/
theorem C52_hemv_update [Add α] [Mul α] [Zero α] [ConjOps α] (A : KMat) (t : Triangle) (x y z : KVec) :
    ThrowsIff (kkHemvUpdate A t x y z : Sched α Unit)
      (A.rows ≠ A.cols ∨ A.cols ≠ x.ext ∨ A.rows ≠ y.ext ∨ A.rows ≠ z.ext) := by
  unfold kkHemvUpdate kkCheckSquare
  simp only [sched_bind_assoc]
  refine ThrowsIff.congr (.require (.require (.require (.require (.of_never
    (parFor_neverThrows fun i => ?_)))))) (by simp)
  exact (kkSymRow_noThrow ..).bind fun _ => (Task.NoThrow.vecRd ..).bind fun _ => .vecWr ..

example : Throws (kkHemvUpdate kA .upper kx ky ⟨2, 20, 1⟩ : Sched ℂ Unit) :=
  (C52_hemv_update ..).1 (by decide)

example (h : Heap ℂ) : ¬ kkHemvUpdate kA .upper kx ky kz h (.error .exn) :=
  (C52_hemv_update kA .upper kx ky kz).2 (by decide) h

/-- **C52** `triangular_matrix_vector_product(exec, A, t, d, x, y)` -/
theorem C52_trmv [Add α] [Mul α] [Zero α] (A : KMat) (t : Triangle) (d : Diag) (x y : KVec) :
    ThrowsIff (kkTrmv A t d x y : Sched α Unit)
      (A.rows ≠ A.cols ∨ A.cols ≠ x.ext ∨ A.rows ≠ y.ext) := by
  unfold kkTrmv
  refine .checks (kkCheckSquare_throws A x y) (parFor_neverThrows fun i => ?_)
  exact (kkTriRow_noThrow ..).bind fun _ => .vecWr ..

example : Throws (kkTrmv kT .upper .explicit kx ky : Sched ℂ Unit) := (C52_trmv ..).1 (by decide)

example (h : Heap ℂ) : ¬ kkTrmv kA .upper .explicit kx ky h (.error .exn) :=
  (C52_trmv kA .upper .explicit kx ky).2 (by decide) h

/-- **C52** `triangular_matrix_vector_product(exec, A, t, d, x, y, z)` -/
theorem C52_trmv_update [Add α] [Mul α] [Zero α] (A : KMat) (t : Triangle) (d : Diag) (x y z : KVec) :
    ThrowsIff (kkTrmvUpdate A t d x y z : Sched α Unit)
      (A.rows ≠ A.cols ∨ A.cols ≠ x.ext ∨ A.rows ≠ y.ext ∨ A.rows ≠ z.ext) := by
  unfold kkTrmvUpdate kkCheckSquare
  simp only [sched_bind_assoc]
  refine ThrowsIff.congr (.require (.require (.require (.require (.of_never
    (parFor_neverThrows fun i => ?_)))))) (by simp)
  exact (kkTriRow_noThrow ..).bind fun _ => (Task.NoThrow.vecRd ..).bind fun _ => .vecWr ..

example : Throws (kkTrmvUpdate kA .upper .explicit kx ky ⟨2, 20, 1⟩ : Sched ℂ Unit) :=
  (C52_trmv_update ..).1 (by decide)

example (h : Heap ℂ) : ¬ kkTrmvUpdate kA .upper .explicit kx ky kz h (.error .exn) :=
  (C52_trmv_update kA .upper .explicit kx ky kz).2 (by decide) h

/-- **C52** `matrix_rank_1_update(exec, x, y, A)` -/
theorem C52_ger [Add α] [Mul α] (x y : KVec) (A : KMat) :
    ThrowsIff (kkGer x y A : Sched α Unit)
      (A.rows ≠ x.ext ∨ A.cols ≠ y.ext) := by
  unfold kkGer
  refine ThrowsIff.congr (.require (.require (.of_never ?_))) (by simp)
  no_throw

example : Throws (kkGer kx ky kT : Sched ℂ Unit) := (C52_ger ..).1 (by decide)

example (h : Heap ℂ) : ¬ kkGer kx ky kA h (.error .exn) := (C52_ger kx ky kA).2 (by decide) h

/-- **C52** `matrix_rank_1_update_c(exec, x, y, A)` -/
theorem C52_gerc [Add α] [Mul α] [ConjOps α] (x y : KVec) (A : KMat) :
    ThrowsIff (kkGerc x y A : Sched α Unit)
      (A.rows ≠ x.ext ∨ A.cols ≠ y.ext) := by
  unfold kkGerc
  refine ThrowsIff.congr (.require (.require (.of_never ?_))) (by simp)
  no_throw

example : Throws (kkGerc kx ky kT : Sched ℂ Unit) := (C52_gerc ..).1 (by decide)

example (h : Heap ℂ) : ¬ kkGerc kx ky kA h (.error .exn) := (C52_gerc kx ky kA).2 (by decide) h

/-- **C52** `symmetric_matrix_rank_1_update(exec, x, A, t)` -/
theorem C52_syr [Add α] [Mul α] (x : KVec) (A : KMat) (t : Triangle) :
    ThrowsIff (kkSyr x A t : Sched α Unit)
      (A.rows ≠ A.cols ∨ A.rows ≠ x.ext) := by
  unfold kkSyr
  refine ThrowsIff.congr (.require (.require (.of_never ?_))) (by simp)
  no_throw

example : Throws (kkSyr kx kT .lower : Sched ℂ Unit) := (C52_syr ..).1 (by decide)

example (h : Heap ℂ) : ¬ kkSyr kx kA .lower h (.error .exn) :=
  (C52_syr kx kA .lower).2 (by decide) h

/-- **C52** `hermitian_matrix_rank_1_update(exec, x, A, t)` -/
theorem C52_her [Add α] [Mul α] [ConjOps α] (x : KVec) (A : KMat) (t : Triangle) :
    ThrowsIff (kkHer x A t : Sched α Unit)
      (A.rows ≠ A.cols ∨ A.rows ≠ x.ext) := by
  unfold kkHer
  refine ThrowsIff.congr (.require (.require (.of_never ?_))) (by simp)
  no_throw

example : Throws (kkHer kx kT .lower : Sched ℂ Unit) := (C52_her ..).1 (by decide)

example (h : Heap ℂ) : ¬ kkHer kx kA .lower h (.error .exn) :=
  (C52_her kx kA .lower).2 (by decide) h

/-- **C52** `symmetric_matrix_rank_2_update(exec, x, y, A, t)` -/
theorem C52_syr2 [Add α] [Mul α] (x y : KVec) (A : KMat) (t : Triangle) :
    ThrowsIff (kkSyr2 x y A t : Sched α Unit)
      (A.rows ≠ A.cols ∨ A.rows ≠ x.ext ∨ A.rows ≠ y.ext) := by
  unfold kkSyr2
  refine ThrowsIff.congr (.require (.require (.require (.of_never ?_)))) (by simp)
  no_throw

example : Throws (kkSyr2 kx ⟨2, 10, 1⟩ kA .lower : Sched ℂ Unit) := (C52_syr2 ..).1 (by decide)

example (h : Heap ℂ) : ¬ kkSyr2 kx ky kA .lower h (.error .exn) :=
  (C52_syr2 kx ky kA .lower).2 (by decide) h

/-- **C52** `hermitian_matrix_rank_2_update(exec, x, y, A, t)` -/
theorem C52_her2 [Add α] [Mul α] [ConjOps α] (x y : KVec) (A : KMat) (t : Triangle) :
    ThrowsIff (kkHer2 x y A t : Sched α Unit)
      (A.rows ≠ A.cols ∨ A.rows ≠ x.ext ∨ A.rows ≠ y.ext) := by
  unfold kkHer2
  refine ThrowsIff.congr (.require (.require (.require (.of_never ?_)))) (by simp)
  no_throw

example : Throws (kkHer2 kx ⟨2, 10, 1⟩ kA .lower : Sched ℂ Unit) := (C52_her2 ..).1 (by decide)

example (h : Heap ℂ) : ¬ kkHer2 kx ky kA .lower h (.error .exn) :=
  (C52_her2 kx ky kA .lower).2 (by decide) h

/-- **C52** `symmetric_matrix_rank_k_update(exec, alpha, A, C, t)` -/
theorem C52_syrk [Add α] [Mul α] (alpha : α) (A C : KMat) (t : Triangle) :
    ThrowsIff (kkSyrk alpha A C t : Sched α Unit)
      (A.rows ≠ C.rows ∨ C.rows ≠ C.cols) := by
  unfold kkSyrk
  refine ThrowsIff.congr (.require (.require (.of_never ?_))) (by simp)
  no_throw

example : Throws (kkSyrk 2 kW kA .lower : Sched ℂ Unit) := (C52_syrk ..).1 (by decide)

example (h : Heap ℂ) : ¬ kkSyrk 2 kT kA .lower h (.error .exn) :=
  (C52_syrk 2 kT kA .lower).2 (by decide) h

/-- **C52** `hermitian_matrix_rank_k_update(exec, alpha, A, C, t)` -/
theorem C52_herk [Add α] [Mul α] [ConjOps α] (alpha : α) (A C : KMat) (t : Triangle) :
    ThrowsIff (kkHerk alpha A C t : Sched α Unit)
      (A.rows ≠ C.rows ∨ C.rows ≠ C.cols) := by
  unfold kkHerk
  refine ThrowsIff.congr (.require (.require (.of_never ?_))) (by simp)
  no_throw

example : Throws (kkHerk 2 kW kA .lower : Sched ℂ Unit) := (C52_herk ..).1 (by decide)

example (h : Heap ℂ) : ¬ kkHerk 2 kT kA .lower h (.error .exn) :=
  (C52_herk 2 kT kA .lower).2 (by decide) h

/-- **C52** `symmetric_matrix_rank_2k_update(exec, A, B, C, t)` -/
theorem C52_syr2k [Add α] [Mul α] (A B C : KMat) (t : Triangle) :
    ThrowsIff (kkSyr2k A B C t : Sched α Unit)
      (A.rows ≠ C.rows ∨ B.rows ≠ C.rows ∨ C.rows ≠ C.cols ∨ A.cols ≠ B.cols) := by
  unfold kkSyr2k
  refine ThrowsIff.congr (.require (.require (.require (.require (.of_never ?_))))) (by simp)
  no_throw

example : Throws (kkSyr2k kT kB kA .lower : Sched ℂ Unit) := (C52_syr2k ..).1 (by decide)

example (h : Heap ℂ) : ¬ kkSyr2k kT kT kA .lower h (.error .exn) :=
  (C52_syr2k kT kT kA .lower).2 (by decide) h

/-- **C52** `hermitian_matrix_rank_2k_update(exec, A, B, C, t)` -/
theorem C52_her2k [Add α] [Mul α] [ConjOps α] (A B C : KMat) (t : Triangle) :
    ThrowsIff (kkHer2k A B C t : Sched α Unit)
      (A.rows ≠ C.rows ∨ B.rows ≠ C.rows ∨ C.rows ≠ C.cols ∨ A.cols ≠ B.cols) := by
  unfold kkHer2k
  refine ThrowsIff.congr (.require (.require (.require (.require (.of_never ?_))))) (by simp)
  no_throw

example : Throws (kkHer2k kT kB kA .lower : Sched ℂ Unit) := (C52_her2k ..).1 (by decide)

example (h : Heap ℂ) : ¬ kkHer2k kT kT kA .lower h (.error .exn) :=
  (C52_her2k kT kT kA .lower).2 (by decide) h

/-- **C52** `symmetric_matrix_left_product(exec, A, t, B, C)` -/
theorem C52_symm_left [Add α] [Mul α] [Zero α] (A : KMat) (t : Triangle) (B C : KMat) :
    ThrowsIff (kkSymmLeft A t B C : Sched α Unit)
      (A.rows ≠ A.cols ∨ A.cols ≠ B.rows ∨ A.rows ≠ C.rows ∨ B.cols ≠ C.cols) := by
  unfold kkSymmLeft
  exact .checks (kkCheckLeft_throws A B C) (.kkProduct (fun _ _ => .pure _) fun _ _ _ => kkLeftTerm_noThrow ..)

example : Throws (kkSymmLeft kT .lower kA kA : Sched ℂ Unit) := (C52_symm_left ..).1 (by decide)

example (h : Heap ℂ) : ¬ kkSymmLeft kA .lower kT kT h (.error .exn) :=
  (C52_symm_left kA .lower kT kT).2 (by decide) h

/-- **C52** `symmetric_matrix_left_product(exec, A, t, B, E, C)` -/
theorem C52_symm_left_update [Add α] [Mul α] (A : KMat) (t : Triangle) (B E C : KMat) :
    ThrowsIff (kkSymmLeftUpdate A t B E C : Sched α Unit)
      ((A.rows ≠ A.cols ∨ A.cols ≠ B.rows ∨ A.rows ≠ C.rows ∨ B.cols ≠ C.cols) ∨
        E.rows ≠ C.rows ∨ E.cols ≠ C.cols) := by
  unfold kkSymmLeftUpdate
  refine .checks2 (kkCheckLeft_throws A B C) (.checks (kkCheckE_throws E C)
    (.kkProduct (fun _ _ => .matRd ..) fun _ _ _ => kkLeftTerm_noThrow ..)) fun ok => ?_
  exact kkCheckLeft_ok ok

example : Throws (kkSymmLeftUpdate kA .lower kA kT kA : Sched ℂ Unit) :=
  (C52_symm_left_update ..).1 (by decide)

example (h : Heap ℂ) : ¬ kkSymmLeftUpdate kA .lower kA kE kB h (.error .exn) :=
  (C52_symm_left_update kA .lower kA kE kB).2 (by decide) h

/-- **C52** `symmetric_matrix_right_product(exec, A, t, B, C)` -/
theorem C52_symm_right [Add α] [Mul α] [Zero α] (A : KMat) (t : Triangle) (B C : KMat) :
    ThrowsIff (kkSymmRight A t B C : Sched α Unit)
      (A.rows ≠ A.cols ∨ B.cols ≠ A.rows ∨ B.rows ≠ C.rows ∨ A.cols ≠ C.cols) := by
  unfold kkSymmRight
  exact .checks (kkCheckRight_throws A B C) (.kkProduct (fun _ _ => .pure _) fun _ _ _ => kkRightTerm_noThrow ..)

example : Throws (kkSymmRight kT .lower kA kA : Sched ℂ Unit) := (C52_symm_right ..).1 (by decide)

example (h : Heap ℂ) : ¬ kkSymmRight kA .lower kW kW h (.error .exn) :=
  (C52_symm_right kA .lower kW kW).2 (by decide) h

/-- **C52** `symmetric_matrix_right_product(exec, A, t, B, E, C)` -/
theorem C52_symm_right_update [Add α] [Mul α] (A : KMat) (t : Triangle) (B E C : KMat) :
    ThrowsIff (kkSymmRightUpdate A t B E C : Sched α Unit)
      ((A.rows ≠ A.cols ∨ B.cols ≠ A.rows ∨ B.rows ≠ C.rows ∨ A.cols ≠ C.cols) ∨
        E.rows ≠ C.rows ∨ E.cols ≠ C.cols) := by
  unfold kkSymmRightUpdate
  refine .checks2 (kkCheckRight_throws A B C) (.checks (kkCheckE_throws E C)
    (.kkProduct (fun _ _ => .matRd ..) fun _ _ _ => kkRightTerm_noThrow ..)) fun ok => ?_
  exact kkCheckRight_ok ok

example : Throws (kkSymmRightUpdate kA .lower kA kT kA : Sched ℂ Unit) :=
  (C52_symm_right_update ..).1 (by decide)

example (h : Heap ℂ) : ¬ kkSymmRightUpdate kA .lower kA kE kB h (.error .exn) :=
  (C52_symm_right_update kA .lower kA kE kB).2 (by decide) h

/-- **C52** `hermitian_matrix_left_product(exec, A, t, B, C)` -/
theorem C52_hemm_left [Add α] [Mul α] [Zero α] [ConjOps α] (A : KMat) (t : Triangle) (B C : KMat) :
    ThrowsIff (kkHemmLeft A t B C : Sched α Unit)
      (A.rows ≠ A.cols ∨ A.cols ≠ B.rows ∨ A.rows ≠ C.rows ∨ B.cols ≠ C.cols) := by
  unfold kkHemmLeft
  exact .checks (kkCheckLeft_throws A B C) (.kkProduct (fun _ _ => .pure _) fun _ _ _ => kkLeftTerm_noThrow ..)

example : Throws (kkHemmLeft kT .lower kA kA : Sched ℂ Unit) := (C52_hemm_left ..).1 (by decide)

example (h : Heap ℂ) : ¬ kkHemmLeft kA .lower kT kT h (.error .exn) :=
  (C52_hemm_left kA .lower kT kT).2 (by decide) h

/-- **C52** `hermitian_matrix_left_product(exec, A, t, B, E, C)` -/
theorem C52_hemm_left_update [Add α] [Mul α] [ConjOps α] (A : KMat) (t : Triangle) (B E C : KMat) :
    ThrowsIff (kkHemmLeftUpdate A t B E C : Sched α Unit)
      ((A.rows ≠ A.cols ∨ A.cols ≠ B.rows ∨ A.rows ≠ C.rows ∨ B.cols ≠ C.cols) ∨
        E.rows ≠ C.rows ∨ E.cols ≠ C.cols) := by
  unfold kkHemmLeftUpdate
  refine .checks2 (kkCheckLeft_throws A B C) (.checks (kkCheckE_throws E C)
    (.kkProduct (fun _ _ => .matRd ..) fun _ _ _ => kkLeftTerm_noThrow ..)) fun ok => ?_
  exact kkCheckLeft_ok ok

example : Throws (kkHemmLeftUpdate kA .lower kA kT kA : Sched ℂ Unit) :=
  (C52_hemm_left_update ..).1 (by decide)

example (h : Heap ℂ) : ¬ kkHemmLeftUpdate kA .lower kA kE kB h (.error .exn) :=
  (C52_hemm_left_update kA .lower kA kE kB).2 (by decide) h

/-- **C52** `hermitian_matrix_right_product(exec, A, t, B, C)` -/
theorem C52_hemm_right [Add α] [Mul α] [Zero α] [ConjOps α] (A : KMat) (t : Triangle) (B C : KMat) :
    ThrowsIff (kkHemmRight A t B C : Sched α Unit)
      (A.rows ≠ A.cols ∨ B.cols ≠ A.rows ∨ B.rows ≠ C.rows ∨ A.cols ≠ C.cols) := by
  unfold kkHemmRight
  exact .checks (kkCheckRight_throws A B C) (.kkProduct (fun _ _ => .pure _) fun _ _ _ => kkRightTerm_noThrow ..)

example : Throws (kkHemmRight kT .lower kA kA : Sched ℂ Unit) := (C52_hemm_right ..).1 (by decide)

example (h : Heap ℂ) : ¬ kkHemmRight kA .lower kW kW h (.error .exn) :=
  (C52_hemm_right kA .lower kW kW).2 (by decide) h

theorem kkTrmmLeftViews_neverThrows [Add α] [Mul α] [Zero α] (t : Triangle) (d : Diag) (A B C : Mat) :
    NeverThrows (kkTrmmLeftViews t d A B C : Sched α Unit) := by
  unfold kkTrmmLeftViews
  no_throw

/-- **C52** `triangular_matrix_left_product(exec, A, t, implicit_unit_diagonal, B, C)` -/
theorem C52_trmm_left [Add α] [Mul α] [Zero α] (A : KMat) (t : Triangle) (B C : KMat) :
    ThrowsIff (kkTrmmLeft A t B C : Sched α Unit)
      (A.rows ≠ A.cols ∨ A.cols ≠ B.rows ∨ A.rows ≠ C.rows ∨ B.cols ≠ C.cols) := by
  unfold kkTrmmLeft
  exact .checks (kkCheckLeft_throws A B C) (kkTrmmLeftViews_neverThrows _ _ _ _ _)

example : Throws (kkTrmmLeft kT .lower kA kA : Sched ℂ Unit) := (C52_trmm_left ..).1 (by decide)

example (h : Heap ℂ) : ¬ kkTrmmLeft kA .lower kT kT h (.error .exn) :=
  (C52_trmm_left kA .lower kT kT).2 (by decide) h

/-- **C52** `triangular_matrix_left_product(exec, A, t, implicit_unit_diagonal, C)` -/
theorem C52_trmm_left_in_place [Add α] [Mul α] [Zero α] (A : KMat) (t : Triangle) (C : KMat) :
    ThrowsIff (kkTrmmLeftInPlace A t C : Sched α Unit)
      (A.rows ≠ A.cols ∨ A.cols ≠ C.rows) := by
  unfold kkTrmmLeftInPlace
  refine ThrowsIff.congr (.checks (kkCheckLeft_throws A C C) (kkTrmmLeftViews_neverThrows _ _ _ _ _)) ?_
  omega

example : Throws (kkTrmmLeftInPlace kT .lower kA : Sched ℂ Unit) :=
  (C52_trmm_left_in_place ..).1 (by decide)

example (h : Heap ℂ) : ¬ kkTrmmLeftInPlace kA .lower kT h (.error .exn) :=
  (C52_trmm_left_in_place kA .lower kT).2 (by decide) h

theorem kkTrmmRightViews_neverThrows [Add α] [Mul α] [Zero α] (t : Triangle) (d : Diag) (A B C : Mat) :
    NeverThrows (kkTrmmRightViews t d A B C : Sched α Unit) := by
  unfold kkTrmmRightViews
  no_throw

/-- **C52** `triangular_matrix_right_product(exec, A, t, implicit_unit_diagonal, B, C)` -/
theorem C52_trmm_right [Add α] [Mul α] [Zero α] (A : KMat) (t : Triangle) (B C : KMat) :
    ThrowsIff (kkTrmmRight A t B C : Sched α Unit)
      (A.rows ≠ A.cols ∨ B.cols ≠ A.rows ∨ B.rows ≠ C.rows ∨ A.cols ≠ C.cols) := by
  unfold kkTrmmRight
  exact .checks (kkCheckRight_throws A B C) (kkTrmmRightViews_neverThrows _ _ _ _ _)

example : Throws (kkTrmmRight kT .lower kA kA : Sched ℂ Unit) := (C52_trmm_right ..).1 (by decide)

example (h : Heap ℂ) : ¬ kkTrmmRight kA .lower kW kW h (.error .exn) :=
  (C52_trmm_right kA .lower kW kW).2 (by decide) h

/-- **C52** `triangular_matrix_right_product(exec, A, t, implicit_unit_diagonal, C)` -/
theorem C52_trmm_right_in_place [Add α] [Mul α] [Zero α] (A : KMat) (t : Triangle) (C : KMat) :
    ThrowsIff (kkTrmmRightInPlace A t C : Sched α Unit)
      (A.rows ≠ A.cols ∨ A.cols ≠ C.cols) := by
  unfold kkTrmmRightInPlace
  refine ThrowsIff.congr (.checks (kkCheckRight_throws A C C) (kkTrmmRightViews_neverThrows _ _ _ _ _)) ?_
  omega

example : Throws (kkTrmmRightInPlace kT .lower kA : Sched ℂ Unit) :=
  (C52_trmm_right_in_place ..).1 (by decide)

example (h : Heap ℂ) : ¬ kkTrmmRightInPlace kA .lower kW h (.error .exn) :=
  (C52_trmm_right_in_place kA .lower kW).2 (by decide) h

/-! ## Functions that check nothing or not everything -/

/-- **C52** `copy(exec, x, y)` between different rank-2 layouts never throws; ... -/
theorem C52_copy_never_throws (x y : KMat) : ThrowsIff (kkCopy2 x y : Sched α Unit) False := by
  refine .of_never ?_
  unfold kkCopy2
  no_throw

/-- **C52** ... it does not refuse a `y` that is too small: whatever memory holds, there is a
schedule with undefined behaviour. -/
theorem C52_copy_wrong_size_false (x y : KMat) (h : Heap α) (hxt : x.transposed = false)
    (hyt : y.transposed = false) (hr : 0 < x.rows) (hc : 0 < x.cols)
    (small : y.rows < x.rows ∨ y.cols < x.cols) : kkCopy2 x y h (.error .ub) := by
  unfold kkCopy2
  rw [KMat.view_eq hxt, KMat.view_eq hyt]
  have bad : ∃ i j, i < x.rows ∧ j < x.cols ∧ ¬ (i < y.rows ∧ j < y.cols) := by
    rcases small with s | s
    · exact ⟨y.rows, 0, s, hc, by omega⟩
    · exact ⟨0, y.cols, hr, s, by omega⟩
  obtain ⟨i, j, hi, hj, hn⟩ := bad
  refine parFor_fails_alone hi ?_
  rw [Task.forUp_run]
  refine forEach_ub (i := j) (by simp; omega) ?_ ?_ h
  · intro k
    simp only [Task.bind_run, Mat.rd_run, Mat.wr_run]
    exact (OkOrUb.get x.toMat i k).bind fun v => .set y.toMat i k v
  · intro g
    simp only [Task.bind_run, Mat.rd_run, Mat.wr_run]
    refine (OkOrUb.get x.toMat i j).then_ub (fun v g => ?_) g
    rw [Mat.set, if_neg hn]
    rfl

example : kkCopy2 kT kW (heap ℤ) (.error .ub) :=
  C52_copy_wrong_size_false kT kW _ rfl rfl (by decide) (by decide) (by decide)

/-- **C52** `hermitian_matrix_right_product(exec, A, t, B, E, C)` checks the extents of `A`, `B`
and `C` (as the other products) but not those of `E`; ... -/
theorem C52_hemm_right_update [Add α] [Mul α] [ConjOps α] (A : KMat) (t : Triangle)
    (B E C : KMat) :
    ThrowsIff (kkHemmRightUpdate A t B E C : Sched α Unit)
      (A.rows ≠ A.cols ∨ B.cols ≠ A.rows ∨ B.rows ≠ C.rows ∨ A.cols ≠ C.cols) := by
  unfold kkHemmRightUpdate
  exact .checks (kkCheckRight_throws A B C)
    (.kkProduct (fun _ _ => .matRd ..) fun _ _ _ => kkRightTerm_noThrow ..)

example : Throws (kkHemmRightUpdate kA .lower kT kE kB : Sched ℂ Unit) :=
  (C52_hemm_right_update ..).1 (by decide)

/-- **C52** ... an `E` of the wrong size is not refused, and gives undefined behaviour. -/
theorem C52_hemm_right_update_wrong_E_false :
    kkHemmRightUpdate kA .lower kA kT kB (heap ℂ) (.error .ub) := by
  unfold kkHemmRightUpdate
  rw [kkCheckRight_ok (by decide), sched_pure_bind]
  unfold kkProduct forEachMatrixElement
  rw [if_neg (by decide)]
  exact ⟨_, .refl, Or.inr (Or.inl ⟨2, .ub, by decide, rfl, rfl⟩)⟩

/-- **C52** the reductions over one object have nothing to check and never throw. -/
theorem C52_reductions_never_throw [AbsOps α] (low init : ℝ) (s : SumOfSquares) (x : KVec)
    (A : KMat) :
    ThrowsIff (kkAbsSum x init : Sched α ℝ) False ∧ ThrowsIff (kkNorm2 x init : Sched α ℝ) False ∧
    ThrowsIff (kkSumOfSquares low x s : Sched α SumOfSquares) False ∧
    ThrowsIff (kkFrobNorm low A init : Sched α ℝ) False ∧
    ThrowsIff (kkInfNorm low A init : Sched α ℝ) False ∧
    ThrowsIff (kkOneNorm low A init : Sched α ℝ) False := by
  refine ⟨.of_never ?_, .of_never ?_, .of_never ?_, .of_never ?_, .of_never ?_, .of_never ?_⟩
  · unfold kkAbsSum
    no_throw
  · unfold kkNorm2
    no_throw
  · unfold kkSumOfSquares
    no_throw
    refine NeverThrows.lift fun h e => ?_
    unfold divChecked at e
    split at e <;> cases e
  · unfold kkFrobNorm
    no_throw
    refine NeverThrows.lift fun h e => ?_
    unfold Mat.get at e
    by_cases q : 0 < A.rows ∧ 0 < A.cols
    · rw [if_pos q] at e
      unfold Prog.load at e
      split at e <;> cases e
    · rw [if_neg q] at e
      cases e
  · unfold kkInfNorm
    no_throw
  · unfold kkOneNorm
    no_throw

end StdBLAS

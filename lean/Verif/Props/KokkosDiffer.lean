import Verif.Lemmas.KokkosNative
import Verif.Props.Blas1Reductions
import Verif.Props.Blas2Products
import Verif.Props.Blas3Products
import Verif.Props.RankUpdates
import Verif.Props.KokkosProducts
import Verif.Props.KokkosReductions
import Verif.Props.KokkosUpdates

/-!
# C50: where the Kokkos backend differs from the native implementation

`DifferentOutcome native backend h`: from memory `h`, the native call ends normally and no
schedule of the backend has its result and final memory.
-/

namespace StdBLAS
open Finset Witness
variable {α : Type}

/-! ## How the backend reads its arguments -/

/-- **C50** A vector whose stride is not 1 is read as if it were contiguous: the cells read are
`base, base + 1, ...` -/
theorem C50_strided_vector_reads_contiguous [AbsOps α] (x : KVec) (init : ℝ) (h : Heap α)
    (f : Nat → α) (hc : ∀ k < x.ext, h (x.base + k) = some (f k)) :
    Surely (kkAbsSum x init) h fun r h' =>
      r = init + ∑ k ∈ range x.ext, AbsOps.abs (f k) ∧ h' = h := by
  have := C49_abs_sum (⟨x.ext, x.base, 1⟩ : KVec) init h f
    (fun k hk => by
      simp only [KVec.mdspan, Nat.one_mul] at hk ⊢
      exact hc k hk) rfl
  exact this

/-- Three elements at distance 2 from cell 0: cells 0, 1, 2 are read. -/
example : Surely (kkAbsSum ⟨3, 0, 2⟩ 1) (heap ℝ) fun r h' =>
    r = 1 + ∑ k ∈ range 3, AbsOps.abs ((((k : ℤ) - 7 : ℤ) : ℝ)) ∧ h' = heap ℝ :=
  C50_strided_vector_reads_contiguous ⟨3, 0, 2⟩ 1 _ (fun k => (((k : ℤ) - 7 : ℤ) : ℝ)) fun k hk => by
    simp only at hk ⊢
    rw [Nat.zero_add]
    exact heap_lt (by omega)

/-- **C50 is false** for strided vectors: the two elements -7 and -5, at distance 2. -/
theorem C50_strided_vector_false :
    ∃ (x : KVec) (h : Heap ℝ) (f : Nat → ℝ), x.mdspan.Holds h f ∧ x.mdspan.Unique ∧
      DifferentOutcome (vectorAbsSum x.mdspan.view 0) (kkAbsSum x 0) h := by
  have hx : (⟨2, 0, 2⟩ : KVec).mdspan.Holds (heap ℝ) (vals ℝ (⟨2, 0, 2⟩ : KVec).mdspan) :=
    holds fun i hi => by simp only [KVec.mdspan] at *; omega
  refine ⟨⟨2, 0, 2⟩, heap ℝ, _, hx, ?_, ?_⟩
  · intro i k hi hk e
    simp only [KVec.mdspan] at *
    omega
  · refine differ_of ?_ (C05_abs_sum_real _ _ _ _ (Vec.Holds.toView hx))
      (C50_strided_vector_reads_contiguous _ _ _ (fun k => (((k : ℤ) - 7 : ℤ) : ℝ)) fun k hk => ?_)
    · rintro b h' ⟨e1, _⟩ ⟨e2, _⟩
      rw [e1] at e2
      simp only [KVec.mdspan, Vec.view, vals, AbsOps.abs, Finset.sum_range_succ,
        Finset.sum_range_zero] at e2
      norm_num at e2
    · simp only at hk ⊢
      rw [Nat.zero_add]
      exact heap_lt (by omega)

/-- **C50** The transposition of a `layout_transpose` argument is dropped: the infinity norm of
the transposed view of `A` is the infinity norm of `A`. -/
theorem C50_transposed_matrix_ignored [AbsOps α] (low : ℝ) (A : Mat) (init : ℝ) :
    (kkInfNorm low ⟨A.transposed, true⟩ init : Sched α ℝ) = kkInfNorm low ⟨A, false⟩ init := by
  by_cases z : A.rows = 0 ∨ A.cols = 0
  · have z' : A.transposed.rows = 0 ∨ A.transposed.cols = 0 := z.symm
    unfold kkInfNorm
    rw [if_pos z, if_pos z']
  · have z' : ¬(A.transposed.rows = 0 ∨ A.transposed.cols = 0) := fun e => z e.symm
    unfold kkInfNorm
    rw [if_neg z, if_neg z']
    rfl

/-- **C50 is false** for transposed matrix arguments: the row `(-7, -6)`. -/
theorem C50_transposed_matrix_false (low : ℝ) (hlow : low ≤ 0) :
    ∃ (A : KMat) (h : Heap ℝ) (f : Nat → Nat → ℝ), A.toMat.Holds h f ∧ A.toMat.Unique ∧
      DifferentOutcome (matrixInfNorm A.toMat.view 0) (kkInfNorm low A 0) h := by
  have hA : (⟨2, 1, fun i _ => i⟩ : Mat).Holds (heap ℝ)
      (mvals ℝ (⟨2, 1, fun i _ => i⟩ : Mat)) :=
    mholds fun i j hi hj => by simp only at *; omega
  have hB : (⟨2, 1, fun i _ => i⟩ : Mat).transposed.Holds (heap ℝ)
      (mvals ℝ (⟨2, 1, fun i _ => i⟩ : Mat).transposed) :=
    mholds fun i j hi hj => by simp only [Mat.transposed] at *; omega
  refine ⟨⟨(⟨2, 1, fun i _ => i⟩ : Mat).transposed, true⟩, heap ℝ, _, hB, ?_, ?_⟩
  · intro i j k l hi hj _ hk hl _ e
    simp only [Mat.transposed] at *
    omega
  · rw [C50_transposed_matrix_ignored]
    refine differ_of ?_ (C08_inf_norm _ _ _ _ (Mat.HoldsOn.toView hB))
      (C49_inf_norm low _ _ _ _ hA rfl hlow)
    rintro b h' ⟨-, -, r1⟩ ⟨-, -, r2⟩
    obtain ⟨-, r1⟩ := r1 (by simp [Mat.transposed, Mat.view]) (by simp [Mat.transposed, Mat.view])
    obtain ⟨⟨i, hi, r2⟩, -⟩ := r2 (by simp) (by simp)
    have r1 := r1 0 (by simp [Mat.transposed, Mat.view])
    rw [r2] at r1
    simp only at hi
    simp only [Mat.transposed, Mat.view, mvals, AbsOps.abs, Finset.sum_range_succ,
      Finset.sum_range_zero] at r1
    interval_cases i <;> norm_num at r1

example := C50_transposed_matrix_false (-100) (by norm_num)

/-! ## Hermitian matrices with stored imaginary parts on the diagonal -/

/-- **C50** `hermitian_matrix_rank_1_update(exec, x, A, t)` keeps the imaginary parts stored on
the diagonal, the native one drops them: the outcomes differ whenever there is one. -/
theorem C50_her_imaginary_diagonal_false (x : KVec) (A : KMat) (t : Triangle) (h : Heap ℂ)
    (f : Nat → ℂ) (a : Nat → Nat → ℂ) (hx : x.mdspan.Holds h f)
    (hA : A.toMat.HoldsOn h t.region a) (hxs : x.stride = 1) (hAt : A.transposed = false)
    (hsq : A.rows = A.cols) (hxe : A.rows = x.ext) (hu : A.toMat.UniqueOn t.region)
    (hxA : Apart x.mdspan.Cell (A.toMat.CellOn t.region))
    (him : ∃ i < A.rows, (a i i).im ≠ 0) :
    DifferentOutcome (her x.mdspan.view A.toMat t) (kkHer x A t) h := by
  obtain ⟨i, hi, him⟩ := him
  refine differ_mat (C26_her _ _ _ _ _ _ (Vec.Holds.toView hx) hA hsq hxe.le hu hxA)
    (C48_her x A t h f a hx hA hxs hAt hsq hxe hu hxA) hi (hsq ▸ hi)
    (by cases t <;> exact le_refl i) fun e => him ?_
  rw [if_pos rfl] at e
  have := congrArg Complex.im (add_right_cancel e)
  exact (this.symm.trans (Complex.ofReal_im _))

theorem cheap_vec {v : Vec} (hv : ∀ i, i < v.ext → v.addr i < 200) :
    v.Holds cheap fun i => ((v.addr i : ℂ) - 7) * (1 + Complex.I) := fun i hi => by
  unfold cheap; rw [if_pos (hv i hi)]

theorem cheap_mat {m : Mat} {R : Region} (hm : ∀ i j, i < m.rows → j < m.cols → m.addr i j < 200) :
    m.HoldsOn cheap R fun i j => ((m.addr i j : ℂ) - 7) * (1 + Complex.I) := fun i j hi hj _ => by
  unfold cheap; rw [if_pos (hm i j hi hj)]

theorem cheap_im : ∃ i < 3, (((A.addr i i : ℂ) - 7) * (1 + Complex.I)).im ≠ 0 :=
  ⟨0, by decide, by norm_num [A]⟩

example (t : Triangle) : DifferentOutcome (her kx.mdspan.view kA.toMat t) (kkHer kx kA t) cheap :=
  C50_her_imaginary_diagonal_false _ _ _ _ _ _ (cheap_vec bkx) (cheap_mat bA) rfl rfl rfl rfl
    (by kview_facts) (by kview_facts) cheap_im

/-- **C50** `hermitian_matrix_rank_2_update(exec, x, y, A, t)`: likewise. -/
theorem C50_her2_imaginary_diagonal_false (x y : KVec) (A : KMat) (t : Triangle) (h : Heap ℂ)
    (f g : Nat → ℂ) (a : Nat → Nat → ℂ) (hx : x.mdspan.Holds h f) (hy : y.mdspan.Holds h g)
    (hA : A.toMat.HoldsOn h t.region a) (hxs : x.stride = 1) (hys : y.stride = 1)
    (hAt : A.transposed = false)
    (hsq : A.rows = A.cols) (hxe : A.rows = x.ext) (hye : A.rows = y.ext)
    (hu : A.toMat.UniqueOn t.region)
    (hxA : Apart x.mdspan.Cell (A.toMat.CellOn t.region))
    (hyA : Apart y.mdspan.Cell (A.toMat.CellOn t.region))
    (him : ∃ i < A.rows, (a i i).im ≠ 0) :
    DifferentOutcome (her2 x.mdspan.view y.mdspan.view A.toMat t) (kkHer2 x y A t) h := by
  obtain ⟨i, hi, him⟩ := him
  refine differ_mat (C27_her2 _ _ _ _ _ _ _ _ (Vec.Holds.toView hx) (Vec.Holds.toView hy) hA hsq
    hxe.le hye.le hu hxA hyA)
    (C48_her2 x y A t h f g a hx hy hA hxs hys hAt hsq hxe hye hu hxA hyA) hi (hsq ▸ hi)
    (by cases t <;> exact le_refl i) fun e => him ?_
  rw [if_pos rfl] at e
  have := congrArg Complex.im (add_right_cancel e)
  exact (this.symm.trans (Complex.ofReal_im _))

example (t : Triangle) : DifferentOutcome (her2 kx.mdspan.view ky.mdspan.view kA.toMat t)
    (kkHer2 kx ky kA t) cheap :=
  C50_her2_imaginary_diagonal_false _ _ _ _ _ _ _ _ (cheap_vec bkx) (cheap_vec bky) (cheap_mat bA)
    rfl rfl rfl rfl rfl rfl (by kview_facts) (by kview_facts) (by kview_facts) cheap_im

/-- **C50** `hermitian_matrix_rank_k_update(exec, alpha, A, C, t)`: likewise. -/
theorem C50_herk_imaginary_diagonal_false (alpha : ℂ) (A C : KMat) (t : Triangle)
    (h : Heap ℂ)
    (a c : Nat → Nat → ℂ) (hA : A.toMat.Holds h a) (hC : C.toMat.HoldsOn h t.region c)
    (hAt : A.transposed = false) (hCt : C.transposed = false)
    (he : A.rows = C.rows) (hsq : C.rows = C.cols) (hu : C.toMat.UniqueOn t.region)
    (hAC : Apart A.toMat.Cell (C.toMat.CellOn t.region))
    (him : ∃ i < C.rows, (c i i).im ≠ 0) :
    DifferentOutcome (herkAlpha alpha A.toMat.view C.toMat t) (kkHerk alpha A C t) h := by
  obtain ⟨i, hi, him⟩ := him
  refine differ_mat (C28_herkAlpha _ _ _ _ _ _ _ (Mat.HoldsOn.toView hA) hC hsq he.ge hu hAC)
    (C48_herk alpha A C t h a c hA hC hAt hCt he hsq hu hAC) hi (hsq ▸ hi)
    (by cases t <;> exact le_refl i) fun e => him ?_
  rw [if_pos rfl] at e
  have := congrArg Complex.im (add_right_cancel e)
  exact (this.symm.trans (Complex.ofReal_im _))

example (t : Triangle) : DifferentOutcome (herkAlpha 2 kB.toMat.view kA.toMat t)
    (kkHerk 2 kB kA t) cheap :=
  C50_herk_imaginary_diagonal_false _ _ _ _ _ _ _ (cheap_mat bB) (cheap_mat bA) rfl rfl rfl rfl
    (by kview_facts) (by kview_facts) cheap_im

/-- **C50** `hermitian_matrix_rank_2k_update(exec, A, B, C, t)`: likewise. -/
theorem C50_her2k_imaginary_diagonal_false (A B C : KMat) (t : Triangle)
    (h : Heap ℂ)
    (a b c : Nat → Nat → ℂ) (hA : A.toMat.Holds h a) (hB : B.toMat.Holds h b)
    (hC : C.toMat.HoldsOn h t.region c)
    (hAt : A.transposed = false) (hBt : B.transposed = false) (hCt : C.transposed = false)
    (he : A.rows = C.rows) (he' : B.rows = C.rows) (hsq : C.rows = C.cols)
    (hK : A.cols = B.cols) (hu : C.toMat.UniqueOn t.region)
    (hAC : Apart A.toMat.Cell (C.toMat.CellOn t.region))
    (hBC : Apart B.toMat.Cell (C.toMat.CellOn t.region))
    (him : ∃ i < C.rows, (c i i).im ≠ 0) :
    DifferentOutcome (her2k A.toMat.view B.toMat.view C.toMat t) (kkHer2k A B C t) h := by
  obtain ⟨i, hi, him⟩ := him
  refine differ_mat (C29_her2k _ _ _ _ _ _ _ _ (Mat.HoldsOn.toView hA) (Mat.HoldsOn.toView hB) hC
    hsq he.ge he'.ge hK.le hu hAC hBC)
    (C48_her2k A B C t h a b c hA hB hC hAt hBt hCt he he' hsq hK hu hAC hBC) hi (hsq ▸ hi)
    (by cases t <;> exact le_refl i) fun e => him ?_
  rw [if_pos rfl] at e
  have := congrArg Complex.im (add_right_cancel e)
  exact (this.symm.trans (Complex.ofReal_im _))

example (t : Triangle) : DifferentOutcome (her2k kB.toMat.view kC.toMat.view kA.toMat t)
    (kkHer2k kB kC kA t) cheap :=
  C50_her2k_imaginary_diagonal_false _ _ _ _ _ _ _ _ (cheap_mat bB) (cheap_mat bC) (cheap_mat bA)
    rfl rfl rfl rfl rfl rfl rfl (by kview_facts) (by kview_facts) (by kview_facts) cheap_im

/-- **C50** `hermitian_matrix_vector_product(exec, A, t, x, y)` multiplies by the stored diagonal,
the native one by its real part: the outcomes differ whenever a stored diagonal element that
has an imaginary part meets an element of `x` that is not zero. -/
theorem C50_hemv_imaginary_diagonal_false (A : KMat) (t : Triangle)
    (x y : KVec) (h : Heap ℂ) (a : Nat → Nat → ℂ) (f : Nat → ℂ)
    (hA : A.toMat.HoldsOn h t.region a)
    (hx : x.mdspan.Holds h f) (hy : y.mdspan.Alloc h) (hAt : A.transposed = false)
    (hxs : x.stride = 1) (hys : y.stride = 1) (hsq : A.rows = A.cols) (hxe : A.cols = x.ext)
    (hye : A.rows = y.ext) (hAy : Apart (A.toMat.CellOn t.region) y.mdspan.Cell)
    (hxy : Apart x.mdspan.Cell y.mdspan.Cell)
    (him : ∃ i < A.rows, (a i i).im ≠ 0 ∧ f i ≠ 0) :
    DifferentOutcome (hemv A.toMat.view t x.mdspan.view y.mdspan) (kkHemv A t x y) h := by
  obtain ⟨i, hi, him, hfi⟩ := him
  refine differ_vec (C18_hemv _ _ _ _ _ _ _ (Mat.HoldsOn.toView hA) (Vec.Holds.toView hx) hy hsq hye
    hxe.le (KVec.mdspan_unique hys) hAy hxy)
    (C48_hemv A t x y h a f hA hx hy hAt hxs hys hsq hxe hye hAy hxy)
    (i := i) (lt_of_lt_of_eq hi hye) fun e => him ?_
  have hi' : i ∈ range A.cols := Finset.mem_range.2 (hsq ▸ hi)
  simp only [mulVec] at e
  rw [show (A.toMat.view : MatV ℂ).cols = A.cols from rfl,
    ← Finset.add_sum_erase _ _ hi', ← Finset.add_sum_erase (range A.cols) _ hi'] at e
  rw [if_pos rfl, Finset.sum_congr rfl fun j hj => by
    rw [show hermOf t a i j = if i = j then a i i else hermOf t a i j from
      (if_neg (Finset.ne_of_mem_erase hj).symm).symm]] at e
  have := mul_right_cancel₀ hfi (add_right_cancel e)
  rw [hermOf, if_pos rfl] at this
  exact (congrArg Complex.im this).symm.trans (Complex.ofReal_im _)

example (t : Triangle) : DifferentOutcome (hemv kA.toMat.view t kx.mdspan.view ky.mdspan)
    (kkHemv kA t kx ky) cheap :=
  C50_hemv_imaginary_diagonal_false _ _ _ _ _ _ _ (cheap_mat bA) (cheap_vec bkx)
    (fun i hi => ⟨_, cheap_vec bky i hi⟩) rfl rfl rfl rfl rfl rfl (by kview_facts) (by kview_facts)
    ⟨0, by decide, by norm_num [kA, A], fun e => by
      have := congrArg Complex.re e
      norm_num [kx, KVec.mdspan] at this⟩

/-- **C50** `hermitian_matrix_product(exec, A, t, left_side, B, C)` multiplies by the conjugate of
the stored diagonal, the native one by its real part: the outcomes differ whenever a stored
diagonal element that has an imaginary part meets an element of `B` that is not zero. -/
theorem C50_hemm_left_imaginary_diagonal_false (A : KMat) (t : Triangle)
    (B C : KMat)
    (h : Heap ℂ) (a b : Nat → Nat → ℂ) (hA : A.toMat.HoldsOn h t.region a)
    (hB : B.toMat.Holds h b) (hC : C.toMat.Alloc h) (hAt : A.transposed = false)
    (hBt : B.transposed = false) (hCt : C.transposed = false)
    (hsq : A.rows = A.cols) (hAB : A.cols = B.rows) (hAC : A.rows = C.rows)
    (hBC : B.cols = C.cols) (hu : C.toMat.Unique)
    (hApC : Apart (A.toMat.CellOn t.region) C.toMat.Cell)
    (hBpC : Apart B.toMat.Cell C.toMat.Cell)
    (him : ∃ i < A.rows, (a i i).im ≠ 0 ∧ ∃ j < C.cols, b i j ≠ 0) :
    DifferentOutcome (hemmLeft A.toMat.view t B.toMat.view C.toMat) (kkHemmLeft A t B C) h := by
  obtain ⟨i, hi, him, j, hj, hb⟩ := him
  refine differ_mat (C33_hemm_left _ _ _ _ _ _ _ (Mat.HoldsOn.toView hA) (Mat.HoldsOn.toView hB) hC
    hsq hAC.symm hAB hBC.symm hu hApC hBpC)
    (C48_hemm_left A t B C h a b hA hB hC hAt hBt hCt hsq hAB hAC hBC hu hApC hBpC)
    (i := i) (j := j) (hAC ▸ hi) hj trivial fun e => him ?_
  have hi' : i ∈ range A.cols := Finset.mem_range.2 (hsq ▸ hi)
  simp only [mulMat] at e
  rw [show (A.toMat.view : MatV ℂ).cols = A.cols from rfl,
    ← Finset.add_sum_erase _ _ hi', ← Finset.add_sum_erase (range A.cols) _ hi'] at e
  rw [if_pos rfl, Finset.sum_congr rfl fun k hk => by
    rw [show hermOf t a i k = if i = k then ConjOps.conj (a i i) else hermOf t a i k from
      (if_neg (Finset.ne_of_mem_erase hk).symm).symm]] at e
  have := mul_right_cancel₀ hb (add_right_cancel e)
  rw [hermOf, if_pos rfl] at this
  have := (congrArg Complex.im this).symm.trans (Complex.ofReal_im _)
  rw [conj_complex, Complex.conj_im] at this
  exact neg_eq_zero.1 this

example (t : Triangle) : DifferentOutcome (hemmLeft kA.toMat.view t kB.toMat.view kC.toMat)
    (kkHemmLeft kA t kB kC) cheap :=
  C50_hemm_left_imaginary_diagonal_false _ _ _ _ _ _ _ (cheap_mat bA) (cheap_mat bB)
    (cheap_alloc bC) rfl rfl rfl rfl rfl rfl rfl (by kview_facts) (by kview_facts) (by kview_facts)
    ⟨0, by decide, by norm_num [kA, A], 0, by decide, fun e => by
      have := congrArg Complex.re e
      norm_num [kB, B] at this⟩

/-- **C50** `hermitian_matrix_product(exec, A, t, right_side, B, C)` multiplies by the conjugate
of the stored diagonal, the native one by the stored diagonal itself. -/
theorem C50_hemm_right_imaginary_diagonal_false (A : KMat) (t : Triangle)
    (B C : KMat)
    (h : Heap ℂ) (a b : Nat → Nat → ℂ) (hA : A.toMat.HoldsOn h t.region a)
    (hB : B.toMat.Holds h b) (hC : C.toMat.Alloc h) (hAt : A.transposed = false)
    (hCt : C.transposed = false)
    (hsq : A.rows = A.cols) (hBA : B.cols = A.rows) (hBC : B.rows = C.rows)
    (hAC : A.cols = C.cols) (hu : C.toMat.Unique)
    (hApC : Apart (A.toMat.CellOn t.region) C.toMat.Cell)
    (hBpC : Apart B.toMat.Cell C.toMat.Cell)
    (him : ∃ j < A.rows, (a j j).im ≠ 0 ∧ ∃ i < C.rows, b i j ≠ 0) :
    DifferentOutcome (hemmRight B.toMat.view A.toMat.view t C.toMat) (kkHemmRight A t B C) h := by
  obtain ⟨j, hj, him, i, hi, hb⟩ := him
  refine differ_mat (C33_hemm_right_uses_stored_diagonal _ _ _ _ _ _ _ (Mat.HoldsOn.toView hA)
    (Mat.HoldsOn.toView hB) hC hsq hBC.symm hBA hAC.symm hu hApC hBpC)
    (C48_hemm_right A t B C h a b hA hB hC hAt hCt hsq hBA hBC hAC hu hApC hBpC)
    (i := i) (j := j) hi (hAC ▸ hsq ▸ hj) trivial fun e => him ?_
  have hj' : j ∈ range A.cols := Finset.mem_range.2 (hsq ▸ hj)
  simp only [mulMat] at e
  rw [show (B.toMat.view : MatV ℂ).cols = A.cols from hBA.trans hsq,
    ← Finset.add_sum_erase _ _ hj', ← Finset.add_sum_erase (range A.cols) _ hj'] at e
  rw [if_pos rfl, if_pos rfl, Finset.sum_congr rfl fun k hk => by
    rw [if_neg (Finset.ne_of_mem_erase hk),
      show hermOf t a k j = if k = j then ConjOps.conj (a k k) else hermOf t a k j from
      (if_neg (Finset.ne_of_mem_erase hk)).symm]] at e
  have := congrArg Complex.im (mul_left_cancel₀ hb (add_right_cancel e))
  rw [conj_complex, Complex.conj_im] at this
  linarith

example (t : Triangle) : DifferentOutcome (hemmRight kB.toMat.view kA.toMat.view t kC.toMat)
    (kkHemmRight kA t kB kC) cheap :=
  C50_hemm_right_imaginary_diagonal_false _ _ _ _ _ _ _ (cheap_mat bA) (cheap_mat bB)
    (cheap_alloc bC) rfl rfl rfl rfl rfl rfl (by kview_facts) (by kview_facts) (by kview_facts)
    ⟨0, by decide, by norm_num [kA, A], 0, by decide, fun e => by
      have := congrArg Complex.re e
      norm_num [kB, B] at this⟩

/-! ## Updating matrix-vector product -/

/-- **C50** Updating `matrix_vector_product(exec, A, x, y, z)` adds `y` once per column: over the
reals the outcome differs from the native one whenever `A` has a number of columns other than
1 and `y` is not zero. -/
theorem C50_gemv_update_false (A : KMat) (x y z : KVec)
    (h : Heap ℝ) (a : Nat → Nat → ℝ) (f g : Nat → ℝ) (hA : A.toMat.Holds h a)
    (hx : x.mdspan.Holds h f) (hy : y.mdspan.Holds h g) (hz : z.mdspan.Alloc h)
    (hAt : A.transposed = false) (hxs : x.stride = 1) (hys : y.stride = 1) (hzs : z.stride = 1)
    (hxe : A.cols = x.ext) (hye : A.rows = y.ext) (hze : A.rows = z.ext)
    (hAz : Apart A.toMat.Cell z.mdspan.Cell)
    (hxz : Apart x.mdspan.Cell z.mdspan.Cell) (hyz : y.mdspan.Aligned z.mdspan)
    (hcols : A.cols ≠ 1) (hne : ∃ i < A.rows, g i ≠ 0) :
    DifferentOutcome (gemvUpdate A.toMat.view x.mdspan.view y.mdspan.view z.mdspan)
      (kkGemvUpdate A x y z) h := by
  obtain ⟨i, hi, hg⟩ := hne
  refine differ_vec (C16_gemv_update _ _ _ _ _ _ _ _ (Mat.HoldsOn.toView hA) (Vec.Holds.toView hx)
    (Vec.Holds.toView hy) hz hze.symm hxe.le hye.le (KVec.mdspan_unique hzs) hAz hxz hyz)
    (C48_gemv_update A x y z h a f g hA hx hy hz hAt hxs hys hzs hxe hye hze hAz hxz hyz)
    (i := i) (lt_of_lt_of_eq hi hze) fun e => ?_
  rw [Finset.sum_add_distrib] at e
  have e := add_right_cancel e
  rw [Finset.sum_const, Finset.card_range, nsmul_eq_mul] at e
  have : ((A.cols : ℝ) - 1) * g i = 0 := by linarith
  rcases mul_eq_zero.1 this with e | e
  · exact hcols (by exact_mod_cast sub_eq_zero.1 e)
  · exact hg e

example : DifferentOutcome (gemvUpdate kA.toMat.view kx.mdspan.view ky.mdspan.view kz.mdspan)
    (kkGemvUpdate kA kx ky kz) (heap ℝ) :=
  C50_gemv_update_false _ _ _ _ _ _ _ _ (mholds bA) (holds bkx) (holds bky) (alloc bkz) rfl rfl rfl
    rfl rfl rfl rfl (by kview_facts) (by kview_facts) (by kview_facts) (by decide)
    ⟨0, by decide, by norm_num [vals, ky, KVec.mdspan]⟩

/-! ## Reductions -/

/-- **C50** `vector_abs_sum(exec, x, init)`, complex elements: the backend adds magnitudes, the
native one `|re| + |im|`; the results differ whenever an element has both parts. -/
theorem C50_abs_sum_complex_false (x : KVec) (init : ℝ) (h : Heap ℂ) (f : Nat → ℂ)
    (hx : x.mdspan.Holds h f) (cx : x.stride = 1)
    (hne : ∃ k < x.ext, (f k).re ≠ 0 ∧ (f k).im ≠ 0) :
    DifferentOutcome (vectorAbsSum x.mdspan.view init) (kkAbsSum x init) h := by
  obtain ⟨k, hk, hre, him⟩ := hne
  refine differ_of ?_ (C05_abs_sum_complex _ _ _ _ (Vec.Holds.toView hx))
    (C49_abs_sum x init h f hx cx)
  rintro b h' ⟨e1, _⟩ ⟨e2, _⟩
  have e := add_left_cancel (e1.symm.trans e2)
  refine absurd e (ne_of_gt (Finset.sum_lt_sum (fun i _ => Complex.norm_le_abs_re_add_abs_im (f i))
    ⟨k, Finset.mem_range.2 hk, ?_⟩))
  have h1 := abs_pos.2 hre
  have h2 := abs_pos.2 him
  have h3 : ‖f k‖ ^ 2 = |(f k).re| ^ 2 + |(f k).im| ^ 2 := by
    rw [Complex.sq_norm, Complex.normSq_apply, sq_abs, sq_abs]; ring
  change ‖f k‖ < _
  nlinarith [norm_nonneg (f k)]

example : DifferentOutcome (vectorAbsSum kx.mdspan.view 10) (kkAbsSum kx 10) cheap :=
  C50_abs_sum_complex_false _ _ _ _ (cheap_vec bkx) rfl
    ⟨0, by decide, by norm_num [kx, KVec.mdspan], by norm_num [kx, KVec.mdspan]⟩

/-- **C50** `vector_two_norm(exec, x, init)`: the backend adds `init` under the root; the results
differ for every `init > 1`. -/
theorem C50_norm2_init_false [AbsOps α] [LawfulAbs α] (x : KVec) (init : ℝ) (h : Heap α)
    (f : Nat → α) (hx : x.mdspan.Holds h f) (cx : x.stride = 1) (hinit : 1 < init) :
    DifferentOutcome (vectorTwoNorm x.mdspan.view init) (kkNorm2 x init) h := by
  refine differ_of ?_ (C04_two_norm _ _ _ _ (Vec.Holds.toView hx)) (C49_norm2 x init h f hx cx)
  rintro b h' ⟨e1, _⟩ ⟨e2, _⟩
  rw [e1] at e2
  have hs : 0 ≤ ∑ k ∈ range x.ext, AbsOps.abs (f k) ^ 2 :=
    Finset.sum_nonneg fun k _ => sq_nonneg _
  change init + √(∑ k ∈ range x.ext, AbsOps.abs (f k) ^ 2) = _ at e2
  generalize (∑ k ∈ range x.ext, AbsOps.abs (f k) ^ 2) = s at hs e2
  have h1 := Real.sq_sqrt hs
  have h2 := Real.sq_sqrt (show 0 ≤ init + s by linarith)
  rw [← e2] at h2
  nlinarith [Real.sqrt_nonneg s]

example : DifferentOutcome (vectorTwoNorm kx.mdspan.view 4) (kkNorm2 kx 4) (heap ℝ) :=
  C50_norm2_init_false _ _ _ _ (holds bkx) rfl (by norm_num)

/-- **C50** `matrix_frob_norm(exec, A, init)`: for more than one element, not all zero, the
backend adds `init` under the root; the results differ for every `init > 1`. -/
theorem C50_frob_norm_init_false [AbsOps α] [LawfulAbs α] (low : ℝ) (A : KMat) (init : ℝ)
    (h : Heap α)
    (f : Nat → Nat → α) (hA : A.Holds h f) (cA : A.transposed = false)
    (hmore : 1 < A.rows * A.cols)
    (hne : ∃ i j, i < A.rows ∧ j < A.cols ∧ AbsOps.abs (f i j) ≠ 0) (hinit : 1 < init) :
    DifferentOutcome (matrixFrobNorm A.toMat.view init) (kkFrobNorm low A init) h := by
  refine differ_of ?_ (C07_frob_norm_partial _ _ _ _ (Mat.HoldsOn.toView hA))
    (C49_frob_norm low A init h f hA cA hmore hne)
  rintro b h' ⟨_, e1, _⟩ ⟨_, e2⟩
  rw [e2] at e1
  have hs : 0 ≤ ∑ i ∈ range A.rows, ∑ j ∈ range A.cols, AbsOps.abs (f i j) ^ 2 :=
    Finset.sum_nonneg fun i _ => Finset.sum_nonneg fun j _ => sq_nonneg _
  change init + √(∑ i ∈ range A.rows, ∑ j ∈ range A.cols, AbsOps.abs (f i j) ^ 2) ≤ _ at e1
  generalize (∑ i ∈ range A.rows, ∑ j ∈ range A.cols, AbsOps.abs (f i j) ^ 2) = s at hs e1
  have h1 := Real.sq_sqrt hs
  have h2 := Real.sq_sqrt (show 0 ≤ init + s by linarith)
  have h3 := Real.sqrt_nonneg s
  nlinarith [mul_self_le_mul_self (by linarith) e1]

example : DifferentOutcome (matrixFrobNorm kT.toMat.view 3) (kkFrobNorm (-100) kT 3) (heap ℝ) :=
  C50_frob_norm_init_false _ _ _ _ _ (mholds bT) rfl (by decide)
    ⟨0, 0, by decide, by decide, by norm_num [mvals, kT, T, AbsOps.abs]⟩ (by norm_num)

/-- **C50** `matrix_frob_norm(exec, A, init)` of a zero matrix with more than one element divides
zero by zero; the native one returns `init`. -/
theorem C50_frob_norm_zero_matrix_false [AbsOps α] [LawfulAbs α] (low : ℝ) (A : KMat) (init : ℝ)
    (h : Heap α)
    (f : Nat → Nat → α) (hA : A.Holds h f) (cA : A.transposed = false) (hlow : low ≤ 0)
    (hmore : 1 < A.rows * A.cols)
    (hz : ∀ i j, i < A.rows → j < A.cols → AbsOps.abs (f i j) = 0) :
    SurelyFails (kkFrobNorm low A init) h .divZero ∧
      Ends (matrixFrobNorm A.toMat.view init) h fun r h' => r = init ∧ h' = h := by
  constructor
  · unfold kkFrobNorm
    rw [if_neg (by rintro (e | e) <;> simp [e] at hmore),
      if_neg (by rintro ⟨e1, e2⟩; rw [e1, e2] at hmore; omega), KMat.view_eq cA]
    refine surelyFails_bind_of (parReduce_max
      (Q := fun m h' => m = 0 ∧ h' = h)
      (fun k => AbsOps.abs (f (k / A.cols) (k % A.cols))) ?_ ?_) ?_
    · intro k hk s
      obtain ⟨h1, h2⟩ := div_mod_lt hk
      rw [Rd.bind_ok (hA.look h1 h2)]; rfl
    · refine ⟨maxFold_eq hlow ⟨0, by omega, ?_⟩ ?_, rfl⟩
      · obtain ⟨h1, h2⟩ := div_mod_lt (show 0 < A.rows * A.cols by omega)
        exact hz _ _ h1 h2
      · intro k hk
        obtain ⟨h1, h2⟩ := div_mod_lt hk
        exact (hz _ _ h1 h2).le
    · rintro m h' ⟨rfl, rfl⟩
      refine SurelyFails.bind (parReduce_fails (by omega) fun k hk s => ?_) _
      obtain ⟨h1, h2⟩ := div_mod_lt hk
      rw [Rd.bind_ok (hA.look h1 h2), Rd.bind_error (divLook_error rfl)]
  · refine (C07_frob_norm_partial _ init _ _ (Mat.HoldsOn.toView hA)).mono ?_
    rintro r h' ⟨rfl, _, e⟩
    refine ⟨?_, rfl⟩
    rw [e.2 (.inr fun i j k l _ _ hk hl _ hne => absurd (hz k l hk hl) hne)]
    unfold frobNorm
    rw [Finset.sum_eq_zero fun i hi => Finset.sum_eq_zero fun j hj => by
      rw [hz i j (Finset.mem_range.1 hi) (Finset.mem_range.1 hj)]; norm_num]
    simp

/-- cells 0..9 hold 0 -/
def zeros : Heap ℝ := fun a => if a < 10 then some 0 else none

example : SurelyFails (kkFrobNorm (-100) ⟨⟨2, 3, fun i j => 3 * i + j⟩, false⟩ 5) zeros .divZero ∧
    Ends (matrixFrobNorm (⟨2, 3, fun i j => 3 * i + j⟩ : Mat).view 5) zeros
      fun r h' => r = 5 ∧ h' = zeros :=
  C50_frob_norm_zero_matrix_false _ _ _ _ (fun _ _ => 0)
    (fun i j hi hj _ => by
      simp only at hi hj
      exact if_pos (show 3 * i + j < 10 by omega))
    rfl (by norm_num) (by decide) fun _ _ _ _ => by simp [AbsOps.abs]

/-- **C50** `vector_sum_of_squares(exec, x, init)` when the old scaling factor is larger than the
largest magnitude `m > 0` of `x`: the old sum is divided by `m²` instead of the square of the
new scaling factor, so the results differ unless the old sum is zero. -/
theorem C50_sum_of_squares_init_false [AbsOps α] [LawfulAbs α] (low : ℝ) (x : KVec)
    (init : SumOfSquares) (h : Heap α)
    (f : Nat → α) (hx : x.mdspan.Holds h f) (cx : x.stride = 1) (hlow : low ≤ 0) (m : ℝ)
    (hm : ∃ k < x.ext, AbsOps.abs (f k) = m) (hm' : ∀ k < x.ext, AbsOps.abs (f k) ≤ m)
    (hpos : 0 < m) (hlt : m < init.scalingFactor) (hne : init.scaledSumOfSquares ≠ 0) :
    DifferentOutcome (vectorSumOfSquares x.mdspan.view init) (kkSumOfSquares low x init) h := by
  refine differ_of ?_ (C03_sum_of_squares x.mdspan.view init h f (Vec.Holds.toView hx))
    (C49_sum_of_squares low x init h f hx cx hlow m hm hm' hpos)
  rintro ⟨s, q⟩ h' ⟨-, e1, -⟩ ⟨-, e2, e3⟩
  simp only at e1 e2 e3
  rw [max_eq_right hlt.le] at e2
  have hs : 0 < s := by rw [e2]; exact hpos.trans hlt
  rw [← e2] at e1
  have e4 : s ^ 2 * ∑ k ∈ range x.ext, (AbsOps.abs (f k) / s) ^ 2 =
      ∑ k ∈ range x.ext, AbsOps.abs (f k) ^ 2 := by
    rw [Finset.mul_sum]
    refine Finset.sum_congr rfl fun k _ => ?_
    field_simp
  rw [e3, mul_add, e4, add_comm, ← e2] at e1
  have e5 := add_right_cancel e1
  have e6 : s ^ 2 * init.scaledSumOfSquares * (s ^ 2 - m ^ 2) = 0 := by
    have hm2 : m ^ 2 ≠ 0 := by positivity
    rw [← mul_div_assoc, div_eq_iff hm2] at e5
    have hs2 : s ^ 2 ≠ 0 := by positivity
    refine mul_left_cancel₀ hs2 ?_
    linear_combination s ^ 2 * e5
  rw [← e2] at hlt
  rcases mul_eq_zero.1 e6 with e | e
  · rcases mul_eq_zero.1 e with e | e
    · exact absurd e (by positivity)
    · exact hne e
  · nlinarith

example : DifferentOutcome (vectorSumOfSquares kx.mdspan.view ⟨9, 5⟩)
    (kkSumOfSquares (-100) kx ⟨9, 5⟩) (heap ℝ) := by
  refine C50_sum_of_squares_init_false (-100) kx ⟨9, 5⟩ _ _ (holds bkx) rfl (by norm_num) 7
    ⟨0, by decide, ?_⟩ ?_ (by norm_num) (by norm_num) (by norm_num)
  · simp [vals, kx, KVec.mdspan, AbsOps.abs]
  · intro k hk
    simp only [kx] at hk
    interval_cases k <;> norm_num [vals, kx, KVec.mdspan, AbsOps.abs]

/-- **C50** `vector_sum_of_squares(exec, x, init)` of a zero vector divides by zero; the native one
returns `init`. -/
theorem C50_sum_of_squares_zero_vector_false [AbsOps α] (low : ℝ) (x : KVec)
    (init : SumOfSquares) (h : Heap α)
    (f : Nat → α) (hx : x.mdspan.Holds h f) (cx : x.stride = 1) (hlow : low ≤ 0)
    (hne : x.ext ≠ 0) (hz : ∀ k < x.ext, AbsOps.abs (f k) = 0) :
    SurelyFails (kkSumOfSquares low x init) h .divZero ∧
      Ends (vectorSumOfSquares x.mdspan.view init) h fun r h' => r = init ∧ h' = h := by
  constructor
  · unfold kkSumOfSquares
    rw [KVec.view_eq cx]
    refine surelyFails_bind_of (parReduce_max
      (Q := fun m h' => m = 0 ∧ h' = h) (fun k => AbsOps.abs (f k)) ?_ ?_) ?_
    · intro k hk s
      rw [Rd.bind_ok (hx.look hk)]; rfl
    · exact ⟨maxFold_eq hlow ⟨0, Nat.pos_of_ne_zero hne, hz 0 (Nat.pos_of_ne_zero hne)⟩
        fun k hk => (hz k hk).le, rfl⟩
    · rintro m h' ⟨rfl, rfl⟩
      by_cases hs : max 0 init.scalingFactor = 0
      · refine SurelyFails.bind (parReduce_fails (Nat.pos_of_ne_zero hne) fun k hk s => ?_) _
        rw [Rd.bind_ok (hx.look hk), Rd.bind_error (divLook_error hs)]
      · refine surelyFails_bind_of (parReduce_sum (Q := fun _ h'' => h'' = h')
          (fun k => (AbsOps.abs (f k) / max 0 init.scalingFactor) ^ 2) ?_ rfl) ?_
        · intro k hk s
          rw [Rd.bind_ok (hx.look hk), Rd.bind_ok (divLook_ok hs)]
          simp only [pow_two]
          rfl
        · rintro q h'' rfl
          refine SurelyFails.bind (fun r => ?_) _
          unfold Sched.lift divChecked
          rw [if_pos (mul_zero 0)]
          exact eq_comm
  · unfold vectorSumOfSquares
    rw [if_neg (show ¬ x.mdspan.view.ext = 0 from hne)]
    refine (ends_foldEach_read (fun s _ => s) ?_).mono fun r h' e => ⟨?_, e.2⟩
    · intro i hi s
      have hi' : i < x.ext := by
        have := (List.mem_range'_1.1 hi).2
        rwa [Nat.zero_add] at this
      refine ends_bind.2 (ends_vecV_get.2 ⟨hi', f i, hx i hi', ?_⟩)
      rw [if_neg (show ¬ AbsOps.abs (x.mdspan.view.acc (f i)) ≠ 0 from not_not.2 (hz i hi'))]
      exact ends_pure.2 ⟨rfl, rfl⟩
    · rw [e.1, List.foldl_fixed]

example : SurelyFails (kkSumOfSquares (-100) ⟨3, 2, 1⟩ ⟨4, 5⟩) zeros .divZero ∧
    Ends (vectorSumOfSquares (⟨3, 2, 1⟩ : KVec).mdspan.view ⟨4, 5⟩) zeros
      fun r h' => r = ⟨4, 5⟩ ∧ h' = zeros :=
  C50_sum_of_squares_zero_vector_false _ _ _ _ (fun _ => 0)
    (fun i hi => by
      simp only [KVec.mdspan] at hi ⊢
      exact if_pos (show 2 + 1 * i < 10 by omega))
    rfl (by norm_num) (by decide) fun _ _ => by simp [AbsOps.abs]

/-- **C50** `vector_sum_of_squares(exec, x, init)` of an empty vector divides the old part by the
square of the lowest value of the type; the native one returns `init`. -/
theorem C50_sum_of_squares_empty_false [AbsOps α] (low : ℝ) (x : KVec)
    (init : SumOfSquares) (h : Heap α) (hlow : low < 0) (he : x.ext = 0)
    (hl : init.scalingFactor ≠ -low) (h0 : 0 < init.scalingFactor)
    (hne : init.scaledSumOfSquares ≠ 0) :
    DifferentOutcome (vectorSumOfSquares x.mdspan.view init) (kkSumOfSquares low x init) h := by
  have hk : Surely (kkSumOfSquares low x init : Sched α _) h fun r _ => r.scaledSumOfSquares =
      init.scalingFactor * init.scalingFactor * init.scaledSumOfSquares / (low * low) := by
    unfold kkSumOfSquares
    refine surely_bind (parReduce_max (fun _ => 0) ?_ ?_)
    · intro i hi; exact absurd hi (by rw [show x.view.ext = 0 from he]; omega)
    rw [show x.view.ext = 0 from he]
    refine surely_bind (parReduce_sum (fun _ => 0) ?_ ?_)
    · intro i hi; omega
    refine surely_bind (surely_lift.2 (ends_divChecked.2 ⟨?_, ?_⟩))
    · exact mul_ne_zero hlow.ne hlow.ne
    · exact surely_pure.2 (by simp [maxFold])
  have hn : Ends (vectorSumOfSquares x.mdspan.view init) h fun r _ => r = init := by
    unfold vectorSumOfSquares
    rw [if_pos (show x.mdspan.view.ext = 0 from he)]
    exact ends_pure.2 rfl
  refine differ_of ?_ hn hk
  rintro r h' rfl e
  have hl2 : low * low ≠ 0 := mul_ne_zero hlow.ne hlow.ne
  rw [eq_div_iff hl2] at e
  have e6 : r.scaledSumOfSquares * ((low - r.scalingFactor) * (low + r.scalingFactor)) = 0 := by
    linear_combination e
  rcases mul_eq_zero.1 e6 with e | e
  · exact hne e
  · rcases mul_eq_zero.1 e with e | e
    · linarith
    · exact hl (by linarith)

example : DifferentOutcome (vectorSumOfSquares (⟨0, 0, 1⟩ : KVec).mdspan.view ⟨4, 5⟩)
    (kkSumOfSquares (-100) ⟨0, 0, 1⟩ ⟨4, 5⟩) (heap ℝ) :=
  C50_sum_of_squares_empty_false _ _ _ _ (by norm_num) rfl (by norm_num) (by norm_num) (by norm_num)

/-- **C50** `matrix_one_norm(exec, A, init)` of a matrix with columns but no rows reads `A(0, j)`:
undefined behaviour; the native one returns `init`. -/
theorem C50_one_norm_no_rows_false [AbsOps α] [LawfulAbs α] (low : ℝ) (A : KMat) (init : ℝ)
    (h : Heap α) (cA : A.transposed = false) (hr : A.rows = 0) (hc : A.cols ≠ 0) :
    SurelyFails (kkOneNorm low A init) h .ub ∧
      Ends (matrixOneNorm A.toMat.view init) h fun r h' => r = init ∧ h' = h := by
  constructor
  · unfold kkOneNorm
    rw [if_neg hc, KMat.view_eq cA]
    refine SurelyFails.bind (parReduce_fails (Nat.pos_of_ne_zero hc) fun j hj s => ?_) _
    refine Rd.bind_error ?_
    unfold Mat.look
    rw [if_neg (by rw [hr]; omega)]
    rfl
  · unfold matrixOneNorm
    rw [if_pos (show A.toMat.view.rows = 0 ∨ A.toMat.view.cols = 0 from Or.inl hr)]
    exact ends_pure.2 ⟨rfl, rfl⟩

example : SurelyFails (kkOneNorm (-100) ⟨⟨0, 2, fun i j => i + j⟩, false⟩ 5) (heap ℝ) .ub ∧
    Ends (matrixOneNorm (⟨0, 2, fun i j => i + j⟩ : Mat).view 5) (heap ℝ)
      fun r h' => r = 5 ∧ h' = heap ℝ :=
  C50_one_norm_no_rows_false _ _ _ _ rfl rfl (by decide)

end StdBLAS

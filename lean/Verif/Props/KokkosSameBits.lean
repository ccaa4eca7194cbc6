import Verif.Lemmas.KokkosAccurate
import Verif.Props.EvaluationOrder
import Verif.Props.KokkosOrdered
import Verif.Props.KokkosNative

/-!
# Property C67: for which calls the Kokkos backend gives the bits of the native implementation

The element type has operations that satisfy no law, so equality here is equality of bits for
floating-point elements too.  Every theorem says: both calls end normally, and the Kokkos call, under
every schedule, leaves the same memory as the native one.  Restrictions as in C48: vectors have
stride 1, matrices are not transposed views.

`copy`, `swap_elements` and the rank-1 and rank-2 updates are in `KokkosNative.lean` (C50): those
theorems assume no law either.  The calls for which the bits differ are in
`KokkosDifferentBits.lean`.
-/

namespace StdBLAS
open Witness
variable {α : Type}

/-- The Kokkos kernel adds the terms of a lower triangle in ascending order. -/
theorem kkSymSeq_lower [Add α] [Mul α] [Zero α] (c : α → α) (a : Nat → Nat → α) (f : Nat → α)
    {n i : Nat} (hi : i < n) :
    kkSymSeq c .lower n a f i = leftSum 0 n fun k => mirror c .lower a i k * f k := by
  rw [show n = (i + 1) + (n - (i + 1)) by omega, leftSum_add]
  simp only [kkSymSeq, Nat.add_sub_cancel_left]
  rw [leftSum_congr (n := i + 1) (t' := fun k => mirror c .lower a i k * f k) fun k hk => ?_]
  · refine leftSum_congr fun k _ => ?_
    rw [mirror, if_neg (by simp only [Triangle.region]; omega)]
  · rw [mirror, if_pos (by simp only [Triangle.region]; omega)]

/-- The rows of the two triangular products. -/
theorem kkTriSeq_row [Add α] [Mul α] [Zero α] (t : Triangle) (d : Diag) (a : Nat → Nat → α)
    (f : Nat → α) {n i : Nat} (ht : t = .lower ∨ d = .explicit) :
    kkTriSeq t d n i (fun k => a i k * f k) (f i) = triSeq t d n a f 0 i := by
  cases t <;> cases d
  · simp at ht
  · exact leftSum_congr fun k _ => by rw [triTerm, if_neg (by simp)]
  · simp only [kkTriSeq, triSeq, leftSum]
    rw [show triTerm .implicitUnit a f i i = f i by rw [triTerm, if_pos ⟨rfl, rfl⟩]]
    exact congrArg (· + f i) (leftSum_congr fun k hk => by rw [triTerm, if_neg (by omega)])
  · exact leftSum_congr fun k _ => by rw [triTerm, if_neg (by simp)]

/-- **C67** `symmetric_matrix_rank_k_update(exec, alpha, A, C, t)`: the same bits. -/
theorem C67_syrk [Add α] [Mul α] (alpha : α) (A C : KMat) (t : Triangle) (h : Heap α)
    (a c : Nat → Nat → α) (hA : A.toMat.Holds h a) (hC : C.toMat.HoldsOn h t.region c)
    (hAt : A.transposed = false) (hCt : C.transposed = false)
    (he : A.rows = C.rows) (hsq : C.rows = C.cols) (hu : C.toMat.UniqueOn t.region)
    (hAC : Apart A.toMat.Cell (C.toMat.CellOn t.region)) :
    SameOutcome (syrkAlpha alpha A.toMat.view C.toMat t)
      (kkSyrk alpha A C t) h :=
  same_mat
    (C54_syrk_alpha _ _ _ _ _ _ _ (Mat.HoldsOn.toView hA) hC hsq he.ge hu hAC)
    (C65_syrk alpha A C t h a c hA hC hAt hCt he hsq hu hAC)
    (fun _ _ _ _ _ => rfl)

example (t : Triangle) : SameOutcome (syrkAlpha (.int 5) kT.toMat.view kA.toMat t)
    (kkSyrk (.int 5) kT kA t) (heap Term) :=
  C67_syrk _ _ _ _ _ _ _ (mholds bT) (mholds bA) rfl rfl rfl rfl (by kview_facts) (by kview_facts)

/-- **C67** `hermitian_matrix_rank_k_update(exec, alpha, A, C, t)` when the stored diagonal is
real: the same bits.  Missing: other diagonals, `C50_herk_imaginary_diagonal_false`. -/
theorem C67_herk_partial [Add α] [Mul α] [ConjOps α] (alpha : α) (A C : KMat) (t : Triangle)
    (h : Heap α)
    (a c : Nat → Nat → α) (hA : A.toMat.Holds h a) (hC : C.toMat.HoldsOn h t.region c)
    (hAt : A.transposed = false) (hCt : C.transposed = false)
    (he : A.rows = C.rows) (hsq : C.rows = C.cols) (hu : C.toMat.UniqueOn t.region)
    (hAC : Apart A.toMat.Cell (C.toMat.CellOn t.region))
    (hreal : ∀ i, i < C.rows → ConjOps.re (c i i) = c i i) :
    SameOutcome (herkAlpha alpha A.toMat.view C.toMat t)
      (kkHerk alpha A C t) h :=
  same_mat
    (C54_herk_alpha _ _ _ _ _ _ _ (Mat.HoldsOn.toView hA) hC hsq he.ge hu hAC)
    (C65_herk alpha A C t h a c hA hC hAt hCt he hsq hu hAC)
    fun i j hi _ _ => by
      split
      · next e => subst e; rw [hreal i hi]; rfl
      · rfl

example (t : Triangle) : SameOutcome (herkAlpha 5 kT.toMat.view kA.toMat t)
    (kkHerk 5 kT kA t) (heap ℂ) :=
  C67_herk_partial _ _ _ _ _ _ _ (mholds bT) (mholds bA) rfl rfl rfl rfl (by kview_facts) (by
      kview_facts)
    (by intro i _; simp [mvals, ConjOps.re])

/-- **C67** `symmetric_matrix_rank_2k_update(exec, A, B, C, t)`: the same bits. -/
theorem C67_syr2k [Add α] [Mul α] (A B C : KMat) (t : Triangle) (h : Heap α)
    (a b c : Nat → Nat → α) (hA : A.toMat.Holds h a) (hB : B.toMat.Holds h b)
    (hC : C.toMat.HoldsOn h t.region c)
    (hAt : A.transposed = false) (hBt : B.transposed = false) (hCt : C.transposed = false)
    (he : A.rows = C.rows) (he' : B.rows = C.rows) (hsq : C.rows = C.cols)
    (hK : A.cols = B.cols) (hu : C.toMat.UniqueOn t.region)
    (hAC : Apart A.toMat.Cell (C.toMat.CellOn t.region))
    (hBC : Apart B.toMat.Cell (C.toMat.CellOn t.region)) :
    SameOutcome (syr2k A.toMat.view B.toMat.view C.toMat t)
      (kkSyr2k A B C t) h :=
  same_mat
    (C54_syr2k _ _ _ _ _ _ _ _ (Mat.HoldsOn.toView hA) (Mat.HoldsOn.toView hB) hC hsq he.ge he'.ge
      hK.le hu hAC hBC)
    (C65_syr2k A B C t h a b c hA hB hC hAt hBt hCt he he' hsq hK hu hAC hBC)
    (fun _ _ _ _ _ => rfl)

example (t : Triangle) : SameOutcome (syr2k kB.toMat.view kC.toMat.view kA.toMat t)
    (kkSyr2k kB kC kA t) (heap Term) :=
  C67_syr2k _ _ _ _ _ _ _ _ (mholds bB) (mholds bC) (mholds bA) rfl rfl rfl rfl rfl rfl rfl (by
      kview_facts) (by kview_facts) (by kview_facts)

/-- **C67** `hermitian_matrix_rank_2k_update(exec, A, B, C, t)` when the stored diagonal is
real: the same bits.  Missing: other diagonals, `C50_her2k_imaginary_diagonal_false`. -/
theorem C67_her2k_partial [Add α] [Mul α] [ConjOps α] (A B C : KMat) (t : Triangle)
    (h : Heap α)
    (a b c : Nat → Nat → α) (hA : A.toMat.Holds h a) (hB : B.toMat.Holds h b)
    (hC : C.toMat.HoldsOn h t.region c)
    (hAt : A.transposed = false) (hBt : B.transposed = false) (hCt : C.transposed = false)
    (he : A.rows = C.rows) (he' : B.rows = C.rows) (hsq : C.rows = C.cols)
    (hK : A.cols = B.cols) (hu : C.toMat.UniqueOn t.region)
    (hAC : Apart A.toMat.Cell (C.toMat.CellOn t.region))
    (hBC : Apart B.toMat.Cell (C.toMat.CellOn t.region))
    (hreal : ∀ i, i < C.rows → ConjOps.re (c i i) = c i i) :
    SameOutcome (her2k A.toMat.view B.toMat.view C.toMat t)
      (kkHer2k A B C t) h :=
  same_mat
    (C54_her2k _ _ _ _ _ _ _ _ (Mat.HoldsOn.toView hA) (Mat.HoldsOn.toView hB) hC hsq he.ge he'.ge
      hK.le hu hAC hBC)
    (C65_her2k A B C t h a b c hA hB hC hAt hBt hCt he he' hsq hK hu hAC hBC)
    fun i j hi _ _ => by
      split
      · next e => subst e; rw [hreal i hi]; rfl
      · rfl

example (t : Triangle) : SameOutcome (her2k kB.toMat.view kC.toMat.view kA.toMat t)
    (kkHer2k kB kC kA t) (heap ℂ) :=
  C67_her2k_partial _ _ _ _ _ _ _ _ (mholds bB) (mholds bC) (mholds bA) rfl rfl rfl rfl rfl rfl rfl
      (by kview_facts) (by kview_facts) (by kview_facts)
    (by intro i _; simp [mvals, ConjOps.re])

/-- **C67** `symmetric_matrix_vector_product(exec, A, t, x, y)` of a lower triangle: the same bits.  Missing:
upper triangles, `C67_symv_upper_false`. -/
theorem C67_symv_partial [Add α] [Mul α] [Zero α] (A : KMat) (t : Triangle) (x y : KVec)
    (h : Heap α) (a : Nat → Nat → α) (f : Nat → α) (hA : A.toMat.HoldsOn h t.region a)
    (hx : x.mdspan.Holds h f) (hy : y.mdspan.Alloc h) (hAt : A.transposed = false)
    (hxs : x.stride = 1) (hys : y.stride = 1) (hsq : A.rows = A.cols) (hxe : A.cols = x.ext)
    (hye : A.rows = y.ext) (hAy : Apart (A.toMat.CellOn t.region) y.mdspan.Cell)
    (hxy : Apart x.mdspan.Cell y.mdspan.Cell) (ht : t = .lower) :
    SameOutcome (symv A.toMat.view t x.mdspan.view y.mdspan)
      (kkSymv A t x y) h :=
  same_vec
    (C54_symv _ _ _ _ _ _ _ (Mat.HoldsOn.toView hA) (Vec.Holds.toView hx) hy hsq hye hxe.le
      (KVec.mdspan_unique hys) hAy hxy)
    (C65_symv A t x y h a f hA hx hy hAt hxs hys hsq hxe hye hAy hxy)
    fun i hi => by
      subst ht
      rw [kkSymSeq_lower id a f (show i < A.cols by rw [← hsq, hye]; exact hi)]
      exact leftSum_congr fun k _ => by rw [mirror_id]

example : SameOutcome (symv kA.toMat.view .lower kx.mdspan.view ky.mdspan)
    (kkSymv kA .lower kx ky) (heap Term) :=
  C67_symv_partial kA .lower kx ky _ _ _ (mholds bA) (holds bkx) (alloc bky) rfl rfl rfl rfl rfl
      rfl (by kview_facts)
    (by kview_facts) rfl

/-- **C67** `hermitian_matrix_vector_product(exec, A, t, x, y)` of a lower triangle when the
stored diagonal is real: the same bits.  Missing: upper triangles, `C67_hemv_upper_false`, and other
diagonals, `C50_hemv_imaginary_diagonal_false`. -/
theorem C67_hemv_partial [Add α] [Mul α] [Zero α] [ConjOps α] (A : KMat) (t : Triangle)
    (x y : KVec) (h : Heap α) (a : Nat → Nat → α) (f : Nat → α)
    (hA : A.toMat.HoldsOn h t.region a)
    (hx : x.mdspan.Holds h f) (hy : y.mdspan.Alloc h) (hAt : A.transposed = false)
    (hxs : x.stride = 1) (hys : y.stride = 1) (hsq : A.rows = A.cols) (hxe : A.cols = x.ext)
    (hye : A.rows = y.ext) (hAy : Apart (A.toMat.CellOn t.region) y.mdspan.Cell)
    (hxy : Apart x.mdspan.Cell y.mdspan.Cell) (ht : t = .lower)
    (hreal : ∀ i, i < A.rows → ConjOps.re (a i i) = a i i) :
    SameOutcome (hemv A.toMat.view t x.mdspan.view y.mdspan)
      (kkHemv A t x y) h :=
  same_vec
    (C54_hemv _ _ _ _ _ _ _ (Mat.HoldsOn.toView hA) (Vec.Holds.toView hx) hy hsq hye hxe.le
      (KVec.mdspan_unique hys) hAy hxy)
    (C65_hemv A t x y h a f hA hx hy hAt hxs hys hsq hxe hye hAy hxy)
    fun i hi => by
      subst ht
      have hi' : i < A.rows := by rw [hye]; exact hi
      rw [kkSymSeq_lower _ a f (hsq ▸ hi')]
      refine leftSum_congr fun j _ => ?_
      rw [mirror_conj]
      split
      · next e => subst e; rw [hermOf, if_pos rfl, hreal i hi']
      · rfl

example : SameOutcome (hemv kA.toMat.view .lower kx.mdspan.view ky.mdspan)
    (kkHemv kA .lower kx ky) (heap ℂ) :=
  C67_hemv_partial kA .lower kx ky _ _ _ (mholds bA) (holds bkx) (alloc bky) rfl rfl rfl rfl rfl
      rfl (by kview_facts)
    (by kview_facts) rfl
    (by intro i _; simp [mvals, ConjOps.re])

/-- **C67** `triangular_matrix_vector_product(exec, A, t, d, x, y)` unless `A` is an upper
triangle with implicit unit diagonal: the same bits.  Missing: that case, `C67_trmv_upper_unit_false`. -/
theorem C67_trmv_partial [Add α] [Mul α] [Zero α] (A : KMat) (t : Triangle) (d : Diag) (x y : KVec)
    (h : Heap α) (a : Nat → Nat → α) (f : Nat → α) (hA : A.toMat.HoldsOn h (triRegion t d) a)
    (hx : x.mdspan.Holds h f) (hy : y.mdspan.Alloc h) (hAt : A.transposed = false)
    (hxs : x.stride = 1) (hys : y.stride = 1) (hsq : A.rows = A.cols) (hxe : A.cols = x.ext)
    (hye : A.rows = y.ext) (hAy : Apart (A.toMat.CellOn (triRegion t d)) y.mdspan.Cell)
    (hxy : Apart x.mdspan.Cell y.mdspan.Cell) (ht : t = .lower ∨ d = .explicit) :
    SameOutcome (trmv A.toMat.view t d x.mdspan.view y.mdspan)
      (kkTrmv A t d x y) h :=
  same_vec
    (C54_trmv _ _ _ _ _ _ _ _ (Mat.HoldsOn.toView hA) (Vec.Holds.toView hx) hy hsq hye hxe.le
      (KVec.mdspan_unique hys) hAy hxy)
    (C65_trmv A t d x y h a f hA hx hy hAt hxs hys hsq hxe hye hAy hxy)
    fun _ _ => kkTriSeq_row t d a f ht

example (d : Diag) : SameOutcome (trmv kA.toMat.view .lower d kx.mdspan.view ky.mdspan)
    (kkTrmv kA .lower d kx ky) (heap Term) :=
  C67_trmv_partial kA .lower d kx ky _ _ _ (mholds bA) (holds bkx) (alloc bky) rfl rfl rfl rfl rfl
      rfl (by kview_facts)
    (by kview_facts) (.inl rfl)

/-- **C67** `symmetric_matrix_left_product(exec, A, t, B, C)`: the same bits. -/
theorem C67_symm_left [Add α] [Mul α] [Zero α] (A : KMat) (t : Triangle) (B C : KMat)
    (h : Heap α) (a b : Nat → Nat → α) (hA : A.toMat.HoldsOn h t.region a)
    (hB : B.toMat.Holds h b) (hC : C.toMat.Alloc h) (hAt : A.transposed = false)
    (hBt : B.transposed = false) (hCt : C.transposed = false)
    (hsq : A.rows = A.cols) (hAB : A.cols = B.rows) (hAC : A.rows = C.rows)
    (hBC : B.cols = C.cols) (hu : C.toMat.Unique)
    (hApC : Apart (A.toMat.CellOn t.region) C.toMat.Cell)
    (hBpC : Apart B.toMat.Cell C.toMat.Cell) :
    SameOutcome (symmLeft A.toMat.view t B.toMat.view C.toMat)
      (kkSymmLeft A t B C) h :=
  same_mat
    (C54_symm_left _ _ _ _ _ _ _ (Mat.HoldsOn.toView hA) (Mat.HoldsOn.toView hB) hC hsq hAC.symm
      hAB hBC.symm hu hApC hBpC)
    (C65_symm_left A t B C h a b hA hB hC hAt hBt hCt hsq hAB hAC hBC hu hApC hBpC)
    (fun _ _ _ _ _ => rfl)

example : SameOutcome (symmLeft kA.toMat.view .lower kB.toMat.view kC.toMat)
    (kkSymmLeft kA .lower kB kC) (heap Term) :=
  C67_symm_left kA .lower kB kC _ _ _ (mholds bA) (mholds bB) (malloc bC) rfl rfl rfl rfl rfl rfl
      rfl (by kview_facts) (by kview_facts) (by kview_facts)

/-- **C67** `symmetric_matrix_right_product(exec, A, t, B, C)`: the same bits. -/
theorem C67_symm_right [Add α] [Mul α] [Zero α] (A : KMat) (t : Triangle) (B C : KMat)
    (h : Heap α) (a b : Nat → Nat → α) (hA : A.toMat.HoldsOn h t.region a)
    (hB : B.toMat.Holds h b) (hC : C.toMat.Alloc h) (hAt : A.transposed = false)
    (hCt : C.transposed = false)
    (hsq : A.rows = A.cols) (hBA : B.cols = A.rows) (hBC : B.rows = C.rows)
    (hAC : A.cols = C.cols) (hu : C.toMat.Unique)
    (hApC : Apart (A.toMat.CellOn t.region) C.toMat.Cell)
    (hBpC : Apart B.toMat.Cell C.toMat.Cell) :
    SameOutcome (symmRight B.toMat.view A.toMat.view t C.toMat)
      (kkSymmRight A t B C) h :=
  same_mat
    (C54_symm_right _ _ _ _ _ _ _ (Mat.HoldsOn.toView hA) (Mat.HoldsOn.toView hB) hC hsq hBC.symm
      hBA hAC.symm hu hApC hBpC)
    (C65_symm_right A t B C h a b hA hB hC hAt hCt hsq hBA hBC hAC hu hApC hBpC)
    (fun _ _ _ _ _ => rfl)

example : SameOutcome (symmRight kB.toMat.view kA.toMat.view .upper kC.toMat)
    (kkSymmRight kA .upper kB kC) (heap Term) :=
  C67_symm_right kA .upper kB kC _ _ _ (mholds bA) (mholds bB) (malloc bC) rfl rfl rfl rfl rfl rfl
      (by kview_facts) (by kview_facts) (by kview_facts)

/-- **C67** `hermitian_matrix_left_product(exec, A, t, B, C)` when the stored diagonal is
real: the same bits.  Missing: other diagonals, `C50_hemm_conjugates_diagonal`. -/
theorem C67_hemm_left_partial [Add α] [Mul α] [Zero α] [ConjOps α] (A : KMat) (t : Triangle)
    (B C : KMat)
    (h : Heap α) (a b : Nat → Nat → α) (hA : A.toMat.HoldsOn h t.region a)
    (hB : B.toMat.Holds h b) (hC : C.toMat.Alloc h) (hAt : A.transposed = false)
    (hBt : B.transposed = false) (hCt : C.transposed = false)
    (hsq : A.rows = A.cols) (hAB : A.cols = B.rows) (hAC : A.rows = C.rows)
    (hBC : B.cols = C.cols) (hu : C.toMat.Unique)
    (hApC : Apart (A.toMat.CellOn t.region) C.toMat.Cell)
    (hBpC : Apart B.toMat.Cell C.toMat.Cell)
    (hreal : ∀ i, i < A.rows → ConjOps.re (a i i) = a i i ∧ ConjOps.conj (a i i) = a i i) :
    SameOutcome (hemmLeft A.toMat.view t B.toMat.view C.toMat)
      (kkHemmLeft A t B C) h :=
  same_mat
    (C54_hemm_left _ _ _ _ _ _ _ (Mat.HoldsOn.toView hA) (Mat.HoldsOn.toView hB) hC hsq hAC.symm
      hAB hBC.symm hu hApC hBpC)
    (C65_hemm_left A t B C h a b hA hB hC hAt hBt hCt hsq hAB hAC hBC hu hApC hBpC)
    fun i j hi _ _ => by
      have hi' : i < A.rows := by rw [hAC]; exact hi
      refine leftSum_congr fun k _ => ?_
      split
      · next e =>
        subst e
        rw [hermOf, if_pos rfl, (hreal i hi').1, (hreal i hi').2]
      · rfl

example : SameOutcome (hemmLeft kA.toMat.view .lower kB.toMat.view kC.toMat)
    (kkHemmLeft kA .lower kB kC) (heap ℂ) :=
  C67_hemm_left_partial kA .lower kB kC _ _ _ (mholds bA) (mholds bB) (malloc bC) rfl rfl rfl rfl
      rfl rfl rfl (by kview_facts) (by kview_facts) (by kview_facts)
    (by intro i _; constructor <;> simp [mvals, ConjOps.re, ConjOps.conj, Complex.conj_ofNat])

/-- **C67** `hermitian_matrix_right_product(exec, A, t, B, C)` when the stored diagonal is
real: the same bits.  Missing: other diagonals, `C50_hemm_conjugates_diagonal`. -/
theorem C67_hemm_right_partial [Add α] [Mul α] [Zero α] [ConjOps α] (A : KMat) (t : Triangle)
    (B C : KMat)
    (h : Heap α) (a b : Nat → Nat → α) (hA : A.toMat.HoldsOn h t.region a)
    (hB : B.toMat.Holds h b) (hC : C.toMat.Alloc h) (hAt : A.transposed = false)
    (hCt : C.transposed = false)
    (hsq : A.rows = A.cols) (hBA : B.cols = A.rows) (hBC : B.rows = C.rows)
    (hAC : A.cols = C.cols) (hu : C.toMat.Unique)
    (hApC : Apart (A.toMat.CellOn t.region) C.toMat.Cell)
    (hBpC : Apart B.toMat.Cell C.toMat.Cell)
    (hreal : ∀ i, i < A.rows → ConjOps.re (a i i) = a i i ∧ ConjOps.conj (a i i) = a i i) :
    SameOutcome (hemmRight B.toMat.view A.toMat.view t C.toMat)
      (kkHemmRight A t B C) h :=
  same_mat
    (C54_hemm_right _ _ _ _ _ _ _ (Mat.HoldsOn.toView hA) (Mat.HoldsOn.toView hB) hC hsq hBC.symm
      hBA hAC.symm hu hApC hBpC)
    (C65_hemm_right A t B C h a b hA hB hC hAt hCt hsq hBA hBC hAC hu hApC hBpC)
    fun i j _ hj _ => by
      have hj' : j < A.rows := by rw [hsq, hAC]; exact hj
      refine leftSum_congr fun k _ => ?_
      split
      · next e =>
        subst e
        rw [(hreal k hj').2]
      · rfl

example : SameOutcome (hemmRight kB.toMat.view kA.toMat.view .upper kC.toMat)
    (kkHemmRight kA .upper kB kC) (heap ℂ) :=
  C67_hemm_right_partial kA .upper kB kC _ _ _ (mholds bA) (mholds bB) (malloc bC) rfl rfl rfl rfl
      rfl rfl (by kview_facts) (by kview_facts) (by kview_facts)
    (by intro i _; constructor <;> simp [mvals, ConjOps.re, ConjOps.conj, Complex.conj_ofNat])

/-- **C67** `triangular_matrix_left_product(exec, A, t, implicit_unit_diagonal, B, C)`: the same bits. -/
theorem C67_trmm_left [Add α] [Mul α] [Zero α] (A : KMat) (t : Triangle) (B C : KMat)
    (h : Heap α) (a b : Nat → Nat → α) (hA : A.toMat.HoldsOn h (triRegion t .implicitUnit) a)
    (hB : B.toMat.Holds h b) (hC : C.toMat.Alloc h) (hAt : A.transposed = false)
    (hBt : B.transposed = false) (hCt : C.transposed = false)
    (hsq : A.rows = A.cols) (hAB : A.cols = B.rows) (hAC : A.rows = C.rows)
    (hBC : B.cols = C.cols) (hu : C.toMat.Unique)
    (hApC : Apart (A.toMat.CellOn (triRegion t .implicitUnit)) C.toMat.Cell)
    (hBpC : Apart B.toMat.Cell C.toMat.Cell) :
    SameOutcome (trmmLeft A.toMat.view t .implicitUnit B.toMat.view C.toMat)
      (kkTrmmLeft A t B C) h :=
  same_mat
    (C54_trmm_left _ _ _ _ _ _ _ _ (Mat.HoldsOn.toView hA) (Mat.HoldsOn.toView hB) hC hsq hAC.symm
      hAB hBC.symm hu hApC hBpC)
    (C65_trmm_left A t B C h a b hA hB hC hAt hBt hCt hsq hAB hAC hBC hu hApC hBpC)
    fun i j hi _ _ => by
      have hi' : i < A.cols := by rw [← hsq, hAC]; exact hi
      rw [kkTriSeq_element t _ hi']
      exact congrArg (fun n => triElement _ _ n i _ _ 0) hsq.symm

example : SameOutcome (trmmLeft kA.toMat.view .lower .implicitUnit kB.toMat.view kC.toMat)
    (kkTrmmLeft kA .lower kB kC) (heap Term) :=
  C67_trmm_left kA .lower kB kC _ _ _ (mholds bA) (mholds bB) (malloc bC) rfl rfl rfl rfl rfl rfl
      rfl (by kview_facts) (by kview_facts) (by kview_facts)

/-- **C67** `triangular_matrix_right_product(exec, A, t, implicit_unit_diagonal, B, C)`: the same bits. -/
theorem C67_trmm_right [Add α] [Mul α] [Zero α] (A : KMat) (t : Triangle) (B C : KMat)
    (h : Heap α) (a b : Nat → Nat → α) (hA : A.toMat.HoldsOn h (triRegion t .implicitUnit) a)
    (hB : B.toMat.Holds h b) (hC : C.toMat.Alloc h) (hAt : A.transposed = false)
    (hBt : B.transposed = false) (hCt : C.transposed = false)
    (hsq : A.rows = A.cols) (hBA : B.cols = A.rows) (hBC : B.rows = C.rows)
    (hAC : A.cols = C.cols) (hu : C.toMat.Unique)
    (hApC : Apart (A.toMat.CellOn (triRegion t .implicitUnit)) C.toMat.Cell)
    (hBpC : Apart B.toMat.Cell C.toMat.Cell) :
    SameOutcome (trmmRight B.toMat.view A.toMat.view t .implicitUnit C.toMat)
      (kkTrmmRight A t B C) h :=
  same_mat
    (C54_trmm_right _ _ _ _ _ _ _ _ (Mat.HoldsOn.toView hA) (Mat.HoldsOn.toView hB) hC hsq hBC.symm
      hBA hAC.symm hu hApC hBpC)
    (C65_trmm_right A t B C h a b hA hB hC hAt hBt hCt hsq hBA hBC hAC hu hApC hBpC)
    fun i j _ hj _ => by
      have hj' : j < A.cols := by rw [hAC]; exact hj
      rw [kkTriSeq_element t.other _ hj', show (decide (t.other = .lower)) = decide (t = .upper) by
        cases t <;> rfl]
      exact congrArg (fun n => triElement _ _ n j _ _ 0) hsq.symm

example : SameOutcome (trmmRight kB.toMat.view kA.toMat.view .lower .implicitUnit kC.toMat)
    (kkTrmmRight kA .lower kB kC) (heap Term) :=
  C67_trmm_right kA .lower kB kC _ _ _ (mholds bA) (mholds bB) (malloc bC) rfl rfl rfl rfl rfl rfl
      rfl (by kview_facts) (by kview_facts) (by kview_facts)

end StdBLAS

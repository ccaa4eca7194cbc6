import Verif.Lemmas.KokkosAccurate
import Verif.Props.KokkosOrdered
import Verif.Props.KokkosUpdates
import Verif.Props.KokkosAccurate
import Verif.Props.AccurateComplex

/-!
# Property C66: kernels of the Kokkos backend on complex elements

As in `Props/KokkosAccurate`, for `std::complex` elements (`CFP.Accurate`, see `Props/AccurateComplex`).
The Hermitian kernels take the diagonal of `A` as it is stored (the products of matrices conjugate it)
and do not clear the imaginary part of the diagonal they update.

In the examples the elements are `std::complex<double>` and products follow Annex G of the C standard.
-/

namespace StdBLAS
open Finset Witness CFP ComplexConjugate

/-! ## Matrix-vector products -/

/-- **C66** `symmetric_matrix_vector_product(exec, A, t, x, y)` -/
theorem C66_complex_symv {F : Format} {R : Recovery F} {u η : ℝ} (H : F.Errors u η)
    (A : KMat) (t : Triangle) (x y : KVec)
    (h : Heap (CFP F R)) (a : Nat → Nat → CFP F R) (f : Nat → CFP F R) (hA : A.toMat.HoldsOn h t.region a)
    (hx : x.mdspan.Holds h f) (hy : y.mdspan.Alloc h) (hAt : A.transposed = false)
    (hxs : x.stride = 1) (hys : y.stride = 1) (hsq : A.rows = A.cols) (hxe : A.cols = x.ext)
    (hye : A.rows = y.ext) (hAy : Apart (A.toMat.CellOn t.region) y.mdspan.Cell)
    (hxy : Apart x.mdspan.Cell y.mdspan.Cell) :
    Surely (kkSymv A t x y) h fun _ h' => ∃ r, y.mdspan.Becomes h h' r ∧
      ∀ i, i < y.ext →
      CFP.Accurate u (A.cols + 1) (A.cols * (4 * η))
        (∀ k, k < A.cols → (symOf t a i k).Finite ∧ (f k).Finite)
        (r i)
        (∑ k ∈ range A.cols, (symOf t a i k).val * (f k).val)
        (∑ k ∈ range A.cols, size (symOf t a i k).val * size (f k).val) := by
  refine (C65_symv A t x y h a f hA hx hy hAt hxs hys hsq hxe hye hAy hxy).mono
    fun _ h' hb => ⟨_, hb, fun i hi => ?_⟩
  have c : CFP.Acc u (2 + (A.cols - 1)) _ _ _ _ _ :=
    (CFP.bounds H).kkSym id t a f (show i < A.cols by omega) fun k _ => acc_mul H (mirror id t a i k) (f k)
  replace c := (c.mono H.u_nonneg (show _ ≤ A.cols + 1 by omega)).congr Iff.rfl rfl rfl (z' := A.cols * (4 * η))
    (by rw [sum_const, card_range, nsmul_eq_mul])
  exact c.toAccurate

example := C66_complex_symv (R := annexG binary64) binary64_errors kA .lower kx ky _ _ _ (mholds bA) (holds bkx)
    (alloc bky) rfl rfl rfl rfl rfl rfl (by kview_facts) (by kview_facts)

/-- **C66** `symmetric_matrix_vector_product(exec, A, t, x, y, z)`; `z` may be `y`. -/
theorem C66_complex_symv_update {F : Format} {R : Recovery F} {u η : ℝ} (H : F.Errors u η)
    (A : KMat) (t : Triangle) (x y z : KVec)
    (h : Heap (CFP F R)) (a : Nat → Nat → CFP F R) (f g : Nat → CFP F R) (hA : A.toMat.HoldsOn h t.region a)
    (hx : x.mdspan.Holds h f) (hy : y.mdspan.Holds h g) (hz : z.mdspan.Alloc h)
    (hAt : A.transposed = false) (hxs : x.stride = 1) (hys : y.stride = 1) (hzs : z.stride = 1)
    (hsq : A.rows = A.cols) (hxe : A.cols = x.ext) (hye : A.rows = y.ext) (hze : A.rows = z.ext)
    (hAz : Apart (A.toMat.CellOn t.region) z.mdspan.Cell)
    (hxz : Apart x.mdspan.Cell z.mdspan.Cell) (hyz : y.mdspan.Aligned z.mdspan)
    (vg : ∀ i, i < z.ext → (g i).Valid) :
    Surely (kkSymvUpdate A t x y z) h fun _ h' => ∃ r, z.mdspan.Becomes h h' r ∧
      ∀ i, i < z.ext →
      CFP.Accurate u (A.cols + 2) (A.cols * (4 * η))
        ((g i).Finite ∧ ∀ k, k < A.cols → (symOf t a i k).Finite ∧ (f k).Finite)
        (r i)
        ((g i).val + ∑ k ∈ range A.cols, (symOf t a i k).val * (f k).val)
        (size (g i).val + ∑ k ∈ range A.cols, size (symOf t a i k).val * size (f k).val) := by
  refine (C65_symv_update A t x y z h a f g hA hx hy hz hAt hxs hys hzs hsq hxe hye hze hAz hxz hyz).mono
    fun _ h' hb => ⟨_, hb, fun i hi => ?_⟩
  have c : CFP.Acc u (2 + (A.cols - 1)) _ _ _ _ _ :=
    (CFP.bounds H).kkSym id t a f (show i < A.cols by omega) fun k _ => acc_mul H (mirror id t a i k) (f k)
  replace c := (c.mono H.u_nonneg (show _ ≤ A.cols + 1 by omega)).congr Iff.rfl rfl rfl (z' := A.cols * (4 * η))
    (by rw [sum_const, card_range, nsmul_eq_mul])
  exact (((acc_input H.u_nonneg _ (vg i hi)).add H c).congr Iff.rfl rfl rfl (zero_add _).symm).toAccurate

example := C66_complex_symv_update (R := annexG binary64) binary64_errors kA .upper kx ky ky _ _ _ _ (mholds bA)
    (holds bkx) (holds bky) (alloc bky) rfl rfl rfl rfl rfl rfl rfl rfl (by kview_facts)
    (by kview_facts) (by kview_facts) (fun i _ => zvals_valid _ i)

/-- **C66** `hermitian_matrix_vector_product(exec, A, t, x, y)`: the diagonal is used as it is
stored, with its imaginary part (`C50_hemv_imaginary_diagonal_false`). -/
theorem C66_complex_hemv {F : Format} {R : Recovery F} {u η : ℝ} (H : F.Errors u η)
    (A : KMat) (t : Triangle)
    (x y : KVec) (h : Heap (CFP F R)) (a : Nat → Nat → CFP F R) (f : Nat → CFP F R)
    (hA : A.toMat.HoldsOn h t.region a)
    (hx : x.mdspan.Holds h f) (hy : y.mdspan.Alloc h) (hAt : A.transposed = false)
    (hxs : x.stride = 1) (hys : y.stride = 1) (hsq : A.rows = A.cols) (hxe : A.cols = x.ext)
    (hye : A.rows = y.ext) (hAy : Apart (A.toMat.CellOn t.region) y.mdspan.Cell)
    (hxy : Apart x.mdspan.Cell y.mdspan.Cell) :
    Surely (kkHemv A t x y) h fun _ h' => ∃ r, y.mdspan.Becomes h h' r ∧
      ∀ i, i < y.ext →
      CFP.Accurate u (A.cols + 1) (A.cols * (4 * η))
        (∀ k, k < A.cols → (if i = k then a i i else hermOf t a i k).Finite ∧ (f k).Finite)
        (r i)
        (∑ k ∈ range A.cols, (if i = k then a i i else hermOf t a i k).val * (f k).val)
        (∑ k ∈ range A.cols, size (if i = k then a i i else hermOf t a i k).val * size (f k).val) := by
  refine (C65_hemv A t x y h a f hA hx hy hAt hxs hys hsq hxe hye hAy hxy).mono
    fun _ h' hb => ⟨_, hb, fun i hi => ?_⟩
  have c : CFP.Acc u (2 + (A.cols - 1)) _ _ _ _ _ :=
    (CFP.bounds H).kkSym ConjOps.conj t a f (show i < A.cols by omega) fun k _ => acc_mul H (mirror ConjOps.conj t a i k) (f k)
  simp only [mirror_conj] at c
  replace c := (c.mono H.u_nonneg (show _ ≤ A.cols + 1 by omega)).congr Iff.rfl rfl rfl (z' := A.cols * (4 * η))
    (by rw [sum_const, card_range, nsmul_eq_mul])
  exact c.toAccurate

example := C66_complex_hemv (R := annexG binary64) binary64_errors kA .lower kx ky _ _ _ (mholds bA) (holds bkx)
    (alloc bky) rfl rfl rfl rfl rfl rfl (by kview_facts) (by kview_facts)

/-- **C66** `hermitian_matrix_vector_product(exec, A, t, x, y, z)`; `z` may be `y`. -/
theorem C66_complex_hemv_update {F : Format} {R : Recovery F} {u η : ℝ} (H : F.Errors u η)
    (A : KMat) (t : Triangle)
    (x y z : KVec)
    (h : Heap (CFP F R)) (a : Nat → Nat → CFP F R) (f g : Nat → CFP F R) (hA : A.toMat.HoldsOn h t.region a)
    (hx : x.mdspan.Holds h f) (hy : y.mdspan.Holds h g) (hz : z.mdspan.Alloc h)
    (hAt : A.transposed = false) (hxs : x.stride = 1) (hys : y.stride = 1) (hzs : z.stride = 1)
    (hsq : A.rows = A.cols) (hxe : A.cols = x.ext) (hye : A.rows = y.ext) (hze : A.rows = z.ext)
    (hAz : Apart (A.toMat.CellOn t.region) z.mdspan.Cell)
    (hxz : Apart x.mdspan.Cell z.mdspan.Cell) (hyz : y.mdspan.Aligned z.mdspan)
    (vg : ∀ i, i < z.ext → (g i).Valid) :
    Surely (kkHemvUpdate A t x y z) h fun _ h' => ∃ r, z.mdspan.Becomes h h' r ∧
      ∀ i, i < z.ext →
      CFP.Accurate u (A.cols + 2) (A.cols * (4 * η))
        ((g i).Finite ∧ ∀ k, k < A.cols → (if i = k then a i i else hermOf t a i k).Finite ∧ (f k).Finite)
        (r i)
        ((g i).val + ∑ k ∈ range A.cols, (if i = k then a i i else hermOf t a i k).val * (f k).val)
        (size (g i).val + ∑ k ∈ range A.cols, size (if i = k then a i i else hermOf t a i k).val * size (f k).val) := by
  refine (C65_hemv_update A t x y z h a f g hA hx hy hz hAt hxs hys hzs hsq hxe hye hze hAz hxz hyz).mono
    fun _ h' hb => ⟨_, hb, fun i hi => ?_⟩
  have c : CFP.Acc u (2 + (A.cols - 1)) _ _ _ _ _ :=
    (CFP.bounds H).kkSym ConjOps.conj t a f (show i < A.cols by omega) fun k _ => acc_mul H (mirror ConjOps.conj t a i k) (f k)
  simp only [mirror_conj] at c
  replace c := (c.mono H.u_nonneg (show _ ≤ A.cols + 1 by omega)).congr Iff.rfl rfl rfl (z' := A.cols * (4 * η))
    (by rw [sum_const, card_range, nsmul_eq_mul])
  exact (((acc_input H.u_nonneg _ (vg i hi)).add H c).congr Iff.rfl rfl rfl (zero_add _).symm).toAccurate

example := C66_complex_hemv_update (R := annexG binary64) binary64_errors kA .upper kx ky ky _ _ _ _ (mholds bA)
    (holds bkx) (holds bky) (alloc bky) rfl rfl rfl rfl rfl rfl rfl rfl (by kview_facts)
    (by kview_facts) (by kview_facts) (fun i _ => zvals_valid _ i)

/-- **C66** `triangular_matrix_vector_product(exec, A, t, d, x, y)` -/
theorem C66_complex_trmv {F : Format} {R : Recovery F} {u η : ℝ} (H : F.Errors u η)
    (A : KMat) (t : Triangle) (d : Diag) (x y : KVec)
    (h : Heap (CFP F R)) (a : Nat → Nat → CFP F R) (f : Nat → CFP F R) (hA : A.toMat.HoldsOn h (triRegion t d) a)
    (hx : x.mdspan.Holds h f) (hy : y.mdspan.Alloc h) (hAt : A.transposed = false)
    (hxs : x.stride = 1) (hys : y.stride = 1) (hsq : A.rows = A.cols) (hxe : A.cols = x.ext)
    (hye : A.rows = y.ext) (hAy : Apart (A.toMat.CellOn (triRegion t d)) y.mdspan.Cell)
    (hxy : Apart x.mdspan.Cell y.mdspan.Cell)
    (vf : ∀ k, k < A.cols → (f k).Valid) :
    Surely (kkTrmv A t d x y) h fun _ h' => ∃ r, y.mdspan.Becomes h h' r ∧
      ∀ i, i < y.ext →
      CFP.Accurate u (A.cols + 2) (A.cols * (4 * η))
        (∀ k, k < A.cols → t.region i k → (f k).Finite ∧ (triRegion t d i k → (a i k).Finite))
        (r i)
        (∑ k ∈ range A.cols, triOf t d (fun i j => (a i j).val) i k * (f k).val)
        (∑ k ∈ range A.cols, size (triOf t d (fun i j => (a i j).val) i k) * size (f k).val) := by
  refine (C65_trmv A t d x y h a f hA hx hy hAt hxs hys hsq hxe hye hAy hxy).mono
    fun _ h' hb => ⟨_, hb, fun i hi => ?_⟩
  have hi' : i < A.cols := by omega
  rw [kkTriSeq_element t d hi' (fun k => a i k * f k) (f i)]
  exact (acc_triLeft H t d a f vf rfl hi').toAccurate

example (t : Triangle) (d : Diag) := C66_complex_trmv (R := annexG binary64) binary64_errors kA t d kx ky _ _ _ (mholds bA) (holds bkx)
    (alloc bky) rfl rfl rfl rfl rfl rfl (by kview_facts) (by kview_facts) (fun k _ => zvals_valid _ k)

/-- **C66** `triangular_matrix_vector_product(exec, A, t, d, x, y, z)`; `z` may be `y`. -/
theorem C66_complex_trmv_update {F : Format} {R : Recovery F} {u η : ℝ} (H : F.Errors u η)
    (A : KMat) (t : Triangle) (d : Diag)
    (x y z : KVec)
    (h : Heap (CFP F R)) (a : Nat → Nat → CFP F R) (f g : Nat → CFP F R)
    (hA : A.toMat.HoldsOn h (triRegion t d) a)
    (hx : x.mdspan.Holds h f) (hy : y.mdspan.Holds h g) (hz : z.mdspan.Alloc h)
    (hAt : A.transposed = false) (hxs : x.stride = 1) (hys : y.stride = 1) (hzs : z.stride = 1)
    (hsq : A.rows = A.cols) (hxe : A.cols = x.ext) (hye : A.rows = y.ext) (hze : A.rows = z.ext)
    (hAz : Apart (A.toMat.CellOn (triRegion t d)) z.mdspan.Cell)
    (hxz : Apart x.mdspan.Cell z.mdspan.Cell) (hyz : y.mdspan.Aligned z.mdspan)
    (vf : ∀ k, k < A.cols → (f k).Valid)
    (vg : ∀ i, i < z.ext → (g i).Valid) :
    Surely (kkTrmvUpdate A t d x y z) h fun _ h' => ∃ r, z.mdspan.Becomes h h' r ∧
      ∀ i, i < z.ext →
      CFP.Accurate u (A.cols + 3) (A.cols * (4 * η))
        ((g i).Finite ∧ ∀ k, k < A.cols → t.region i k → (f k).Finite ∧ (triRegion t d i k → (a i k).Finite))
        (r i)
        ((g i).val + ∑ k ∈ range A.cols, triOf t d (fun i j => (a i j).val) i k * (f k).val)
        (size (g i).val + ∑ k ∈ range A.cols, size (triOf t d (fun i j => (a i j).val) i k) * size (f k).val) := by
  refine (C65_trmv_update A t d x y z h a f g hA hx hy hz hAt hxs hys hzs hsq hxe hye hze hAz hxz hyz).mono
    fun _ h' hb => ⟨_, hb, fun i hi => ?_⟩
  have hi' : i < A.cols := by omega
  rw [kkTriSeq_element t d hi' (fun k => a i k * f k) (f i)]
  exact (((acc_input H.u_nonneg _ (vg i hi)).add H (acc_triLeft H t d a f vf rfl hi')).congr Iff.rfl rfl rfl
    (zero_add _).symm).toAccurate

example (t : Triangle) (d : Diag) := C66_complex_trmv_update (R := annexG binary64) binary64_errors kA t d kx ky ky _ _ _ _ (mholds bA)
    (holds bkx) (holds bky) (alloc bky) rfl rfl rfl rfl rfl rfl rfl rfl (by kview_facts)
    (by kview_facts) (by kview_facts) (fun k _ => zvals_valid _ k) (fun k _ => zvals_valid _ k)

/-! ## Matrix-matrix products -/

/-- **C66** `symmetric_matrix_left_product(exec, A, t, B, C)` -/
theorem C66_complex_symm_left {F : Format} {R : Recovery F} {u η : ℝ} (H : F.Errors u η)
    (A : KMat) (t : Triangle) (B C : KMat)
    (h : Heap (CFP F R)) (a b : Nat → Nat → CFP F R) (hA : A.toMat.HoldsOn h t.region a)
    (hB : B.toMat.Holds h b) (hC : C.toMat.Alloc h) (hAt : A.transposed = false)
    (hBt : B.transposed = false) (hCt : C.transposed = false)
    (hsq : A.rows = A.cols) (hAB : A.cols = B.rows) (hAC : A.rows = C.rows)
    (hBC : B.cols = C.cols) (hu : C.toMat.Unique)
    (hApC : Apart (A.toMat.CellOn t.region) C.toMat.Cell)
    (hBpC : Apart B.toMat.Cell C.toMat.Cell) :
    Surely (kkSymmLeft A t B C) h fun _ h' => ∃ r, C.toMat.Becomes h h' r ∧
      ∀ i j, i < C.rows → j < C.cols →
      CFP.Accurate u (A.cols + 2) (A.cols * (4 * η))
        (∀ k, k < A.cols → (symOf t a i k).Finite ∧ (b k j).Finite)
        (r i j)
        (∑ k ∈ range A.cols, (symOf t a i k).val * (b k j).val)
        (∑ k ∈ range A.cols, size (symOf t a i k).val * size (b k j).val) := by
  refine (C65_symm_left A t B C h a b hA hB hC hAt hBt hCt hsq hAB hAC hBC hu hApC hBpC).mono
    fun _ h' hb => ⟨_, hb, fun i j hi hj => ?_⟩
  exact (acc_products_zero H A.cols (symOf t a i) (fun k => b k j)).toAccurate

example := C66_complex_symm_left (R := annexG binary64) binary64_errors kA .lower kB kC _ _ _ (mholds bA)
    (mholds bB) (malloc bC) rfl rfl rfl rfl rfl rfl rfl (by kview_facts) (by kview_facts)
    (by kview_facts)

/-- **C66** `symmetric_matrix_left_product(exec, A, t, B, E, C)`; `C` may be `E`. -/
theorem C66_complex_symm_left_update {F : Format} {R : Recovery F} {u η : ℝ} (H : F.Errors u η)
    (A : KMat) (t : Triangle)
    (B E C : KMat) (h : Heap (CFP F R)) (a b e : Nat → Nat → CFP F R) (hA : A.toMat.HoldsOn h t.region a)
    (hB : B.toMat.Holds h b) (hE : E.toMat.Holds h e) (hC : C.toMat.Alloc h)
    (hAt : A.transposed = false) (hBt : B.transposed = false) (hEt : E.transposed = false)
    (hCt : C.transposed = false)
    (hsq : A.rows = A.cols) (hAB : A.cols = B.rows) (hAC : A.rows = C.rows)
    (hBC : B.cols = C.cols) (hEr : E.rows = C.rows) (hEc : E.cols = C.cols)
    (hu : C.toMat.Unique)
    (hApC : Apart (A.toMat.CellOn t.region) C.toMat.Cell)
    (hBpC : Apart B.toMat.Cell C.toMat.Cell) (hEC : E.toMat.Aligned C.toMat)
    (ve : ∀ i j, i < C.rows → j < C.cols → (e i j).Valid) :
    Surely (kkSymmLeftUpdate A t B E C) h fun _ h' => ∃ r, C.toMat.Becomes h h' r ∧
      ∀ i j, i < C.rows → j < C.cols →
      CFP.Accurate u (A.cols + 2) (A.cols * (4 * η))
        ((e i j).Finite ∧ ∀ k, k < A.cols → (symOf t a i k).Finite ∧ (b k j).Finite)
        (r i j)
        ((e i j).val + ∑ k ∈ range A.cols, (symOf t a i k).val * (b k j).val)
        (size (e i j).val + ∑ k ∈ range A.cols, size (symOf t a i k).val * size (b k j).val) := by
  refine (C65_symm_left_update A t B E C h a b e hA hB hE hC hAt hBt hEt hCt hsq hAB hAC hBC hEr hEc hu hApC hBpC hEC).mono
    fun _ h' hb => ⟨_, hb, fun i j hi hj => ?_⟩
  exact (acc_products H A.cols (symOf t a i) (fun k => b k j) (ve i j hi hj)).toAccurate

example := C66_complex_symm_left_update (R := annexG binary64) binary64_errors kA .lower kB kC kC _ _ _ _
    (mholds bA)
    (mholds bB) (mholds bC) (malloc bC) rfl rfl rfl rfl rfl rfl rfl rfl rfl rfl (by kview_facts)
    (by kview_facts) (by kview_facts) (by kview_facts) (fun i j _ _ => zmvals_valid _ i j)

/-- **C66** `symmetric_matrix_right_product(exec, A, t, B, C)`.  `B` may have any layout. -/
theorem C66_complex_symm_right {F : Format} {R : Recovery F} {u η : ℝ} (H : F.Errors u η)
    (A : KMat) (t : Triangle) (B C : KMat)
    (h : Heap (CFP F R)) (a b : Nat → Nat → CFP F R) (hA : A.toMat.HoldsOn h t.region a)
    (hB : B.toMat.Holds h b) (hC : C.toMat.Alloc h) (hAt : A.transposed = false)
    (hCt : C.transposed = false)
    (hsq : A.rows = A.cols) (hBA : B.cols = A.rows) (hBC : B.rows = C.rows)
    (hAC : A.cols = C.cols) (hu : C.toMat.Unique)
    (hApC : Apart (A.toMat.CellOn t.region) C.toMat.Cell)
    (hBpC : Apart B.toMat.Cell C.toMat.Cell) :
    Surely (kkSymmRight A t B C) h fun _ h' => ∃ r, C.toMat.Becomes h h' r ∧
      ∀ i j, i < C.rows → j < C.cols →
      CFP.Accurate u (A.cols + 2) (A.cols * (4 * η))
        (∀ k, k < A.cols → (b i k).Finite ∧ (symOf t a k j).Finite)
        (r i j)
        (∑ k ∈ range A.cols, (b i k).val * (symOf t a k j).val)
        (∑ k ∈ range A.cols, size (b i k).val * size (symOf t a k j).val) := by
  refine (C65_symm_right A t B C h a b hA hB hC hAt hCt hsq hBA hBC hAC hu hApC hBpC).mono
    fun _ h' hb => ⟨_, hb, fun i j hi hj => ?_⟩
  exact (acc_products_zero H A.cols (b i) (fun k => symOf t a k j)).toAccurate

example := C66_complex_symm_right (R := annexG binary64) binary64_errors kA .upper kB kC _ _ _ (mholds bA)
    (mholds bB) (malloc bC) rfl rfl rfl rfl rfl rfl (by kview_facts) (by kview_facts)
    (by kview_facts)

/-- **C66** `symmetric_matrix_right_product(exec, A, t, B, E, C)`; `C` may be `E`. -/
theorem C66_complex_symm_right_update {F : Format} {R : Recovery F} {u η : ℝ} (H : F.Errors u η)
    (A : KMat) (t : Triangle)
    (B E C : KMat) (h : Heap (CFP F R)) (a b e : Nat → Nat → CFP F R) (hA : A.toMat.HoldsOn h t.region a)
    (hB : B.toMat.Holds h b) (hE : E.toMat.Holds h e) (hC : C.toMat.Alloc h)
    (hAt : A.transposed = false) (hEt : E.transposed = false) (hCt : C.transposed = false)
    (hsq : A.rows = A.cols) (hBA : B.cols = A.rows) (hBC : B.rows = C.rows)
    (hAC : A.cols = C.cols) (hEr : E.rows = C.rows) (hEc : E.cols = C.cols)
    (hu : C.toMat.Unique)
    (hApC : Apart (A.toMat.CellOn t.region) C.toMat.Cell)
    (hBpC : Apart B.toMat.Cell C.toMat.Cell) (hEC : E.toMat.Aligned C.toMat)
    (ve : ∀ i j, i < C.rows → j < C.cols → (e i j).Valid) :
    Surely (kkSymmRightUpdate A t B E C) h fun _ h' => ∃ r, C.toMat.Becomes h h' r ∧
      ∀ i j, i < C.rows → j < C.cols →
      CFP.Accurate u (A.cols + 2) (A.cols * (4 * η))
        ((e i j).Finite ∧ ∀ k, k < A.cols → (b i k).Finite ∧ (symOf t a k j).Finite)
        (r i j)
        ((e i j).val + ∑ k ∈ range A.cols, (b i k).val * (symOf t a k j).val)
        (size (e i j).val + ∑ k ∈ range A.cols, size (b i k).val * size (symOf t a k j).val) := by
  refine (C65_symm_right_update A t B E C h a b e hA hB hE hC hAt hEt hCt hsq hBA hBC hAC hEr hEc hu hApC hBpC hEC).mono
    fun _ h' hb => ⟨_, hb, fun i j hi hj => ?_⟩
  exact (acc_products H A.cols (b i) (fun k => symOf t a k j) (ve i j hi hj)).toAccurate

example := C66_complex_symm_right_update (R := annexG binary64) binary64_errors kA .upper kB kE kC _ _ _ _
    (mholds bA)
    (mholds bB) (mholds bE) (malloc bC) rfl rfl rfl rfl rfl rfl rfl rfl rfl (by kview_facts)
    (by kview_facts) (by kview_facts) (by kview_facts) (fun i j _ _ => zmvals_valid _ i j)

/-- **C66** `hermitian_matrix_left_product(exec, A, t, B, C)`: what it computes; the diagonal of
`A` enters conjugated (`C50_hemm_conjugates_diagonal`). -/
theorem C66_complex_hemm_left {F : Format} {R : Recovery F} {u η : ℝ} (H : F.Errors u η)
    (A : KMat) (t : Triangle)
    (B C : KMat)
    (h : Heap (CFP F R)) (a b : Nat → Nat → CFP F R) (hA : A.toMat.HoldsOn h t.region a)
    (hB : B.toMat.Holds h b) (hC : C.toMat.Alloc h) (hAt : A.transposed = false)
    (hBt : B.transposed = false) (hCt : C.transposed = false)
    (hsq : A.rows = A.cols) (hAB : A.cols = B.rows) (hAC : A.rows = C.rows)
    (hBC : B.cols = C.cols) (hu : C.toMat.Unique)
    (hApC : Apart (A.toMat.CellOn t.region) C.toMat.Cell)
    (hBpC : Apart B.toMat.Cell C.toMat.Cell) :
    Surely (kkHemmLeft A t B C) h fun _ h' => ∃ r, C.toMat.Becomes h h' r ∧
      ∀ i j, i < C.rows → j < C.cols →
      CFP.Accurate u (A.cols + 2) (A.cols * (4 * η))
        (∀ k, k < A.cols → (if i = k then ConjOps.conj (a i i) else hermOf t a i k).Finite ∧ (b k j).Finite)
        (r i j)
        (∑ k ∈ range A.cols, (if i = k then ConjOps.conj (a i i) else hermOf t a i k).val * (b k j).val)
        (∑ k ∈ range A.cols, size (if i = k then ConjOps.conj (a i i) else hermOf t a i k).val * size (b k j).val) := by
  refine (C65_hemm_left A t B C h a b hA hB hC hAt hBt hCt hsq hAB hAC hBC hu hApC hBpC).mono
    fun _ h' hb => ⟨_, hb, fun i j hi hj => ?_⟩
  exact (acc_products_zero H A.cols (fun k => if i = k then ConjOps.conj (a i i) else hermOf t a i k) (fun k => b k j)).toAccurate

example := C66_complex_hemm_left (R := annexG binary64) binary64_errors kA .lower kB kC _ _ _ (mholds bA)
    (mholds bB) (malloc bC) rfl rfl rfl rfl rfl rfl rfl (by kview_facts) (by kview_facts)
    (by kview_facts)

/-- **C66** `hermitian_matrix_left_product(exec, A, t, B, E, C)`; `C` may be `E`. -/
theorem C66_complex_hemm_left_update {F : Format} {R : Recovery F} {u η : ℝ} (H : F.Errors u η)
    (A : KMat)
    (t : Triangle)
    (B E C : KMat) (h : Heap (CFP F R)) (a b e : Nat → Nat → CFP F R) (hA : A.toMat.HoldsOn h t.region a)
    (hB : B.toMat.Holds h b) (hE : E.toMat.Holds h e) (hC : C.toMat.Alloc h)
    (hAt : A.transposed = false) (hBt : B.transposed = false) (hEt : E.transposed = false)
    (hCt : C.transposed = false)
    (hsq : A.rows = A.cols) (hAB : A.cols = B.rows) (hAC : A.rows = C.rows)
    (hBC : B.cols = C.cols) (hEr : E.rows = C.rows) (hEc : E.cols = C.cols)
    (hu : C.toMat.Unique)
    (hApC : Apart (A.toMat.CellOn t.region) C.toMat.Cell)
    (hBpC : Apart B.toMat.Cell C.toMat.Cell) (hEC : E.toMat.Aligned C.toMat)
    (ve : ∀ i j, i < C.rows → j < C.cols → (e i j).Valid) :
    Surely (kkHemmLeftUpdate A t B E C) h fun _ h' => ∃ r, C.toMat.Becomes h h' r ∧
      ∀ i j, i < C.rows → j < C.cols →
      CFP.Accurate u (A.cols + 2) (A.cols * (4 * η))
        ((e i j).Finite ∧ ∀ k, k < A.cols → (if i = k then ConjOps.conj (a i i) else hermOf t a i k).Finite ∧ (b k j).Finite)
        (r i j)
        ((e i j).val + ∑ k ∈ range A.cols, (if i = k then ConjOps.conj (a i i) else hermOf t a i k).val * (b k j).val)
        (size (e i j).val + ∑ k ∈ range A.cols, size (if i = k then ConjOps.conj (a i i) else hermOf t a i k).val * size (b k j).val) := by
  refine (C65_hemm_left_update A t B E C h a b e hA hB hE hC hAt hBt hEt hCt hsq hAB hAC hBC hEr hEc hu hApC hBpC hEC).mono
    fun _ h' hb => ⟨_, hb, fun i j hi hj => ?_⟩
  exact (acc_products H A.cols (fun k => if i = k then ConjOps.conj (a i i) else hermOf t a i k) (fun k => b k j) (ve i j hi hj)).toAccurate

example := C66_complex_hemm_left_update (R := annexG binary64) binary64_errors kA .lower kB kC kC _ _ _ _
    (mholds bA)
    (mholds bB) (mholds bC) (malloc bC) rfl rfl rfl rfl rfl rfl rfl rfl rfl rfl (by kview_facts)
    (by kview_facts) (by kview_facts) (by kview_facts) (fun i j _ _ => zmvals_valid _ i j)

/-- **C66** `hermitian_matrix_right_product(exec, A, t, B, C)`: what it computes; the diagonal
of `A` enters conjugated.  `B` may have any layout. -/
theorem C66_complex_hemm_right {F : Format} {R : Recovery F} {u η : ℝ} (H : F.Errors u η)
    (A : KMat) (t : Triangle)
    (B C : KMat)
    (h : Heap (CFP F R)) (a b : Nat → Nat → CFP F R) (hA : A.toMat.HoldsOn h t.region a)
    (hB : B.toMat.Holds h b) (hC : C.toMat.Alloc h) (hAt : A.transposed = false)
    (hCt : C.transposed = false)
    (hsq : A.rows = A.cols) (hBA : B.cols = A.rows) (hBC : B.rows = C.rows)
    (hAC : A.cols = C.cols) (hu : C.toMat.Unique)
    (hApC : Apart (A.toMat.CellOn t.region) C.toMat.Cell)
    (hBpC : Apart B.toMat.Cell C.toMat.Cell) :
    Surely (kkHemmRight A t B C) h fun _ h' => ∃ r, C.toMat.Becomes h h' r ∧
      ∀ i j, i < C.rows → j < C.cols →
      CFP.Accurate u (A.cols + 2) (A.cols * (4 * η))
        (∀ k, k < A.cols → (b i k).Finite ∧ (if k = j then ConjOps.conj (a k k) else hermOf t a k j).Finite)
        (r i j)
        (∑ k ∈ range A.cols, (b i k).val * (if k = j then ConjOps.conj (a k k) else hermOf t a k j).val)
        (∑ k ∈ range A.cols, size (b i k).val * size (if k = j then ConjOps.conj (a k k) else hermOf t a k j).val) := by
  refine (C65_hemm_right A t B C h a b hA hB hC hAt hCt hsq hBA hBC hAC hu hApC hBpC).mono
    fun _ h' hb => ⟨_, hb, fun i j hi hj => ?_⟩
  exact (acc_products_zero H A.cols (b i) (fun k => if k = j then ConjOps.conj (a k k) else hermOf t a k j)).toAccurate

example := C66_complex_hemm_right (R := annexG binary64) binary64_errors kA .upper kB kC _ _ _ (mholds bA)
    (mholds bB) (malloc bC) rfl rfl rfl rfl rfl rfl (by kview_facts) (by kview_facts)
    (by kview_facts)

/-- **C66** `hermitian_matrix_right_product(exec, A, t, B, E, C)`; `C` may be `E`.  The backend
does not check the extents of `E`. -/
theorem C66_complex_hemm_right_update {F : Format} {R : Recovery F} {u η : ℝ} (H : F.Errors u η)
    (A : KMat)
    (t : Triangle)
    (B E C : KMat) (h : Heap (CFP F R)) (a b e : Nat → Nat → CFP F R) (hA : A.toMat.HoldsOn h t.region a)
    (hB : B.toMat.Holds h b) (hE : E.toMat.Holds h e) (hC : C.toMat.Alloc h)
    (hAt : A.transposed = false) (hEt : E.transposed = false) (hCt : C.transposed = false)
    (hsq : A.rows = A.cols) (hBA : B.cols = A.rows) (hBC : B.rows = C.rows)
    (hAC : A.cols = C.cols) (hEr : E.rows = C.rows) (hEc : E.cols = C.cols)
    (hu : C.toMat.Unique)
    (hApC : Apart (A.toMat.CellOn t.region) C.toMat.Cell)
    (hBpC : Apart B.toMat.Cell C.toMat.Cell) (hEC : E.toMat.Aligned C.toMat)
    (ve : ∀ i j, i < C.rows → j < C.cols → (e i j).Valid) :
    Surely (kkHemmRightUpdate A t B E C) h fun _ h' => ∃ r, C.toMat.Becomes h h' r ∧
      ∀ i j, i < C.rows → j < C.cols →
      CFP.Accurate u (A.cols + 2) (A.cols * (4 * η))
        ((e i j).Finite ∧ ∀ k, k < A.cols → (b i k).Finite ∧ (if k = j then ConjOps.conj (a k k) else hermOf t a k j).Finite)
        (r i j)
        ((e i j).val + ∑ k ∈ range A.cols, (b i k).val * (if k = j then ConjOps.conj (a k k) else hermOf t a k j).val)
        (size (e i j).val + ∑ k ∈ range A.cols, size (b i k).val * size (if k = j then ConjOps.conj (a k k) else hermOf t a k j).val) := by
  refine (C65_hemm_right_update A t B E C h a b e hA hB hE hC hAt hEt hCt hsq hBA hBC hAC hEr hEc hu hApC hBpC hEC).mono
    fun _ h' hb => ⟨_, hb, fun i j hi hj => ?_⟩
  exact (acc_products H A.cols (b i) (fun k => if k = j then ConjOps.conj (a k k) else hermOf t a k j) (ve i j hi hj)).toAccurate

example := C66_complex_hemm_right_update (R := annexG binary64) binary64_errors kA .upper kB kE kC _ _ _ _
    (mholds bA)
    (mholds bB) (mholds bE) (malloc bC) rfl rfl rfl rfl rfl rfl rfl rfl rfl (by kview_facts)
    (by kview_facts) (by kview_facts) (by kview_facts) (fun i j _ _ => zmvals_valid _ i j)

/-- **C66** `triangular_matrix_left_product(exec, A, t, implicit_unit_diagonal, B, C)` -/
theorem C66_complex_trmm_left {F : Format} {R : Recovery F} {u η : ℝ} (H : F.Errors u η)
    (A : KMat) (t : Triangle) (B C : KMat)
    (h : Heap (CFP F R)) (a b : Nat → Nat → CFP F R) (hA : A.toMat.HoldsOn h (triRegion t .implicitUnit) a)
    (hB : B.toMat.Holds h b) (hC : C.toMat.Alloc h) (hAt : A.transposed = false)
    (hBt : B.transposed = false) (hCt : C.transposed = false)
    (hsq : A.rows = A.cols) (hAB : A.cols = B.rows) (hAC : A.rows = C.rows)
    (hBC : B.cols = C.cols) (hu : C.toMat.Unique)
    (hApC : Apart (A.toMat.CellOn (triRegion t .implicitUnit)) C.toMat.Cell)
    (hBpC : Apart B.toMat.Cell C.toMat.Cell)
    (vb : ∀ i j, i < B.rows → j < B.cols → (b i j).Valid) :
    Surely (kkTrmmLeft A t B C) h fun _ h' => ∃ r, C.toMat.Becomes h h' r ∧
      ∀ i j, i < C.rows → j < C.cols →
      CFP.Accurate u (A.cols + 2) (A.cols * (4 * η))
        (∀ k, k < A.cols → t.region i k → (b k j).Finite ∧ (triRegion t .implicitUnit i k → (a i k).Finite))
        (r i j)
        (∑ k ∈ range A.cols, triOf t .implicitUnit (fun i j => (a i j).val) i k * (b k j).val)
        (∑ k ∈ range A.cols, size (triOf t .implicitUnit (fun i j => (a i j).val) i k) * size (b k j).val) := by
  refine (C65_trmm_left A t B C h a b hA hB hC hAt hBt hCt hsq hAB hAC hBC hu hApC hBpC).mono
    fun _ h' hb => ⟨_, hb, fun i j hi hj => ?_⟩
  have hi' : i < A.cols := by omega
  rw [kkTriSeq_element t .implicitUnit hi' (fun k => a i k * b k j) (b i j)]
  exact (acc_triLeft H t .implicitUnit a (fun k => b k j) (fun k hk => vb k j (by omega) (by omega)) rfl hi').toAccurate

example := C66_complex_trmm_left (R := annexG binary64) binary64_errors kA .lower kB kC _ _ _ (mholds bA)
    (mholds bB) (malloc bC) rfl rfl rfl rfl rfl rfl rfl (by kview_facts) (by kview_facts)
    (by kview_facts) (fun i j _ _ => zmvals_valid _ i j)

/-- **C66** `triangular_matrix_left_product(exec, A, t, implicit_unit_diagonal, C)`, in place. -/
theorem C66_complex_trmm_left_in_place {F : Format} {R : Recovery F} {u η : ℝ} (H : F.Errors u η)
    (A : KMat) (t : Triangle) (C : KMat)
    (h : Heap (CFP F R)) (a c : Nat → Nat → CFP F R) (hA : A.toMat.HoldsOn h (triRegion t .implicitUnit) a)
    (hC : C.toMat.Holds h c) (hAt : A.transposed = false) (hCt : C.transposed = false)
    (hsq : A.rows = A.cols) (hAC : A.rows = C.rows) (hu : C.toMat.Unique)
    (hApC : Apart (A.toMat.CellOn (triRegion t .implicitUnit)) C.toMat.Cell)
    (vb : ∀ i j, i < C.rows → j < C.cols → (c i j).Valid) :
    Surely (kkTrmmLeftInPlace A t C) h fun _ h' => ∃ r, C.toMat.Becomes h h' r ∧
      ∀ i j, i < C.rows → j < C.cols →
      CFP.Accurate u (A.cols + 2) (A.cols * (4 * η))
        (∀ k, k < A.cols → t.region i k → (c k j).Finite ∧ (triRegion t .implicitUnit i k → (a i k).Finite))
        (r i j)
        (∑ k ∈ range A.cols, triOf t .implicitUnit (fun i j => (a i j).val) i k * (c k j).val)
        (∑ k ∈ range A.cols, size (triOf t .implicitUnit (fun i j => (a i j).val) i k) * size (c k j).val) := by
  refine (C65_trmm_left_in_place A t C h a c hA hC hAt hCt hsq hAC hu hApC).mono
    fun _ h' hb => ⟨_, hb, fun i j hi hj => ?_⟩
  have hi' : i < A.cols := by omega
  rw [kkTriSeq_element t .implicitUnit hi' (fun k => a i k * c k j) (c i j)]
  exact (acc_triLeft H t .implicitUnit a (fun k => c k j) (fun k hk => vb k j (by omega) (by omega)) rfl hi').toAccurate

example := C66_complex_trmm_left_in_place (R := annexG binary64) binary64_errors kA .upper kC _ _ _ (mholds bA)
    (mholds bC) rfl rfl rfl rfl (by kview_facts) (by kview_facts) (fun i j _ _ => zmvals_valid _ i j)

/-- **C66** `triangular_matrix_right_product(exec, A, t, implicit_unit_diagonal, B, C)` -/
theorem C66_complex_trmm_right {F : Format} {R : Recovery F} {u η : ℝ} (H : F.Errors u η)
    (A : KMat) (t : Triangle) (B C : KMat)
    (h : Heap (CFP F R)) (a b : Nat → Nat → CFP F R) (hA : A.toMat.HoldsOn h (triRegion t .implicitUnit) a)
    (hB : B.toMat.Holds h b) (hC : C.toMat.Alloc h) (hAt : A.transposed = false)
    (hBt : B.transposed = false) (hCt : C.transposed = false)
    (hsq : A.rows = A.cols) (hBA : B.cols = A.rows) (hBC : B.rows = C.rows)
    (hAC : A.cols = C.cols) (hu : C.toMat.Unique)
    (hApC : Apart (A.toMat.CellOn (triRegion t .implicitUnit)) C.toMat.Cell)
    (hBpC : Apart B.toMat.Cell C.toMat.Cell)
    (vb : ∀ i j, i < B.rows → j < B.cols → (b i j).Valid) :
    Surely (kkTrmmRight A t B C) h fun _ h' => ∃ r, C.toMat.Becomes h h' r ∧
      ∀ i j, i < C.rows → j < C.cols →
      CFP.Accurate u (A.cols + 2) (A.cols * (4 * η))
        (∀ k, k < A.cols → t.region k j → (b i k).Finite ∧ (triRegion t .implicitUnit k j → (a k j).Finite))
        (r i j)
        (∑ k ∈ range A.cols, (b i k).val * triOf t .implicitUnit (fun i j => (a i j).val) k j)
        (∑ k ∈ range A.cols, size (b i k).val * size (triOf t .implicitUnit (fun i j => (a i j).val) k j)) := by
  refine (C65_trmm_right A t B C h a b hA hB hC hAt hBt hCt hsq hBA hBC hAC hu hApC hBpC).mono
    fun _ h' hb => ⟨_, hb, fun i j hi hj => ?_⟩
  have hj' : j < A.cols := by omega
  rw [kkTriSeq_element t.other .implicitUnit hj' (fun k => b i k * a k j) (b i j)]
  have c := acc_triRight H t .implicitUnit a (b i) (fun k hk => vb i k (by omega) (by omega)) rfl hj'
  cases t
  · exact c.toAccurate
  · exact c.toAccurate

example := C66_complex_trmm_right (R := annexG binary64) binary64_errors kA .lower kB kC _ _ _ (mholds bA)
    (mholds bB) (malloc bC) rfl rfl rfl rfl rfl rfl rfl (by kview_facts) (by kview_facts)
    (by kview_facts) (fun i j _ _ => zmvals_valid _ i j)

/-- **C66** `triangular_matrix_right_product(exec, A, t, implicit_unit_diagonal, C)`, in
place. -/
theorem C66_complex_trmm_right_in_place {F : Format} {R : Recovery F} {u η : ℝ} (H : F.Errors u η)
    (A : KMat) (t : Triangle) (C : KMat)
    (h : Heap (CFP F R)) (a c : Nat → Nat → CFP F R) (hA : A.toMat.HoldsOn h (triRegion t .implicitUnit) a)
    (hC : C.toMat.Holds h c) (hAt : A.transposed = false) (hCt : C.transposed = false)
    (hsq : A.rows = A.cols) (hAC : C.cols = A.rows) (hu : C.toMat.Unique)
    (hApC : Apart (A.toMat.CellOn (triRegion t .implicitUnit)) C.toMat.Cell)
    (vb : ∀ i j, i < C.rows → j < C.cols → (c i j).Valid) :
    Surely (kkTrmmRightInPlace A t C) h fun _ h' => ∃ r, C.toMat.Becomes h h' r ∧
      ∀ i j, i < C.rows → j < C.cols →
      CFP.Accurate u (A.cols + 2) (A.cols * (4 * η))
        (∀ k, k < A.cols → t.region k j → (c i k).Finite ∧ (triRegion t .implicitUnit k j → (a k j).Finite))
        (r i j)
        (∑ k ∈ range A.cols, (c i k).val * triOf t .implicitUnit (fun i j => (a i j).val) k j)
        (∑ k ∈ range A.cols, size (c i k).val * size (triOf t .implicitUnit (fun i j => (a i j).val) k j)) := by
  refine (C65_trmm_right_in_place A t C h a c hA hC hAt hCt hsq hAC hu hApC).mono
    fun _ h' hb => ⟨_, hb, fun i j hi hj => ?_⟩
  have hj' : j < A.cols := by omega
  rw [kkTriSeq_element t.other .implicitUnit hj' (fun k => c i k * a k j) (c i j)]
  have c := acc_triRight H t .implicitUnit a (c i) (fun k hk => vb i k (by omega) (by omega)) rfl hj'
  cases t
  · exact c.toAccurate
  · exact c.toAccurate

example := C66_complex_trmm_right_in_place (R := annexG binary64) binary64_errors kA .upper kC _ _ _ (mholds bA)
    (mholds bC) rfl rfl rfl rfl (by kview_facts) (by kview_facts) (fun i j _ _ => zmvals_valid _ i j)

/-! ## Rank-1 and rank-2 updates -/

/-- **C66** `matrix_rank_1_update(exec, x, y, A)` -/
theorem C66_complex_ger {F : Format} {R : Recovery F} {u η : ℝ} (H : F.Errors u η)
    (x y : KVec) (A : KMat) (h : Heap (CFP F R)) (f g : Nat → CFP F R)
    (a : Nat → Nat → CFP F R) (hx : x.mdspan.Holds h f) (hy : y.mdspan.Holds h g)
    (hA : A.toMat.Holds h a) (hxs : x.stride = 1) (hys : y.stride = 1)
    (hAt : A.transposed = false) (hxe : A.rows = x.ext) (hye : A.cols = y.ext)
    (hu : A.toMat.Unique) (hxA : Apart x.mdspan.Cell A.toMat.Cell)
    (hyA : Apart y.mdspan.Cell A.toMat.Cell)
    (va : ∀ i j, i < A.rows → j < A.cols → (a i j).Valid) :
    Surely (kkGer x y A) h fun _ h' => ∃ r, A.toMat.Becomes h h' r ∧
      ∀ i j, i < A.rows → j < A.cols →
      CFP.Accurate u 3 (4 * η)
        ((a i j).Finite ∧ (f i).Finite ∧ (g j).Finite)
        (r i j)
        ((a i j).val + (f i).val * (g j).val)
        (size (a i j).val + size (f i).val * size (g j).val) := by
  refine (C48_ger x y A h f g a hx hy hA hxs hys hAt hxe hye hu hxA hyA).mono
    fun _ h' hb => ⟨_, hb, fun i j hi hj => ?_⟩
  exact (((acc_input H.u_nonneg 2 (va i j hi hj)).add H (acc_mul H (f i) (g j))).congr Iff.rfl rfl rfl
    (zero_add _).symm).toAccurate

example := C66_complex_ger (R := annexG binary64) binary64_errors kx ky kA _ _ _ _ (holds bkx) (holds bky) (mholds bA) rfl rfl rfl rfl rfl
    (by kview_facts) (by kview_facts) (by kview_facts) (fun i j _ _ => zmvals_valid _ i j)

/-- **C66** `matrix_rank_1_update_c(exec, x, y, A)` -/
theorem C66_complex_gerc {F : Format} {R : Recovery F} {u η : ℝ} (H : F.Errors u η)
    (x y : KVec) (A : KMat) (h : Heap (CFP F R))
    (f g : Nat → CFP F R) (a : Nat → Nat → CFP F R) (hx : x.mdspan.Holds h f) (hy : y.mdspan.Holds h g)
    (hA : A.toMat.Holds h a) (hxs : x.stride = 1) (hys : y.stride = 1)
    (hAt : A.transposed = false) (hxe : A.rows = x.ext) (hye : A.cols = y.ext)
    (hu : A.toMat.Unique) (hxA : Apart x.mdspan.Cell A.toMat.Cell)
    (hyA : Apart y.mdspan.Cell A.toMat.Cell)
    (va : ∀ i j, i < A.rows → j < A.cols → (a i j).Valid) :
    Surely (kkGerc x y A) h fun _ h' => ∃ r, A.toMat.Becomes h h' r ∧
      ∀ i j, i < A.rows → j < A.cols →
      CFP.Accurate u 3 (4 * η)
        ((a i j).Finite ∧ (f i).Finite ∧ (g j).Finite)
        (r i j)
        ((a i j).val + (f i).val * conj (g j).val)
        (size (a i j).val + size (f i).val * size (g j).val) := by
  refine (C48_gerc x y A h f g a hx hy hA hxs hys hAt hxe hye hu hxA hyA).mono
    fun _ h' hb => ⟨_, hb, fun i j hi hj => ?_⟩
  exact (((acc_input H.u_nonneg 2 (va i j hi hj)).add H (acc_mul_conj H (f i) (g j))).congr Iff.rfl rfl rfl
    (zero_add _).symm).toAccurate

example := C66_complex_gerc (R := annexG binary64) binary64_errors kx ky kA _ _ _ _ (holds bkx) (holds bky) (mholds bA) rfl rfl rfl rfl rfl
    (by kview_facts) (by kview_facts) (by kview_facts) (fun i j _ _ => zmvals_valid _ i j)

/-- **C66** `symmetric_matrix_rank_1_update(exec, x, A, t)` -/
theorem C66_complex_syr {F : Format} {R : Recovery F} {u η : ℝ} (H : F.Errors u η)
    (x : KVec) (A : KMat) (t : Triangle) (h : Heap (CFP F R))
    (f : Nat → CFP F R) (a : Nat → Nat → CFP F R) (hx : x.mdspan.Holds h f)
    (hA : A.toMat.HoldsOn h t.region a) (hxs : x.stride = 1) (hAt : A.transposed = false)
    (hsq : A.rows = A.cols) (hxe : A.rows = x.ext) (hu : A.toMat.UniqueOn t.region)
    (hxA : Apart x.mdspan.Cell (A.toMat.CellOn t.region))
    (va : ∀ i j, i < A.rows → j < A.cols → t.region i j → (a i j).Valid) :
    Surely (kkSyr x A t) h fun _ h' => ∃ r, A.toMat.BecomesOn h h' t.region r ∧
      ∀ i j, i < A.rows → j < A.cols → t.region i j →
      CFP.Accurate u 3 (4 * η)
        ((a i j).Finite ∧ (f i).Finite ∧ (f j).Finite)
        (r i j)
        ((a i j).val + (f i).val * (f j).val)
        (size (a i j).val + size (f i).val * size (f j).val) := by
  refine (C48_syr x A t h f a hx hA hxs hAt hsq hxe hu hxA).mono
    fun _ h' hb => ⟨_, hb, fun i j hi hj hr => ?_⟩
  exact (((acc_input H.u_nonneg 2 (va i j hi hj hr)).add H (acc_mul H (f i) (f j))).congr Iff.rfl rfl rfl
    (zero_add _).symm).toAccurate

example (t : Triangle) := C66_complex_syr (R := annexG binary64) binary64_errors kx kA t _ _ _ (holds bkx) (mholds bA) rfl rfl rfl rfl
    (by kview_facts) (by kview_facts) (fun i j _ _ _ => zmvals_valid _ i j)

/-- **C66** `hermitian_matrix_rank_1_update(exec, x, A, t)`: what it computes under every
schedule.  The diagonal is not made real: `C50_her_keeps_imaginary_diagonal`. -/
theorem C66_complex_her {F : Format} {R : Recovery F} {u η : ℝ} (H : F.Errors u η)
    (x : KVec) (A : KMat) (t : Triangle) (h : Heap (CFP F R))
    (f : Nat → CFP F R) (a : Nat → Nat → CFP F R) (hx : x.mdspan.Holds h f)
    (hA : A.toMat.HoldsOn h t.region a) (hxs : x.stride = 1) (hAt : A.transposed = false)
    (hsq : A.rows = A.cols) (hxe : A.rows = x.ext) (hu : A.toMat.UniqueOn t.region)
    (hxA : Apart x.mdspan.Cell (A.toMat.CellOn t.region))
    (va : ∀ i j, i < A.rows → j < A.cols → t.region i j → (a i j).Valid) :
    Surely (kkHer x A t) h fun _ h' => ∃ r, A.toMat.BecomesOn h h' t.region r ∧
      ∀ i j, i < A.rows → j < A.cols → t.region i j →
      CFP.Accurate u 3 (4 * η)
        ((a i j).Finite ∧ (f i).Finite ∧ (f j).Finite)
        (r i j)
        ((a i j).val + (f i).val * conj (f j).val)
        (size (a i j).val + size (f i).val * size (f j).val) := by
  refine (C48_her x A t h f a hx hA hxs hAt hsq hxe hu hxA).mono
    fun _ h' hb => ⟨_, hb, fun i j hi hj hr => ?_⟩
  exact (((acc_input H.u_nonneg 2 (va i j hi hj hr)).add H (acc_mul_conj H (f i) (f j))).congr Iff.rfl rfl rfl
    (zero_add _).symm).toAccurate

example (t : Triangle) := C66_complex_her (R := annexG binary64) binary64_errors kx kA t _ _ _ (holds bkx) (mholds bA) rfl rfl rfl rfl
    (by kview_facts) (by kview_facts) (fun i j _ _ _ => zmvals_valid _ i j)

/-- **C66** `symmetric_matrix_rank_2_update(exec, x, y, A, t)` -/
theorem C66_complex_syr2 {F : Format} {R : Recovery F} {u η : ℝ} (H : F.Errors u η)
    (x y : KVec) (A : KMat) (t : Triangle) (h : Heap (CFP F R))
    (f g : Nat → CFP F R) (a : Nat → Nat → CFP F R) (hx : x.mdspan.Holds h f) (hy : y.mdspan.Holds h g)
    (hA : A.toMat.HoldsOn h t.region a) (hxs : x.stride = 1) (hys : y.stride = 1)
    (hAt : A.transposed = false)
    (hsq : A.rows = A.cols) (hxe : A.rows = x.ext) (hye : A.rows = y.ext)
    (hu : A.toMat.UniqueOn t.region)
    (hxA : Apart x.mdspan.Cell (A.toMat.CellOn t.region))
    (hyA : Apart y.mdspan.Cell (A.toMat.CellOn t.region))
    (va : ∀ i j, i < A.rows → j < A.cols → t.region i j → (a i j).Valid) :
    Surely (kkSyr2 x y A t) h fun _ h' => ∃ r, A.toMat.BecomesOn h h' t.region r ∧
      ∀ i j, i < A.rows → j < A.cols → t.region i j →
      CFP.Accurate u 4 (8 * η)
        ((a i j).Finite ∧ ((f i).Finite ∧ (g j).Finite) ∧ (g i).Finite ∧ (f j).Finite)
        (r i j)
        ((a i j).val + ((f i).val * (g j).val + (g i).val * (f j).val))
        (size (a i j).val + (size (f i).val * size (g j).val + size (g i).val * size (f j).val)) := by
  refine (C48_syr2 x y A t h f g a hx hy hA hxs hys hAt hsq hxe hye hu hxA hyA).mono
    fun _ h' hb => ⟨_, hb, fun i j hi hj hr => ?_⟩
  exact (((acc_input H.u_nonneg 3 (va i j hi hj hr)).add H ((acc_mul H (f i) (g j)).add H (acc_mul H (g i) (f j)))).congr
    Iff.rfl rfl rfl (by ring)).toAccurate

example (t : Triangle) := C66_complex_syr2 (R := annexG binary64) binary64_errors kx ky kA t _ _ _ _ (holds bkx) (holds bky) (mholds bA) rfl rfl rfl rfl rfl rfl
    (by kview_facts) (by kview_facts) (by kview_facts) (fun i j _ _ _ => zmvals_valid _ i j)

/-- **C66** `hermitian_matrix_rank_2_update(exec, x, y, A, t)` -/
theorem C66_complex_her2 {F : Format} {R : Recovery F} {u η : ℝ} (H : F.Errors u η)
    (x y : KVec) (A : KMat) (t : Triangle) (h : Heap (CFP F R))
    (f g : Nat → CFP F R) (a : Nat → Nat → CFP F R) (hx : x.mdspan.Holds h f) (hy : y.mdspan.Holds h g)
    (hA : A.toMat.HoldsOn h t.region a) (hxs : x.stride = 1) (hys : y.stride = 1)
    (hAt : A.transposed = false)
    (hsq : A.rows = A.cols) (hxe : A.rows = x.ext) (hye : A.rows = y.ext)
    (hu : A.toMat.UniqueOn t.region)
    (hxA : Apart x.mdspan.Cell (A.toMat.CellOn t.region))
    (hyA : Apart y.mdspan.Cell (A.toMat.CellOn t.region))
    (va : ∀ i j, i < A.rows → j < A.cols → t.region i j → (a i j).Valid) :
    Surely (kkHer2 x y A t) h fun _ h' => ∃ r, A.toMat.BecomesOn h h' t.region r ∧
      ∀ i j, i < A.rows → j < A.cols → t.region i j →
      CFP.Accurate u 4 (8 * η)
        ((a i j).Finite ∧ ((f i).Finite ∧ (g j).Finite) ∧ (g i).Finite ∧ (f j).Finite)
        (r i j)
        ((a i j).val + ((f i).val * conj (g j).val + (g i).val * conj (f j).val))
        (size (a i j).val + (size (f i).val * size (g j).val + size (g i).val * size (f j).val)) := by
  refine (C48_her2 x y A t h f g a hx hy hA hxs hys hAt hsq hxe hye hu hxA hyA).mono
    fun _ h' hb => ⟨_, hb, fun i j hi hj hr => ?_⟩
  exact (((acc_input H.u_nonneg 3 (va i j hi hj hr)).add H ((acc_mul_conj H (f i) (g j)).add H (acc_mul_conj H (g i) (f j)))).congr
    Iff.rfl rfl rfl (by ring)).toAccurate

example (t : Triangle) := C66_complex_her2 (R := annexG binary64) binary64_errors kx ky kA t _ _ _ _ (holds bkx) (holds bky) (mholds bA) rfl rfl rfl rfl rfl rfl
    (by kview_facts) (by kview_facts) (by kview_facts) (fun i j _ _ _ => zmvals_valid _ i j)

/-! ## Rank-k and rank-2k updates -/

/-- **C66** `symmetric_matrix_rank_k_update(exec, alpha, A, C, t)` -/
theorem C66_complex_syrk {F : Format} {R : Recovery F} {u η : ℝ} (H : F.Errors u η)
    (alpha : CFP F R) (A C : KMat) (t : Triangle) (h : Heap (CFP F R))
    (a c : Nat → Nat → CFP F R) (hA : A.toMat.Holds h a) (hC : C.toMat.HoldsOn h t.region c)
    (hAt : A.transposed = false) (hCt : C.transposed = false)
    (he : A.rows = C.rows) (hsq : C.rows = C.cols) (hu : C.toMat.UniqueOn t.region)
    (hAC : Apart A.toMat.Cell (C.toMat.CellOn t.region))
    (vc : ∀ i j, i < C.rows → j < C.cols → t.region i j → (c i j).Valid) :
    Surely (kkSyrk alpha A C t) h fun _ h' => ∃ r, C.toMat.BecomesOn h h' t.region r ∧
      ∀ i j, i < C.rows → j < C.cols → t.region i j →
      CFP.Accurate u (4 + A.cols) (∑ k ∈ range A.cols, (4 * η * size (a j k).val + 4 * η))
        ((c i j).Finite ∧ ∀ k, k < A.cols → (alpha * a i k).Finite ∧ (a j k).Finite)
        (r i j)
        ((c i j).val + ∑ k ∈ range A.cols, alpha.val * (a i k).val * (a j k).val)
        (size (c i j).val + ∑ k ∈ range A.cols, size alpha.val * size (a i k).val * size (a j k).val) := by
  refine (C65_syrk alpha A C t h a c hA hC hAt hCt he hsq hu hAC).mono
    fun _ h' hb => ⟨_, hb, fun i j hi hj hr => ?_⟩
  exact ((Acc.leftSum H (acc_input H.u_nonneg 4 (vc i j hi hj hr)) fun k _ =>
    (acc_mul H alpha (a i k)).mul_input H (b := a j k)).congr Iff.rfl rfl rfl (zero_add _).symm).toAccurate

example (t : Triangle) := C66_complex_syrk (R := annexG binary64) binary64_errors ((5 : ℤ) : Z) kT kA t _ _ _ (mholds bT) (mholds bA) rfl rfl rfl rfl
    (by kview_facts) (by kview_facts) (fun i j _ _ _ => zmvals_valid _ i j)

/-- **C66** `hermitian_matrix_rank_k_update(exec, alpha, A, C, t)` -/
theorem C66_complex_herk {F : Format} {R : Recovery F} {u η : ℝ} (H : F.Errors u η)
    (alpha : CFP F R) (A C : KMat) (t : Triangle)
    (h : Heap (CFP F R))
    (a c : Nat → Nat → CFP F R) (hA : A.toMat.Holds h a) (hC : C.toMat.HoldsOn h t.region c)
    (hAt : A.transposed = false) (hCt : C.transposed = false)
    (he : A.rows = C.rows) (hsq : C.rows = C.cols) (hu : C.toMat.UniqueOn t.region)
    (hAC : Apart A.toMat.Cell (C.toMat.CellOn t.region))
    (vc : ∀ i j, i < C.rows → j < C.cols → t.region i j → (c i j).Valid) :
    Surely (kkHerk alpha A C t) h fun _ h' => ∃ r, C.toMat.BecomesOn h h' t.region r ∧
      ∀ i j, i < C.rows → j < C.cols → t.region i j →
      CFP.Accurate u (4 + A.cols) (∑ k ∈ range A.cols, (4 * η * size (a j k).val + 4 * η))
        ((c i j).Finite ∧ ∀ k, k < A.cols → (alpha * a i k).Finite ∧ (a j k).Finite)
        (r i j)
        ((c i j).val + ∑ k ∈ range A.cols, alpha.val * (a i k).val * conj (a j k).val)
        (size (c i j).val + ∑ k ∈ range A.cols, size alpha.val * size (a i k).val * size (a j k).val) := by
  refine (C65_herk alpha A C t h a c hA hC hAt hCt he hsq hu hAC).mono
    fun _ h' hb => ⟨_, hb, fun i j hi hj hr => ?_⟩
  exact ((Acc.leftSum H (acc_input H.u_nonneg 4 (vc i j hi hj hr)) fun k _ =>
    (acc_mul H alpha (a i k)).mul_input_conj H (b := a j k)).congr Iff.rfl rfl rfl (zero_add _).symm).toAccurate

example (t : Triangle) := C66_complex_herk (R := annexG binary64) binary64_errors ((5 : ℤ) : Z) kT kA t _ _ _ (mholds bT) (mholds bA) rfl rfl rfl rfl
    (by kview_facts) (by kview_facts) (fun i j _ _ _ => zmvals_valid _ i j)

/-- **C66** `symmetric_matrix_rank_2k_update(exec, A, B, C, t)` -/
theorem C66_complex_syr2k {F : Format} {R : Recovery F} {u η : ℝ} (H : F.Errors u η)
    (A B C : KMat) (t : Triangle) (h : Heap (CFP F R))
    (a b c : Nat → Nat → CFP F R) (hA : A.toMat.Holds h a) (hB : B.toMat.Holds h b)
    (hC : C.toMat.HoldsOn h t.region c)
    (hAt : A.transposed = false) (hBt : B.transposed = false) (hCt : C.transposed = false)
    (he : A.rows = C.rows) (he' : B.rows = C.rows) (hsq : C.rows = C.cols)
    (hK : A.cols = B.cols) (hu : C.toMat.UniqueOn t.region)
    (hAC : Apart A.toMat.Cell (C.toMat.CellOn t.region))
    (hBC : Apart B.toMat.Cell (C.toMat.CellOn t.region))
    (vc : ∀ i j, i < C.rows → j < C.cols → t.region i j → (c i j).Valid) :
    Surely (kkSyr2k A B C t) h fun _ h' => ∃ r, C.toMat.BecomesOn h h' t.region r ∧
      ∀ i j, i < C.rows → j < C.cols → t.region i j →
      CFP.Accurate u (3 + A.cols) (A.cols * (8 * η))
        ((c i j).Finite ∧ ∀ k, k < A.cols →
          ((a i k).Finite ∧ (b j k).Finite) ∧ (b i k).Finite ∧ (a j k).Finite)
        (r i j)
        ((c i j).val + ∑ k ∈ range A.cols,
          ((a i k).val * (b j k).val + (b i k).val * (a j k).val))
        (size (c i j).val + ∑ k ∈ range A.cols,
          (size (a i k).val * size (b j k).val + size (b i k).val * size (a j k).val)) := by
  refine (C65_syr2k A B C t h a b c hA hB hC hAt hBt hCt he he' hsq hK hu hAC hBC).mono
    fun _ h' hb => ⟨_, hb, fun i j hi hj hr => ?_⟩
  exact ((Acc.leftSum H (acc_input H.u_nonneg 3 (vc i j hi hj hr)) fun k _ =>
    (acc_mul H (a i k) (b j k)).add H (acc_mul H (b i k) (a j k))).congr Iff.rfl rfl rfl
    (by rw [sum_const, card_range, nsmul_eq_mul]; ring)).toAccurate

example (t : Triangle) := C66_complex_syr2k (R := annexG binary64) binary64_errors kB kC kA t _ _ _ _ (mholds bB) (mholds bC) (mholds bA) rfl rfl rfl rfl rfl rfl rfl
    (by kview_facts) (by kview_facts) (by kview_facts) (fun i j _ _ _ => zmvals_valid _ i j)

/-- **C66** `hermitian_matrix_rank_2k_update(exec, A, B, C, t)` -/
theorem C66_complex_her2k {F : Format} {R : Recovery F} {u η : ℝ} (H : F.Errors u η)
    (A B C : KMat) (t : Triangle)
    (h : Heap (CFP F R))
    (a b c : Nat → Nat → CFP F R) (hA : A.toMat.Holds h a) (hB : B.toMat.Holds h b)
    (hC : C.toMat.HoldsOn h t.region c)
    (hAt : A.transposed = false) (hBt : B.transposed = false) (hCt : C.transposed = false)
    (he : A.rows = C.rows) (he' : B.rows = C.rows) (hsq : C.rows = C.cols)
    (hK : A.cols = B.cols) (hu : C.toMat.UniqueOn t.region)
    (hAC : Apart A.toMat.Cell (C.toMat.CellOn t.region))
    (hBC : Apart B.toMat.Cell (C.toMat.CellOn t.region))
    (vc : ∀ i j, i < C.rows → j < C.cols → t.region i j → (c i j).Valid) :
    Surely (kkHer2k A B C t) h fun _ h' => ∃ r, C.toMat.BecomesOn h h' t.region r ∧
      ∀ i j, i < C.rows → j < C.cols → t.region i j →
      CFP.Accurate u (3 + A.cols) (A.cols * (8 * η))
        ((c i j).Finite ∧ ∀ k, k < A.cols →
          ((a i k).Finite ∧ (b j k).Finite) ∧ (b i k).Finite ∧ (a j k).Finite)
        (r i j)
        ((c i j).val + ∑ k ∈ range A.cols,
          ((a i k).val * conj (b j k).val + (b i k).val * conj (a j k).val))
        (size (c i j).val + ∑ k ∈ range A.cols,
          (size (a i k).val * size (b j k).val + size (b i k).val * size (a j k).val)) := by
  refine (C65_her2k A B C t h a b c hA hB hC hAt hBt hCt he he' hsq hK hu hAC hBC).mono
    fun _ h' hb => ⟨_, hb, fun i j hi hj hr => ?_⟩
  exact ((Acc.leftSum H (acc_input H.u_nonneg 3 (vc i j hi hj hr)) fun k _ =>
    (acc_mul_conj H (a i k) (b j k)).add H (acc_mul_conj H (b i k) (a j k))).congr Iff.rfl rfl rfl
    (by rw [sum_const, card_range, nsmul_eq_mul]; ring)).toAccurate

example (t : Triangle) := C66_complex_her2k (R := annexG binary64) binary64_errors kB kC kA t _ _ _ _ (mholds bB) (mholds bC) (mholds bA) rfl rfl rfl rfl rfl rfl rfl
    (by kview_facts) (by kview_facts) (by kview_facts) (fun i j _ _ _ => zmvals_valid _ i j)

end StdBLAS

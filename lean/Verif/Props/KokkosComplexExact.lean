import Verif.Props.ComplexExact
import Verif.Props.KokkosFloatExact
import Verif.Lemmas.KokkosComplexExact

/-!
# Property C70 for the Kokkos backend: no rounding errors on complex integers

As `Props/ComplexExact` says it of the native algorithms, for the kernels of the Kokkos backend, under
every schedule (`Surely`).  The Hermitian kernels take the diagonal of `A` as it is stored (the products
of matrices conjugate it) and do not clear the imaginary part of the diagonal they update.

In the examples the elements are `std::complex<double>` and products follow Annex G of the C standard.
-/

namespace StdBLAS
open Finset Witness CFP ComplexConjugate

/-! ## Matrix-vector products -/

/-- **C70** `symmetric_matrix_vector_product(exec, A, t, x, y)` -/
theorem C70_kokkos_complex_symv {F : Format} {R : Recovery F} {N : ℕ} {g₁ g₂ : ℝ} (H : F.Grid N (g₁ * g₂))
    (A : KMat) (t : Triangle) (x y : KVec)
    (h : Heap (CFP F R)) (a : Nat → Nat → CFP F R) (f : Nat → CFP F R) (hA : A.toMat.HoldsOn h t.region a)
    (hx : x.mdspan.Holds h f) (hy : y.mdspan.Alloc h) (hAt : A.transposed = false)
    (hxs : x.stride = 1) (hys : y.stride = 1) (hsq : A.rows = A.cols) (hxe : A.cols = x.ext)
    (hye : A.rows = y.ext) (hAy : Apart (A.toMat.CellOn t.region) y.mdspan.Cell)
    (hxy : Apart x.mdspan.Cell y.mdspan.Cell) :
    Surely (kkSymv A t x y) h fun _ h' => ∃ r, y.mdspan.Becomes h h' r ∧
      ∀ i, i < y.ext →
      CFP.Exact N (g₁ * g₂)
        (∀ k, k < A.cols → (symOf t a i k).On g₁ ∧ (f k).On g₂)
        (r i)
        (∑ k ∈ range A.cols, (symOf t a i k).val * (f k).val)
        (∑ k ∈ range A.cols, size (symOf t a i k).val * size (f k).val) := by
  refine (C65_symv A t x y h a f hA hx hy hAt hxs hys hsq hxe hye hAy hxy).mono
    fun _ h' hb => ⟨_, hb, fun i hi => ?_⟩
  have c := Ex.kkSym H id t a f (show i < A.cols by omega) fun k _ =>
    ex_mul H (mirror id t a i k) (f k)
  exact c.toExact

example := C70_kokkos_complex_symv (R := annexG binary64) binary64_integers kA .lower kx ky _ _ _ (mholds bA) (holds bkx)
    (alloc bky) rfl rfl rfl rfl rfl rfl (by kview_facts) (by kview_facts)

/-- **C70** `symmetric_matrix_vector_product(exec, A, t, x, y, z)`; `z` may be `y`. -/
theorem C70_kokkos_complex_symv_update {F : Format} {R : Recovery F} {N : ℕ} {g₁ g₂ : ℝ} (H : F.Grid N (g₁ * g₂))
    (A : KMat) (t : Triangle) (x y z : KVec)
    (h : Heap (CFP F R)) (a : Nat → Nat → CFP F R) (f g : Nat → CFP F R) (hA : A.toMat.HoldsOn h t.region a)
    (hx : x.mdspan.Holds h f) (hy : y.mdspan.Holds h g) (hz : z.mdspan.Alloc h)
    (hAt : A.transposed = false) (hxs : x.stride = 1) (hys : y.stride = 1) (hzs : z.stride = 1)
    (hsq : A.rows = A.cols) (hxe : A.cols = x.ext) (hye : A.rows = y.ext) (hze : A.rows = z.ext)
    (hAz : Apart (A.toMat.CellOn t.region) z.mdspan.Cell)
    (hxz : Apart x.mdspan.Cell z.mdspan.Cell) (hyz : y.mdspan.Aligned z.mdspan) :
    Surely (kkSymvUpdate A t x y z) h fun _ h' => ∃ r, z.mdspan.Becomes h h' r ∧
      ∀ i, i < z.ext →
      CFP.Exact N (g₁ * g₂)
        ((g i).On (g₁ * g₂) ∧ ∀ k, k < A.cols → (symOf t a i k).On g₁ ∧ (f k).On g₂)
        (r i)
        ((g i).val + ∑ k ∈ range A.cols, (symOf t a i k).val * (f k).val)
        (size (g i).val + ∑ k ∈ range A.cols, size (symOf t a i k).val * size (f k).val) := by
  refine (C65_symv_update A t x y z h a f g hA hx hy hz hAt hxs hys hzs hsq hxe hye hze hAz hxz hyz).mono
    fun _ h' hb => ⟨_, hb, fun i hi => ?_⟩
  have c := Ex.kkSym H id t a f (show i < A.cols by omega) fun k _ =>
    ex_mul H (mirror id t a i k) (f k)
  exact ((ex_input _).add H c).toExact

example := C70_kokkos_complex_symv_update (R := annexG binary64) binary64_integers kA .upper kx ky ky _ _ _ _ (mholds bA)
    (holds bkx) (holds bky) (alloc bky) rfl rfl rfl rfl rfl rfl rfl rfl (by kview_facts)
    (by kview_facts) (by kview_facts)

/-- **C70** `hermitian_matrix_vector_product(exec, A, t, x, y)`: the diagonal is used as it is
stored, with its imaginary part (`C50_hemv_imaginary_diagonal_false`). -/
theorem C70_kokkos_complex_hemv {F : Format} {R : Recovery F} {N : ℕ} {g₁ g₂ : ℝ} (H : F.Grid N (g₁ * g₂))
    (A : KMat) (t : Triangle)
    (x y : KVec) (h : Heap (CFP F R)) (a : Nat → Nat → CFP F R) (f : Nat → CFP F R)
    (hA : A.toMat.HoldsOn h t.region a)
    (hx : x.mdspan.Holds h f) (hy : y.mdspan.Alloc h) (hAt : A.transposed = false)
    (hxs : x.stride = 1) (hys : y.stride = 1) (hsq : A.rows = A.cols) (hxe : A.cols = x.ext)
    (hye : A.rows = y.ext) (hAy : Apart (A.toMat.CellOn t.region) y.mdspan.Cell)
    (hxy : Apart x.mdspan.Cell y.mdspan.Cell) :
    Surely (kkHemv A t x y) h fun _ h' => ∃ r, y.mdspan.Becomes h h' r ∧
      ∀ i, i < y.ext →
      CFP.Exact N (g₁ * g₂)
        (∀ k, k < A.cols → (if i = k then a i i else hermOf t a i k).On g₁ ∧ (f k).On g₂)
        (r i)
        (∑ k ∈ range A.cols, (if i = k then a i i else hermOf t a i k).val * (f k).val)
        (∑ k ∈ range A.cols, size (if i = k then a i i else hermOf t a i k).val * size (f k).val) := by
  refine (C65_hemv A t x y h a f hA hx hy hAt hxs hys hsq hxe hye hAy hxy).mono
    fun _ h' hb => ⟨_, hb, fun i hi => ?_⟩
  have c := Ex.kkSym H ConjOps.conj t a f (show i < A.cols by omega) fun k _ =>
    ex_mul H (mirror ConjOps.conj t a i k) (f k)
  simp only [mirror_conj] at c
  exact c.toExact

example := C70_kokkos_complex_hemv (R := annexG binary64) binary64_integers kA .lower kx ky _ _ _ (mholds bA) (holds bkx)
    (alloc bky) rfl rfl rfl rfl rfl rfl (by kview_facts) (by kview_facts)

/-- **C70** `hermitian_matrix_vector_product(exec, A, t, x, y, z)`; `z` may be `y`. -/
theorem C70_kokkos_complex_hemv_update {F : Format} {R : Recovery F} {N : ℕ} {g₁ g₂ : ℝ} (H : F.Grid N (g₁ * g₂))
    (A : KMat) (t : Triangle)
    (x y z : KVec)
    (h : Heap (CFP F R)) (a : Nat → Nat → CFP F R) (f g : Nat → CFP F R) (hA : A.toMat.HoldsOn h t.region a)
    (hx : x.mdspan.Holds h f) (hy : y.mdspan.Holds h g) (hz : z.mdspan.Alloc h)
    (hAt : A.transposed = false) (hxs : x.stride = 1) (hys : y.stride = 1) (hzs : z.stride = 1)
    (hsq : A.rows = A.cols) (hxe : A.cols = x.ext) (hye : A.rows = y.ext) (hze : A.rows = z.ext)
    (hAz : Apart (A.toMat.CellOn t.region) z.mdspan.Cell)
    (hxz : Apart x.mdspan.Cell z.mdspan.Cell) (hyz : y.mdspan.Aligned z.mdspan) :
    Surely (kkHemvUpdate A t x y z) h fun _ h' => ∃ r, z.mdspan.Becomes h h' r ∧
      ∀ i, i < z.ext →
      CFP.Exact N (g₁ * g₂)
        ((g i).On (g₁ * g₂) ∧ ∀ k, k < A.cols → (if i = k then a i i else hermOf t a i k).On g₁ ∧ (f k).On g₂)
        (r i)
        ((g i).val + ∑ k ∈ range A.cols, (if i = k then a i i else hermOf t a i k).val * (f k).val)
        (size (g i).val + ∑ k ∈ range A.cols, size (if i = k then a i i else hermOf t a i k).val * size (f k).val) := by
  refine (C65_hemv_update A t x y z h a f g hA hx hy hz hAt hxs hys hzs hsq hxe hye hze hAz hxz hyz).mono
    fun _ h' hb => ⟨_, hb, fun i hi => ?_⟩
  have c := Ex.kkSym H ConjOps.conj t a f (show i < A.cols by omega) fun k _ =>
    ex_mul H (mirror ConjOps.conj t a i k) (f k)
  simp only [mirror_conj] at c
  exact ((ex_input _).add H c).toExact

example := C70_kokkos_complex_hemv_update (R := annexG binary64) binary64_integers kA .upper kx ky ky _ _ _ _ (mholds bA)
    (holds bkx) (holds bky) (alloc bky) rfl rfl rfl rfl rfl rfl rfl rfl (by kview_facts)
    (by kview_facts) (by kview_facts)

/-- **C70** `triangular_matrix_vector_product(exec, A, t, d, x, y)` -/
theorem C70_kokkos_complex_trmv {F : Format} {R : Recovery F} {N : ℕ} {g₁ g₂ : ℝ} (H : F.Grid N (g₁ * g₂))
    (A : KMat) (t : Triangle) (d : Diag) (x y : KVec)
    (h : Heap (CFP F R)) (a : Nat → Nat → CFP F R) (f : Nat → CFP F R) (hA : A.toMat.HoldsOn h (triRegion t d) a)
    (hx : x.mdspan.Holds h f) (hy : y.mdspan.Alloc h) (hAt : A.transposed = false)
    (hxs : x.stride = 1) (hys : y.stride = 1) (hsq : A.rows = A.cols) (hxe : A.cols = x.ext)
    (hye : A.rows = y.ext) (hAy : Apart (A.toMat.CellOn (triRegion t d)) y.mdspan.Cell)
    (hxy : Apart x.mdspan.Cell y.mdspan.Cell)
    (h1 : d = .implicitUnit → Multiple g₁ 1) :
    Surely (kkTrmv A t d x y) h fun _ h' => ∃ r, y.mdspan.Becomes h h' r ∧
      ∀ i, i < y.ext →
      CFP.Exact N (g₁ * g₂)
        (∀ k, k < A.cols → t.region i k → (f k).On g₂ ∧ (triRegion t d i k → (a i k).On g₁))
        (r i)
        (∑ k ∈ range A.cols, triOf t d (fun i j => (a i j).val) i k * (f k).val)
        (∑ k ∈ range A.cols, size (triOf t d (fun i j => (a i j).val) i k) * size (f k).val) := by
  refine (C65_trmv A t d x y h a f hA hx hy hAt hxs hys hsq hxe hye hAy hxy).mono
    fun _ h' hb => ⟨_, hb, fun i hi => ?_⟩
  have hi' : i < A.cols := by omega
  rw [kkTriSeq_element t d hi' (fun k => a i k * f k) (f i)]
  exact (ex_triLeft H t d h1 a f 0 rfl hi').from_zero.toExact

example (t : Triangle) (d : Diag) := C70_kokkos_complex_trmv (R := annexG binary64) binary64_integers kA t d kx ky _ _ _ (mholds bA) (holds bkx)
    (alloc bky) rfl rfl rfl rfl rfl rfl (by kview_facts) (by kview_facts) H1

/-- **C70** `triangular_matrix_vector_product(exec, A, t, d, x, y, z)`; `z` may be `y`. -/
theorem C70_kokkos_complex_trmv_update {F : Format} {R : Recovery F} {N : ℕ} {g₁ g₂ : ℝ} (H : F.Grid N (g₁ * g₂))
    (A : KMat) (t : Triangle) (d : Diag)
    (x y z : KVec)
    (h : Heap (CFP F R)) (a : Nat → Nat → CFP F R) (f g : Nat → CFP F R)
    (hA : A.toMat.HoldsOn h (triRegion t d) a)
    (hx : x.mdspan.Holds h f) (hy : y.mdspan.Holds h g) (hz : z.mdspan.Alloc h)
    (hAt : A.transposed = false) (hxs : x.stride = 1) (hys : y.stride = 1) (hzs : z.stride = 1)
    (hsq : A.rows = A.cols) (hxe : A.cols = x.ext) (hye : A.rows = y.ext) (hze : A.rows = z.ext)
    (hAz : Apart (A.toMat.CellOn (triRegion t d)) z.mdspan.Cell)
    (hxz : Apart x.mdspan.Cell z.mdspan.Cell) (hyz : y.mdspan.Aligned z.mdspan)
    (h1 : d = .implicitUnit → Multiple g₁ 1) :
    Surely (kkTrmvUpdate A t d x y z) h fun _ h' => ∃ r, z.mdspan.Becomes h h' r ∧
      ∀ i, i < z.ext →
      CFP.Exact N (g₁ * g₂)
        ((g i).On (g₁ * g₂) ∧ ∀ k, k < A.cols → t.region i k → (f k).On g₂ ∧ (triRegion t d i k → (a i k).On g₁))
        (r i)
        ((g i).val + ∑ k ∈ range A.cols, triOf t d (fun i j => (a i j).val) i k * (f k).val)
        (size (g i).val + ∑ k ∈ range A.cols, size (triOf t d (fun i j => (a i j).val) i k) * size (f k).val) := by
  refine (C65_trmv_update A t d x y z h a f g hA hx hy hz hAt hxs hys hzs hsq hxe hye hze hAz hxz hyz).mono
    fun _ h' hb => ⟨_, hb, fun i hi => ?_⟩
  have hi' : i < A.cols := by omega
  rw [kkTriSeq_element t d hi' (fun k => a i k * f k) (f i)]
  exact ((ex_input _).add H (ex_triLeft H t d h1 a f 0 rfl hi').from_zero).toExact

example (t : Triangle) (d : Diag) := C70_kokkos_complex_trmv_update (R := annexG binary64) binary64_integers kA t d kx ky ky _ _ _ _ (mholds bA)
    (holds bkx) (holds bky) (alloc bky) rfl rfl rfl rfl rfl rfl rfl rfl (by kview_facts)
    (by kview_facts) (by kview_facts) H1

/-! ## Matrix-matrix products -/

/-- **C70** `symmetric_matrix_left_product(exec, A, t, B, C)` -/
theorem C70_kokkos_complex_symm_left {F : Format} {R : Recovery F} {N : ℕ} {g₁ g₂ : ℝ} (H : F.Grid N (g₁ * g₂))
    (A : KMat) (t : Triangle) (B C : KMat)
    (h : Heap (CFP F R)) (a b : Nat → Nat → CFP F R) (hA : A.toMat.HoldsOn h t.region a)
    (hB : B.toMat.Holds h b) (hC : C.toMat.Alloc h) (hAt : A.transposed = false)
    (hBt : B.transposed = false) (hCt : C.transposed = false)
    (hsq : A.rows = A.cols) (hAB : A.cols = B.rows) (hAC : A.rows = C.rows)
    (hBC : B.cols = C.cols) (hu : C.toMat.Unique)
    (hApC : Apart (A.toMat.CellOn t.region) C.toMat.Cell)
    (hBpC : Apart B.toMat.Cell C.toMat.Cell) :
    Surely (kkSymmLeft A t B C) h fun _ h' => ∃ r, C.toMat.Becomes h h' r ∧
      ∀ i j, i < C.rows → j < C.cols →
      CFP.Exact N (g₁ * g₂)
        (∀ k, k < A.cols → (symOf t a i k).On g₁ ∧ (b k j).On g₂)
        (r i j)
        (∑ k ∈ range A.cols, (symOf t a i k).val * (b k j).val)
        (∑ k ∈ range A.cols, size (symOf t a i k).val * size (b k j).val) := by
  refine (C65_symm_left A t B C h a b hA hB hC hAt hBt hCt hsq hAB hAC hBC hu hApC hBpC).mono
    fun _ h' hb => ⟨_, hb, fun i j hi hj => ?_⟩
  exact (ex_products_zero H A.cols (symOf t a i) (fun k => b k j)).toExact

example := C70_kokkos_complex_symm_left (R := annexG binary64) binary64_integers kA .lower kB kC _ _ _ (mholds bA)
    (mholds bB) (malloc bC) rfl rfl rfl rfl rfl rfl rfl (by kview_facts) (by kview_facts)
    (by kview_facts)

/-- **C70** `symmetric_matrix_left_product(exec, A, t, B, E, C)`; `C` may be `E`. -/
theorem C70_kokkos_complex_symm_left_update {F : Format} {R : Recovery F} {N : ℕ} {g₁ g₂ : ℝ} (H : F.Grid N (g₁ * g₂))
    (A : KMat) (t : Triangle)
    (B E C : KMat) (h : Heap (CFP F R)) (a b e : Nat → Nat → CFP F R) (hA : A.toMat.HoldsOn h t.region a)
    (hB : B.toMat.Holds h b) (hE : E.toMat.Holds h e) (hC : C.toMat.Alloc h)
    (hAt : A.transposed = false) (hBt : B.transposed = false) (hEt : E.transposed = false)
    (hCt : C.transposed = false)
    (hsq : A.rows = A.cols) (hAB : A.cols = B.rows) (hAC : A.rows = C.rows)
    (hBC : B.cols = C.cols) (hEr : E.rows = C.rows) (hEc : E.cols = C.cols)
    (hu : C.toMat.Unique)
    (hApC : Apart (A.toMat.CellOn t.region) C.toMat.Cell)
    (hBpC : Apart B.toMat.Cell C.toMat.Cell) (hEC : E.toMat.Aligned C.toMat) :
    Surely (kkSymmLeftUpdate A t B E C) h fun _ h' => ∃ r, C.toMat.Becomes h h' r ∧
      ∀ i j, i < C.rows → j < C.cols →
      CFP.Exact N (g₁ * g₂)
        ((e i j).On (g₁ * g₂) ∧ ∀ k, k < A.cols → (symOf t a i k).On g₁ ∧ (b k j).On g₂)
        (r i j)
        ((e i j).val + ∑ k ∈ range A.cols, (symOf t a i k).val * (b k j).val)
        (size (e i j).val + ∑ k ∈ range A.cols, size (symOf t a i k).val * size (b k j).val) := by
  refine (C65_symm_left_update A t B E C h a b e hA hB hE hC hAt hBt hEt hCt hsq hAB hAC hBC hEr hEc hu hApC hBpC hEC).mono
    fun _ h' hb => ⟨_, hb, fun i j hi hj => ?_⟩
  exact (ex_products H A.cols (symOf t a i) (fun k => b k j) _).toExact

example := C70_kokkos_complex_symm_left_update (R := annexG binary64) binary64_integers kA .lower kB kC kC _ _ _ _
    (mholds bA)
    (mholds bB) (mholds bC) (malloc bC) rfl rfl rfl rfl rfl rfl rfl rfl rfl rfl (by kview_facts)
    (by kview_facts) (by kview_facts) (by kview_facts)

/-- **C70** `symmetric_matrix_right_product(exec, A, t, B, C)`.  `B` may have any layout. -/
theorem C70_kokkos_complex_symm_right {F : Format} {R : Recovery F} {N : ℕ} {g₁ g₂ : ℝ} (H : F.Grid N (g₁ * g₂))
    (A : KMat) (t : Triangle) (B C : KMat)
    (h : Heap (CFP F R)) (a b : Nat → Nat → CFP F R) (hA : A.toMat.HoldsOn h t.region a)
    (hB : B.toMat.Holds h b) (hC : C.toMat.Alloc h) (hAt : A.transposed = false)
    (hCt : C.transposed = false)
    (hsq : A.rows = A.cols) (hBA : B.cols = A.rows) (hBC : B.rows = C.rows)
    (hAC : A.cols = C.cols) (hu : C.toMat.Unique)
    (hApC : Apart (A.toMat.CellOn t.region) C.toMat.Cell)
    (hBpC : Apart B.toMat.Cell C.toMat.Cell) :
    Surely (kkSymmRight A t B C) h fun _ h' => ∃ r, C.toMat.Becomes h h' r ∧
      ∀ i j, i < C.rows → j < C.cols →
      CFP.Exact N (g₁ * g₂)
        (∀ k, k < A.cols → (b i k).On g₁ ∧ (symOf t a k j).On g₂)
        (r i j)
        (∑ k ∈ range A.cols, (b i k).val * (symOf t a k j).val)
        (∑ k ∈ range A.cols, size (b i k).val * size (symOf t a k j).val) := by
  refine (C65_symm_right A t B C h a b hA hB hC hAt hCt hsq hBA hBC hAC hu hApC hBpC).mono
    fun _ h' hb => ⟨_, hb, fun i j hi hj => ?_⟩
  exact (ex_products_zero H A.cols (b i) (fun k => symOf t a k j)).toExact

example := C70_kokkos_complex_symm_right (R := annexG binary64) binary64_integers kA .upper kB kC _ _ _ (mholds bA)
    (mholds bB) (malloc bC) rfl rfl rfl rfl rfl rfl (by kview_facts) (by kview_facts)
    (by kview_facts)

/-- **C70** `symmetric_matrix_right_product(exec, A, t, B, E, C)`; `C` may be `E`. -/
theorem C70_kokkos_complex_symm_right_update {F : Format} {R : Recovery F} {N : ℕ} {g₁ g₂ : ℝ} (H : F.Grid N (g₁ * g₂))
    (A : KMat) (t : Triangle)
    (B E C : KMat) (h : Heap (CFP F R)) (a b e : Nat → Nat → CFP F R) (hA : A.toMat.HoldsOn h t.region a)
    (hB : B.toMat.Holds h b) (hE : E.toMat.Holds h e) (hC : C.toMat.Alloc h)
    (hAt : A.transposed = false) (hEt : E.transposed = false) (hCt : C.transposed = false)
    (hsq : A.rows = A.cols) (hBA : B.cols = A.rows) (hBC : B.rows = C.rows)
    (hAC : A.cols = C.cols) (hEr : E.rows = C.rows) (hEc : E.cols = C.cols)
    (hu : C.toMat.Unique)
    (hApC : Apart (A.toMat.CellOn t.region) C.toMat.Cell)
    (hBpC : Apart B.toMat.Cell C.toMat.Cell) (hEC : E.toMat.Aligned C.toMat) :
    Surely (kkSymmRightUpdate A t B E C) h fun _ h' => ∃ r, C.toMat.Becomes h h' r ∧
      ∀ i j, i < C.rows → j < C.cols →
      CFP.Exact N (g₁ * g₂)
        ((e i j).On (g₁ * g₂) ∧ ∀ k, k < A.cols → (b i k).On g₁ ∧ (symOf t a k j).On g₂)
        (r i j)
        ((e i j).val + ∑ k ∈ range A.cols, (b i k).val * (symOf t a k j).val)
        (size (e i j).val + ∑ k ∈ range A.cols, size (b i k).val * size (symOf t a k j).val) := by
  refine (C65_symm_right_update A t B E C h a b e hA hB hE hC hAt hEt hCt hsq hBA hBC hAC hEr hEc hu hApC hBpC hEC).mono
    fun _ h' hb => ⟨_, hb, fun i j hi hj => ?_⟩
  exact (ex_products H A.cols (b i) (fun k => symOf t a k j) _).toExact

example := C70_kokkos_complex_symm_right_update (R := annexG binary64) binary64_integers kA .upper kB kE kC _ _ _ _
    (mholds bA)
    (mholds bB) (mholds bE) (malloc bC) rfl rfl rfl rfl rfl rfl rfl rfl rfl (by kview_facts)
    (by kview_facts) (by kview_facts) (by kview_facts)

/-- **C70** `hermitian_matrix_left_product(exec, A, t, B, C)`: what it computes; the diagonal of
`A` enters conjugated (`C50_hemm_conjugates_diagonal`). -/
theorem C70_kokkos_complex_hemm_left {F : Format} {R : Recovery F} {N : ℕ} {g₁ g₂ : ℝ} (H : F.Grid N (g₁ * g₂))
    (A : KMat) (t : Triangle)
    (B C : KMat)
    (h : Heap (CFP F R)) (a b : Nat → Nat → CFP F R) (hA : A.toMat.HoldsOn h t.region a)
    (hB : B.toMat.Holds h b) (hC : C.toMat.Alloc h) (hAt : A.transposed = false)
    (hBt : B.transposed = false) (hCt : C.transposed = false)
    (hsq : A.rows = A.cols) (hAB : A.cols = B.rows) (hAC : A.rows = C.rows)
    (hBC : B.cols = C.cols) (hu : C.toMat.Unique)
    (hApC : Apart (A.toMat.CellOn t.region) C.toMat.Cell)
    (hBpC : Apart B.toMat.Cell C.toMat.Cell) :
    Surely (kkHemmLeft A t B C) h fun _ h' => ∃ r, C.toMat.Becomes h h' r ∧
      ∀ i j, i < C.rows → j < C.cols →
      CFP.Exact N (g₁ * g₂)
        (∀ k, k < A.cols → (if i = k then ConjOps.conj (a i i) else hermOf t a i k).On g₁ ∧ (b k j).On g₂)
        (r i j)
        (∑ k ∈ range A.cols, (if i = k then ConjOps.conj (a i i) else hermOf t a i k).val * (b k j).val)
        (∑ k ∈ range A.cols, size (if i = k then ConjOps.conj (a i i) else hermOf t a i k).val * size (b k j).val) := by
  refine (C65_hemm_left A t B C h a b hA hB hC hAt hBt hCt hsq hAB hAC hBC hu hApC hBpC).mono
    fun _ h' hb => ⟨_, hb, fun i j hi hj => ?_⟩
  exact (ex_products_zero H A.cols (fun k => if i = k then ConjOps.conj (a i i) else hermOf t a i k) (fun k => b k j)).toExact

example := C70_kokkos_complex_hemm_left (R := annexG binary64) binary64_integers kA .lower kB kC _ _ _ (mholds bA)
    (mholds bB) (malloc bC) rfl rfl rfl rfl rfl rfl rfl (by kview_facts) (by kview_facts)
    (by kview_facts)

/-- **C70** `hermitian_matrix_left_product(exec, A, t, B, E, C)`; `C` may be `E`. -/
theorem C70_kokkos_complex_hemm_left_update {F : Format} {R : Recovery F} {N : ℕ} {g₁ g₂ : ℝ} (H : F.Grid N (g₁ * g₂))
    (A : KMat)
    (t : Triangle)
    (B E C : KMat) (h : Heap (CFP F R)) (a b e : Nat → Nat → CFP F R) (hA : A.toMat.HoldsOn h t.region a)
    (hB : B.toMat.Holds h b) (hE : E.toMat.Holds h e) (hC : C.toMat.Alloc h)
    (hAt : A.transposed = false) (hBt : B.transposed = false) (hEt : E.transposed = false)
    (hCt : C.transposed = false)
    (hsq : A.rows = A.cols) (hAB : A.cols = B.rows) (hAC : A.rows = C.rows)
    (hBC : B.cols = C.cols) (hEr : E.rows = C.rows) (hEc : E.cols = C.cols)
    (hu : C.toMat.Unique)
    (hApC : Apart (A.toMat.CellOn t.region) C.toMat.Cell)
    (hBpC : Apart B.toMat.Cell C.toMat.Cell) (hEC : E.toMat.Aligned C.toMat) :
    Surely (kkHemmLeftUpdate A t B E C) h fun _ h' => ∃ r, C.toMat.Becomes h h' r ∧
      ∀ i j, i < C.rows → j < C.cols →
      CFP.Exact N (g₁ * g₂)
        ((e i j).On (g₁ * g₂) ∧ ∀ k, k < A.cols → (if i = k then ConjOps.conj (a i i) else hermOf t a i k).On g₁ ∧ (b k j).On g₂)
        (r i j)
        ((e i j).val + ∑ k ∈ range A.cols, (if i = k then ConjOps.conj (a i i) else hermOf t a i k).val * (b k j).val)
        (size (e i j).val + ∑ k ∈ range A.cols, size (if i = k then ConjOps.conj (a i i) else hermOf t a i k).val * size (b k j).val) := by
  refine (C65_hemm_left_update A t B E C h a b e hA hB hE hC hAt hBt hEt hCt hsq hAB hAC hBC hEr hEc hu hApC hBpC hEC).mono
    fun _ h' hb => ⟨_, hb, fun i j hi hj => ?_⟩
  exact (ex_products H A.cols (fun k => if i = k then ConjOps.conj (a i i) else hermOf t a i k) (fun k => b k j) _).toExact

example := C70_kokkos_complex_hemm_left_update (R := annexG binary64) binary64_integers kA .lower kB kC kC _ _ _ _
    (mholds bA)
    (mholds bB) (mholds bC) (malloc bC) rfl rfl rfl rfl rfl rfl rfl rfl rfl rfl (by kview_facts)
    (by kview_facts) (by kview_facts) (by kview_facts)

/-- **C70** `hermitian_matrix_right_product(exec, A, t, B, C)`: what it computes; the diagonal
of `A` enters conjugated.  `B` may have any layout. -/
theorem C70_kokkos_complex_hemm_right {F : Format} {R : Recovery F} {N : ℕ} {g₁ g₂ : ℝ} (H : F.Grid N (g₁ * g₂))
    (A : KMat) (t : Triangle)
    (B C : KMat)
    (h : Heap (CFP F R)) (a b : Nat → Nat → CFP F R) (hA : A.toMat.HoldsOn h t.region a)
    (hB : B.toMat.Holds h b) (hC : C.toMat.Alloc h) (hAt : A.transposed = false)
    (hCt : C.transposed = false)
    (hsq : A.rows = A.cols) (hBA : B.cols = A.rows) (hBC : B.rows = C.rows)
    (hAC : A.cols = C.cols) (hu : C.toMat.Unique)
    (hApC : Apart (A.toMat.CellOn t.region) C.toMat.Cell)
    (hBpC : Apart B.toMat.Cell C.toMat.Cell) :
    Surely (kkHemmRight A t B C) h fun _ h' => ∃ r, C.toMat.Becomes h h' r ∧
      ∀ i j, i < C.rows → j < C.cols →
      CFP.Exact N (g₁ * g₂)
        (∀ k, k < A.cols → (b i k).On g₁ ∧ (if k = j then ConjOps.conj (a k k) else hermOf t a k j).On g₂)
        (r i j)
        (∑ k ∈ range A.cols, (b i k).val * (if k = j then ConjOps.conj (a k k) else hermOf t a k j).val)
        (∑ k ∈ range A.cols, size (b i k).val * size (if k = j then ConjOps.conj (a k k) else hermOf t a k j).val) := by
  refine (C65_hemm_right A t B C h a b hA hB hC hAt hCt hsq hBA hBC hAC hu hApC hBpC).mono
    fun _ h' hb => ⟨_, hb, fun i j hi hj => ?_⟩
  exact (ex_products_zero H A.cols (b i) (fun k => if k = j then ConjOps.conj (a k k) else hermOf t a k j)).toExact

example := C70_kokkos_complex_hemm_right (R := annexG binary64) binary64_integers kA .upper kB kC _ _ _ (mholds bA)
    (mholds bB) (malloc bC) rfl rfl rfl rfl rfl rfl (by kview_facts) (by kview_facts)
    (by kview_facts)

/-- **C70** `hermitian_matrix_right_product(exec, A, t, B, E, C)`; `C` may be `E`.  The backend
does not check the extents of `E`. -/
theorem C70_kokkos_complex_hemm_right_update {F : Format} {R : Recovery F} {N : ℕ} {g₁ g₂ : ℝ} (H : F.Grid N (g₁ * g₂))
    (A : KMat)
    (t : Triangle)
    (B E C : KMat) (h : Heap (CFP F R)) (a b e : Nat → Nat → CFP F R) (hA : A.toMat.HoldsOn h t.region a)
    (hB : B.toMat.Holds h b) (hE : E.toMat.Holds h e) (hC : C.toMat.Alloc h)
    (hAt : A.transposed = false) (hEt : E.transposed = false) (hCt : C.transposed = false)
    (hsq : A.rows = A.cols) (hBA : B.cols = A.rows) (hBC : B.rows = C.rows)
    (hAC : A.cols = C.cols) (hEr : E.rows = C.rows) (hEc : E.cols = C.cols)
    (hu : C.toMat.Unique)
    (hApC : Apart (A.toMat.CellOn t.region) C.toMat.Cell)
    (hBpC : Apart B.toMat.Cell C.toMat.Cell) (hEC : E.toMat.Aligned C.toMat) :
    Surely (kkHemmRightUpdate A t B E C) h fun _ h' => ∃ r, C.toMat.Becomes h h' r ∧
      ∀ i j, i < C.rows → j < C.cols →
      CFP.Exact N (g₁ * g₂)
        ((e i j).On (g₁ * g₂) ∧ ∀ k, k < A.cols → (b i k).On g₁ ∧ (if k = j then ConjOps.conj (a k k) else hermOf t a k j).On g₂)
        (r i j)
        ((e i j).val + ∑ k ∈ range A.cols, (b i k).val * (if k = j then ConjOps.conj (a k k) else hermOf t a k j).val)
        (size (e i j).val + ∑ k ∈ range A.cols, size (b i k).val * size (if k = j then ConjOps.conj (a k k) else hermOf t a k j).val) := by
  refine (C65_hemm_right_update A t B E C h a b e hA hB hE hC hAt hEt hCt hsq hBA hBC hAC hEr hEc hu hApC hBpC hEC).mono
    fun _ h' hb => ⟨_, hb, fun i j hi hj => ?_⟩
  exact (ex_products H A.cols (b i) (fun k => if k = j then ConjOps.conj (a k k) else hermOf t a k j) _).toExact

example := C70_kokkos_complex_hemm_right_update (R := annexG binary64) binary64_integers kA .upper kB kE kC _ _ _ _
    (mholds bA)
    (mholds bB) (mholds bE) (malloc bC) rfl rfl rfl rfl rfl rfl rfl rfl rfl (by kview_facts)
    (by kview_facts) (by kview_facts) (by kview_facts)

/-- **C70** `triangular_matrix_left_product(exec, A, t, implicit_unit_diagonal, B, C)` -/
theorem C70_kokkos_complex_trmm_left {F : Format} {R : Recovery F} {N : ℕ} {g₁ g₂ : ℝ} (H : F.Grid N (g₁ * g₂))
    (A : KMat) (t : Triangle) (B C : KMat)
    (h : Heap (CFP F R)) (a b : Nat → Nat → CFP F R) (hA : A.toMat.HoldsOn h (triRegion t .implicitUnit) a)
    (hB : B.toMat.Holds h b) (hC : C.toMat.Alloc h) (hAt : A.transposed = false)
    (hBt : B.transposed = false) (hCt : C.transposed = false)
    (hsq : A.rows = A.cols) (hAB : A.cols = B.rows) (hAC : A.rows = C.rows)
    (hBC : B.cols = C.cols) (hu : C.toMat.Unique)
    (hApC : Apart (A.toMat.CellOn (triRegion t .implicitUnit)) C.toMat.Cell)
    (hBpC : Apart B.toMat.Cell C.toMat.Cell)
    (h1 : Multiple g₁ 1) :
    Surely (kkTrmmLeft A t B C) h fun _ h' => ∃ r, C.toMat.Becomes h h' r ∧
      ∀ i j, i < C.rows → j < C.cols →
      CFP.Exact N (g₁ * g₂)
        (∀ k, k < A.cols → t.region i k → (b k j).On g₂ ∧ (triRegion t .implicitUnit i k → (a i k).On g₁))
        (r i j)
        (∑ k ∈ range A.cols, triOf t .implicitUnit (fun i j => (a i j).val) i k * (b k j).val)
        (∑ k ∈ range A.cols, size (triOf t .implicitUnit (fun i j => (a i j).val) i k) * size (b k j).val) := by
  refine (C65_trmm_left A t B C h a b hA hB hC hAt hBt hCt hsq hAB hAC hBC hu hApC hBpC).mono
    fun _ h' hb => ⟨_, hb, fun i j hi hj => ?_⟩
  have hi' : i < A.cols := by omega
  rw [kkTriSeq_element t .implicitUnit hi' (fun k => a i k * b k j) (b i j)]
  exact (ex_triLeft H t .implicitUnit (fun _ => h1) a (fun k => b k j) 0 rfl hi').from_zero.toExact

example := C70_kokkos_complex_trmm_left (R := annexG binary64) binary64_integers kA .lower kB kC _ _ _ (mholds bA)
    (mholds bB) (malloc bC) rfl rfl rfl rfl rfl rfl rfl (by kview_facts) (by kview_facts)
    (by kview_facts) (H1 trivial)

/-- **C70** `triangular_matrix_left_product(exec, A, t, implicit_unit_diagonal, C)`, in place. -/
theorem C70_kokkos_complex_trmm_left_in_place {F : Format} {R : Recovery F} {N : ℕ} {g₁ g₂ : ℝ} (H : F.Grid N (g₁ * g₂))
    (A : KMat) (t : Triangle) (C : KMat)
    (h : Heap (CFP F R)) (a c : Nat → Nat → CFP F R) (hA : A.toMat.HoldsOn h (triRegion t .implicitUnit) a)
    (hC : C.toMat.Holds h c) (hAt : A.transposed = false) (hCt : C.transposed = false)
    (hsq : A.rows = A.cols) (hAC : A.rows = C.rows) (hu : C.toMat.Unique)
    (hApC : Apart (A.toMat.CellOn (triRegion t .implicitUnit)) C.toMat.Cell)
    (h1 : Multiple g₁ 1) :
    Surely (kkTrmmLeftInPlace A t C) h fun _ h' => ∃ r, C.toMat.Becomes h h' r ∧
      ∀ i j, i < C.rows → j < C.cols →
      CFP.Exact N (g₁ * g₂)
        (∀ k, k < A.cols → t.region i k → (c k j).On g₂ ∧ (triRegion t .implicitUnit i k → (a i k).On g₁))
        (r i j)
        (∑ k ∈ range A.cols, triOf t .implicitUnit (fun i j => (a i j).val) i k * (c k j).val)
        (∑ k ∈ range A.cols, size (triOf t .implicitUnit (fun i j => (a i j).val) i k) * size (c k j).val) := by
  refine (C65_trmm_left_in_place A t C h a c hA hC hAt hCt hsq hAC hu hApC).mono
    fun _ h' hb => ⟨_, hb, fun i j hi hj => ?_⟩
  have hi' : i < A.cols := by omega
  rw [kkTriSeq_element t .implicitUnit hi' (fun k => a i k * c k j) (c i j)]
  exact (ex_triLeft H t .implicitUnit (fun _ => h1) a (fun k => c k j) 0 rfl hi').from_zero.toExact

example := C70_kokkos_complex_trmm_left_in_place (R := annexG binary64) binary64_integers kA .upper kC _ _ _ (mholds bA)
    (mholds bC) rfl rfl rfl rfl (by kview_facts) (by kview_facts) (H1 trivial)

/-- **C70** `triangular_matrix_right_product(exec, A, t, implicit_unit_diagonal, B, C)` -/
theorem C70_kokkos_complex_trmm_right {F : Format} {R : Recovery F} {N : ℕ} {g₁ g₂ : ℝ} (H : F.Grid N (g₁ * g₂))
    (A : KMat) (t : Triangle) (B C : KMat)
    (h : Heap (CFP F R)) (a b : Nat → Nat → CFP F R) (hA : A.toMat.HoldsOn h (triRegion t .implicitUnit) a)
    (hB : B.toMat.Holds h b) (hC : C.toMat.Alloc h) (hAt : A.transposed = false)
    (hBt : B.transposed = false) (hCt : C.transposed = false)
    (hsq : A.rows = A.cols) (hBA : B.cols = A.rows) (hBC : B.rows = C.rows)
    (hAC : A.cols = C.cols) (hu : C.toMat.Unique)
    (hApC : Apart (A.toMat.CellOn (triRegion t .implicitUnit)) C.toMat.Cell)
    (hBpC : Apart B.toMat.Cell C.toMat.Cell)
    (h1 : Multiple g₂ 1) :
    Surely (kkTrmmRight A t B C) h fun _ h' => ∃ r, C.toMat.Becomes h h' r ∧
      ∀ i j, i < C.rows → j < C.cols →
      CFP.Exact N (g₁ * g₂)
        (∀ k, k < A.cols → t.region k j → (b i k).On g₁ ∧ (triRegion t .implicitUnit k j → (a k j).On g₂))
        (r i j)
        (∑ k ∈ range A.cols, (b i k).val * triOf t .implicitUnit (fun i j => (a i j).val) k j)
        (∑ k ∈ range A.cols, size (b i k).val * size (triOf t .implicitUnit (fun i j => (a i j).val) k j)) := by
  refine (C65_trmm_right A t B C h a b hA hB hC hAt hBt hCt hsq hBA hBC hAC hu hApC hBpC).mono
    fun _ h' hb => ⟨_, hb, fun i j hi hj => ?_⟩
  have hj' : j < A.cols := by omega
  rw [kkTriSeq_element t.other .implicitUnit hj' (fun k => b i k * a k j) (b i j)]
  have c := (ex_triRight H t .implicitUnit (fun _ => h1) a (b i) 0 rfl hj').from_zero
  cases t
  · exact c.toExact
  · exact c.toExact

example := C70_kokkos_complex_trmm_right (R := annexG binary64) binary64_integers kA .lower kB kC _ _ _ (mholds bA)
    (mholds bB) (malloc bC) rfl rfl rfl rfl rfl rfl rfl (by kview_facts) (by kview_facts)
    (by kview_facts) (H1 trivial)

/-- **C70** `triangular_matrix_right_product(exec, A, t, implicit_unit_diagonal, C)`, in
place. -/
theorem C70_kokkos_complex_trmm_right_in_place {F : Format} {R : Recovery F} {N : ℕ} {g₁ g₂ : ℝ} (H : F.Grid N (g₁ * g₂))
    (A : KMat) (t : Triangle) (C : KMat)
    (h : Heap (CFP F R)) (a c : Nat → Nat → CFP F R) (hA : A.toMat.HoldsOn h (triRegion t .implicitUnit) a)
    (hC : C.toMat.Holds h c) (hAt : A.transposed = false) (hCt : C.transposed = false)
    (hsq : A.rows = A.cols) (hAC : C.cols = A.rows) (hu : C.toMat.Unique)
    (hApC : Apart (A.toMat.CellOn (triRegion t .implicitUnit)) C.toMat.Cell)
    (h1 : Multiple g₂ 1) :
    Surely (kkTrmmRightInPlace A t C) h fun _ h' => ∃ r, C.toMat.Becomes h h' r ∧
      ∀ i j, i < C.rows → j < C.cols →
      CFP.Exact N (g₁ * g₂)
        (∀ k, k < A.cols → t.region k j → (c i k).On g₁ ∧ (triRegion t .implicitUnit k j → (a k j).On g₂))
        (r i j)
        (∑ k ∈ range A.cols, (c i k).val * triOf t .implicitUnit (fun i j => (a i j).val) k j)
        (∑ k ∈ range A.cols, size (c i k).val * size (triOf t .implicitUnit (fun i j => (a i j).val) k j)) := by
  refine (C65_trmm_right_in_place A t C h a c hA hC hAt hCt hsq hAC hu hApC).mono
    fun _ h' hb => ⟨_, hb, fun i j hi hj => ?_⟩
  have hj' : j < A.cols := by omega
  rw [kkTriSeq_element t.other .implicitUnit hj' (fun k => c i k * a k j) (c i j)]
  have c := (ex_triRight H t .implicitUnit (fun _ => h1) a (c i) 0 rfl hj').from_zero
  cases t
  · exact c.toExact
  · exact c.toExact

example := C70_kokkos_complex_trmm_right_in_place (R := annexG binary64) binary64_integers kA .upper kC _ _ _ (mholds bA)
    (mholds bC) rfl rfl rfl rfl (by kview_facts) (by kview_facts) (H1 trivial)

/-! ## Rank-1 and rank-2 updates -/

/-- **C70** `matrix_rank_1_update(exec, x, y, A)` -/
theorem C70_kokkos_complex_ger {F : Format} {R : Recovery F} {N : ℕ} {g₁ g₂ : ℝ} (H : F.Grid N (g₁ * g₂))
    (x y : KVec) (A : KMat) (h : Heap (CFP F R)) (f g : Nat → CFP F R)
    (a : Nat → Nat → CFP F R) (hx : x.mdspan.Holds h f) (hy : y.mdspan.Holds h g)
    (hA : A.toMat.Holds h a) (hxs : x.stride = 1) (hys : y.stride = 1)
    (hAt : A.transposed = false) (hxe : A.rows = x.ext) (hye : A.cols = y.ext)
    (hu : A.toMat.Unique) (hxA : Apart x.mdspan.Cell A.toMat.Cell)
    (hyA : Apart y.mdspan.Cell A.toMat.Cell) :
    Surely (kkGer x y A) h fun _ h' => ∃ r, A.toMat.Becomes h h' r ∧
      ∀ i j, i < A.rows → j < A.cols →
      CFP.Exact N (g₁ * g₂)
        ((a i j).On (g₁ * g₂) ∧ (f i).On g₁ ∧ (g j).On g₂)
        (r i j)
        ((a i j).val + (f i).val * (g j).val)
        (size (a i j).val + size (f i).val * size (g j).val) := by
  refine (C48_ger x y A h f g a hx hy hA hxs hys hAt hxe hye hu hxA hyA).mono
    fun _ h' hb => ⟨_, hb, fun i j hi hj => ?_⟩
  exact ((ex_input _).add H (ex_mul H _ _)).toExact

example := C70_kokkos_complex_ger (R := annexG binary64) binary64_integers kx ky kA _ _ _ _ (holds bkx) (holds bky) (mholds bA) rfl rfl rfl rfl rfl
    (by kview_facts) (by kview_facts) (by kview_facts)

/-- **C70** `matrix_rank_1_update_c(exec, x, y, A)` -/
theorem C70_kokkos_complex_gerc {F : Format} {R : Recovery F} {N : ℕ} {g₁ g₂ : ℝ} (H : F.Grid N (g₁ * g₂))
    (x y : KVec) (A : KMat) (h : Heap (CFP F R))
    (f g : Nat → CFP F R) (a : Nat → Nat → CFP F R) (hx : x.mdspan.Holds h f) (hy : y.mdspan.Holds h g)
    (hA : A.toMat.Holds h a) (hxs : x.stride = 1) (hys : y.stride = 1)
    (hAt : A.transposed = false) (hxe : A.rows = x.ext) (hye : A.cols = y.ext)
    (hu : A.toMat.Unique) (hxA : Apart x.mdspan.Cell A.toMat.Cell)
    (hyA : Apart y.mdspan.Cell A.toMat.Cell) :
    Surely (kkGerc x y A) h fun _ h' => ∃ r, A.toMat.Becomes h h' r ∧
      ∀ i j, i < A.rows → j < A.cols →
      CFP.Exact N (g₁ * g₂)
        ((a i j).On (g₁ * g₂) ∧ (f i).On g₁ ∧ (g j).On g₂)
        (r i j)
        ((a i j).val + (f i).val * conj (g j).val)
        (size (a i j).val + size (f i).val * size (g j).val) := by
  refine (C48_gerc x y A h f g a hx hy hA hxs hys hAt hxe hye hu hxA hyA).mono
    fun _ h' hb => ⟨_, hb, fun i j hi hj => ?_⟩
  exact ((ex_input _).add H (ex_mul_conj H (f i) (g j))).toExact

example := C70_kokkos_complex_gerc (R := annexG binary64) binary64_integers kx ky kA _ _ _ _ (holds bkx) (holds bky) (mholds bA) rfl rfl rfl rfl rfl
    (by kview_facts) (by kview_facts) (by kview_facts)

/-- **C70** `symmetric_matrix_rank_1_update(exec, x, A, t)` -/
theorem C70_kokkos_complex_syr {F : Format} {R : Recovery F} {N : ℕ} {g₁ g₂ : ℝ} (H : F.Grid N (g₁ * g₂))
    (x : KVec) (A : KMat) (t : Triangle) (h : Heap (CFP F R))
    (f : Nat → CFP F R) (a : Nat → Nat → CFP F R) (hx : x.mdspan.Holds h f)
    (hA : A.toMat.HoldsOn h t.region a) (hxs : x.stride = 1) (hAt : A.transposed = false)
    (hsq : A.rows = A.cols) (hxe : A.rows = x.ext) (hu : A.toMat.UniqueOn t.region)
    (hxA : Apart x.mdspan.Cell (A.toMat.CellOn t.region)) :
    Surely (kkSyr x A t) h fun _ h' => ∃ r, A.toMat.BecomesOn h h' t.region r ∧
      ∀ i j, i < A.rows → j < A.cols → t.region i j →
      CFP.Exact N (g₁ * g₂)
        ((a i j).On (g₁ * g₂) ∧ (f i).On g₁ ∧ (f j).On g₂)
        (r i j)
        ((a i j).val + (f i).val * (f j).val)
        (size (a i j).val + size (f i).val * size (f j).val) := by
  refine (C48_syr x A t h f a hx hA hxs hAt hsq hxe hu hxA).mono
    fun _ h' hb => ⟨_, hb, fun i j hi hj hr => ?_⟩
  exact ((ex_input _).add H (ex_mul H _ _)).toExact

example (t : Triangle) := C70_kokkos_complex_syr (R := annexG binary64) binary64_integers kx kA t _ _ _ (holds bkx) (mholds bA) rfl rfl rfl rfl
    (by kview_facts) (by kview_facts)

/-- **C70** `hermitian_matrix_rank_1_update(exec, x, A, t)`: what it computes under every
schedule.  The diagonal is not made real: `C50_her_keeps_imaginary_diagonal`. -/
theorem C70_kokkos_complex_her {F : Format} {R : Recovery F} {N : ℕ} {g₁ g₂ : ℝ} (H : F.Grid N (g₁ * g₂))
    (x : KVec) (A : KMat) (t : Triangle) (h : Heap (CFP F R))
    (f : Nat → CFP F R) (a : Nat → Nat → CFP F R) (hx : x.mdspan.Holds h f)
    (hA : A.toMat.HoldsOn h t.region a) (hxs : x.stride = 1) (hAt : A.transposed = false)
    (hsq : A.rows = A.cols) (hxe : A.rows = x.ext) (hu : A.toMat.UniqueOn t.region)
    (hxA : Apart x.mdspan.Cell (A.toMat.CellOn t.region)) :
    Surely (kkHer x A t) h fun _ h' => ∃ r, A.toMat.BecomesOn h h' t.region r ∧
      ∀ i j, i < A.rows → j < A.cols → t.region i j →
      CFP.Exact N (g₁ * g₂)
        ((a i j).On (g₁ * g₂) ∧ (f i).On g₁ ∧ (f j).On g₂)
        (r i j)
        ((a i j).val + (f i).val * conj (f j).val)
        (size (a i j).val + size (f i).val * size (f j).val) := by
  refine (C48_her x A t h f a hx hA hxs hAt hsq hxe hu hxA).mono
    fun _ h' hb => ⟨_, hb, fun i j hi hj hr => ?_⟩
  exact ((ex_input _).add H (ex_mul_conj H (f i) (f j))).toExact

example (t : Triangle) := C70_kokkos_complex_her (R := annexG binary64) binary64_integers kx kA t _ _ _ (holds bkx) (mholds bA) rfl rfl rfl rfl
    (by kview_facts) (by kview_facts)

/-- **C70** `symmetric_matrix_rank_2_update(exec, x, y, A, t)` -/
theorem C70_kokkos_complex_syr2 {F : Format} {R : Recovery F} {N : ℕ} {g₁ g₂ : ℝ} (H : F.Grid N (g₁ * g₂))
    (x y : KVec) (A : KMat) (t : Triangle) (h : Heap (CFP F R))
    (f g : Nat → CFP F R) (a : Nat → Nat → CFP F R) (hx : x.mdspan.Holds h f) (hy : y.mdspan.Holds h g)
    (hA : A.toMat.HoldsOn h t.region a) (hxs : x.stride = 1) (hys : y.stride = 1)
    (hAt : A.transposed = false)
    (hsq : A.rows = A.cols) (hxe : A.rows = x.ext) (hye : A.rows = y.ext)
    (hu : A.toMat.UniqueOn t.region)
    (hxA : Apart x.mdspan.Cell (A.toMat.CellOn t.region))
    (hyA : Apart y.mdspan.Cell (A.toMat.CellOn t.region)) :
    Surely (kkSyr2 x y A t) h fun _ h' => ∃ r, A.toMat.BecomesOn h h' t.region r ∧
      ∀ i j, i < A.rows → j < A.cols → t.region i j →
      CFP.Exact N (g₁ * g₂)
        ((a i j).On (g₁ * g₂) ∧ ((f i).On g₁ ∧ (g j).On g₂) ∧ (g i).On g₁ ∧ (f j).On g₂)
        (r i j)
        ((a i j).val + ((f i).val * (g j).val + (g i).val * (f j).val))
        (size (a i j).val + (size (f i).val * size (g j).val + size (g i).val * size (f j).val)) := by
  refine (C48_syr2 x y A t h f g a hx hy hA hxs hys hAt hsq hxe hye hu hxA hyA).mono
    fun _ h' hb => ⟨_, hb, fun i j hi hj hr => ?_⟩
  exact ((ex_input _).add H ((ex_mul H _ _).add H (ex_mul H _ _))).toExact

example (t : Triangle) := C70_kokkos_complex_syr2 (R := annexG binary64) binary64_integers kx ky kA t _ _ _ _ (holds bkx) (holds bky) (mholds bA) rfl rfl rfl rfl rfl rfl
    (by kview_facts) (by kview_facts) (by kview_facts)

/-- **C70** `hermitian_matrix_rank_2_update(exec, x, y, A, t)` -/
theorem C70_kokkos_complex_her2 {F : Format} {R : Recovery F} {N : ℕ} {g₁ g₂ : ℝ} (H : F.Grid N (g₁ * g₂))
    (x y : KVec) (A : KMat) (t : Triangle) (h : Heap (CFP F R))
    (f g : Nat → CFP F R) (a : Nat → Nat → CFP F R) (hx : x.mdspan.Holds h f) (hy : y.mdspan.Holds h g)
    (hA : A.toMat.HoldsOn h t.region a) (hxs : x.stride = 1) (hys : y.stride = 1)
    (hAt : A.transposed = false)
    (hsq : A.rows = A.cols) (hxe : A.rows = x.ext) (hye : A.rows = y.ext)
    (hu : A.toMat.UniqueOn t.region)
    (hxA : Apart x.mdspan.Cell (A.toMat.CellOn t.region))
    (hyA : Apart y.mdspan.Cell (A.toMat.CellOn t.region)) :
    Surely (kkHer2 x y A t) h fun _ h' => ∃ r, A.toMat.BecomesOn h h' t.region r ∧
      ∀ i j, i < A.rows → j < A.cols → t.region i j →
      CFP.Exact N (g₁ * g₂)
        ((a i j).On (g₁ * g₂) ∧ ((f i).On g₁ ∧ (g j).On g₂) ∧ (g i).On g₁ ∧ (f j).On g₂)
        (r i j)
        ((a i j).val + ((f i).val * conj (g j).val + (g i).val * conj (f j).val))
        (size (a i j).val + (size (f i).val * size (g j).val + size (g i).val * size (f j).val)) := by
  refine (C48_her2 x y A t h f g a hx hy hA hxs hys hAt hsq hxe hye hu hxA hyA).mono
    fun _ h' hb => ⟨_, hb, fun i j hi hj hr => ?_⟩
  exact ((ex_input _).add H ((ex_mul_conj H (f i) (g j)).add H (ex_mul_conj H (g i) (f j)))).toExact

example (t : Triangle) := C70_kokkos_complex_her2 (R := annexG binary64) binary64_integers kx ky kA t _ _ _ _ (holds bkx) (holds bky) (mholds bA) rfl rfl rfl rfl rfl rfl
    (by kview_facts) (by kview_facts) (by kview_facts)

/-! ## Rank-k and rank-2k updates -/

/-- **C70** `symmetric_matrix_rank_k_update(exec, alpha, A, C, t)` -/
theorem C70_kokkos_complex_syrk {F : Format} {R : Recovery F} {N : ℕ} {g₁ g₂ g₃ : ℝ} (H : F.Grid N (g₁ * g₂))
    (H3 : F.Grid N (g₁ * g₂ * g₃))
    (alpha : CFP F R) (A C : KMat) (t : Triangle) (h : Heap (CFP F R))
    (a c : Nat → Nat → CFP F R) (hA : A.toMat.Holds h a) (hC : C.toMat.HoldsOn h t.region c)
    (hAt : A.transposed = false) (hCt : C.transposed = false)
    (he : A.rows = C.rows) (hsq : C.rows = C.cols) (hu : C.toMat.UniqueOn t.region)
    (hAC : Apart A.toMat.Cell (C.toMat.CellOn t.region)) :
    Surely (kkSyrk alpha A C t) h fun _ h' => ∃ r, C.toMat.BecomesOn h h' t.region r ∧
      ∀ i j, i < C.rows → j < C.cols → t.region i j →
      CFP.Exact N (g₁ * g₂ * g₃)
        ((c i j).On (g₁ * g₂ * g₃) ∧ ∀ k, k < A.cols → (alpha.On g₁ ∧ (a i k).On g₂) ∧
          size alpha.val * size (a i k).val ≤ N * (g₁ * g₂) ∧ (a j k).On g₃)
        (r i j)
        ((c i j).val + ∑ k ∈ range A.cols, alpha.val * (a i k).val * (a j k).val)
        (size (c i j).val + ∑ k ∈ range A.cols, size alpha.val * size (a i k).val * size (a j k).val) := by
  refine (C65_syrk alpha A C t h a c hA hC hAt hCt he hsq hu hAC).mono
    fun _ h' hb => ⟨_, hb, fun i j hi hj hr => ?_⟩
  exact (Ex.leftSum H3 (ex_input _) fun k _ =>
    (ex_mul H alpha (a i k)).mul_input H3 (b := a j k)).toExact

example (t : Triangle) := C70_kokkos_complex_syrk (R := annexG binary64) binary64_integers binary64_integers₃ ((5 : ℤ) : Z) kT kA t _ _ _ (mholds bT) (mholds bA) rfl rfl rfl rfl
    (by kview_facts) (by kview_facts)

/-- **C70** `hermitian_matrix_rank_k_update(exec, alpha, A, C, t)` -/
theorem C70_kokkos_complex_herk {F : Format} {R : Recovery F} {N : ℕ} {g₁ g₂ g₃ : ℝ} (H : F.Grid N (g₁ * g₂))
    (H3 : F.Grid N (g₁ * g₂ * g₃))
    (alpha : CFP F R) (A C : KMat) (t : Triangle)
    (h : Heap (CFP F R))
    (a c : Nat → Nat → CFP F R) (hA : A.toMat.Holds h a) (hC : C.toMat.HoldsOn h t.region c)
    (hAt : A.transposed = false) (hCt : C.transposed = false)
    (he : A.rows = C.rows) (hsq : C.rows = C.cols) (hu : C.toMat.UniqueOn t.region)
    (hAC : Apart A.toMat.Cell (C.toMat.CellOn t.region)) :
    Surely (kkHerk alpha A C t) h fun _ h' => ∃ r, C.toMat.BecomesOn h h' t.region r ∧
      ∀ i j, i < C.rows → j < C.cols → t.region i j →
      CFP.Exact N (g₁ * g₂ * g₃)
        ((c i j).On (g₁ * g₂ * g₃) ∧ ∀ k, k < A.cols → (alpha.On g₁ ∧ (a i k).On g₂) ∧
          size alpha.val * size (a i k).val ≤ N * (g₁ * g₂) ∧ (a j k).On g₃)
        (r i j)
        ((c i j).val + ∑ k ∈ range A.cols, alpha.val * (a i k).val * conj (a j k).val)
        (size (c i j).val + ∑ k ∈ range A.cols, size alpha.val * size (a i k).val * size (a j k).val) := by
  refine (C65_herk alpha A C t h a c hA hC hAt hCt he hsq hu hAC).mono
    fun _ h' hb => ⟨_, hb, fun i j hi hj hr => ?_⟩
  exact (Ex.leftSum H3 (ex_input _) fun k _ =>
    (ex_mul H alpha (a i k)).mul_input_conj H3 (b := a j k)).toExact

example (t : Triangle) := C70_kokkos_complex_herk (R := annexG binary64) binary64_integers binary64_integers₃ ((5 : ℤ) : Z) kT kA t _ _ _ (mholds bT) (mholds bA) rfl rfl rfl rfl
    (by kview_facts) (by kview_facts)

/-- **C70** `symmetric_matrix_rank_2k_update(exec, A, B, C, t)` -/
theorem C70_kokkos_complex_syr2k {F : Format} {R : Recovery F} {N : ℕ} {g₁ g₂ : ℝ} (H : F.Grid N (g₁ * g₂))
    (A B C : KMat) (t : Triangle) (h : Heap (CFP F R))
    (a b c : Nat → Nat → CFP F R) (hA : A.toMat.Holds h a) (hB : B.toMat.Holds h b)
    (hC : C.toMat.HoldsOn h t.region c)
    (hAt : A.transposed = false) (hBt : B.transposed = false) (hCt : C.transposed = false)
    (he : A.rows = C.rows) (he' : B.rows = C.rows) (hsq : C.rows = C.cols)
    (hK : A.cols = B.cols) (hu : C.toMat.UniqueOn t.region)
    (hAC : Apart A.toMat.Cell (C.toMat.CellOn t.region))
    (hBC : Apart B.toMat.Cell (C.toMat.CellOn t.region)) :
    Surely (kkSyr2k A B C t) h fun _ h' => ∃ r, C.toMat.BecomesOn h h' t.region r ∧
      ∀ i j, i < C.rows → j < C.cols → t.region i j →
      CFP.Exact N (g₁ * g₂)
        ((c i j).On (g₁ * g₂) ∧ ∀ k, k < A.cols →
          ((a i k).On g₁ ∧ (b j k).On g₂) ∧ (b i k).On g₁ ∧ (a j k).On g₂)
        (r i j)
        ((c i j).val + ∑ k ∈ range A.cols,
          ((a i k).val * (b j k).val + (b i k).val * (a j k).val))
        (size (c i j).val + ∑ k ∈ range A.cols,
          (size (a i k).val * size (b j k).val + size (b i k).val * size (a j k).val)) := by
  refine (C65_syr2k A B C t h a b c hA hB hC hAt hBt hCt he he' hsq hK hu hAC hBC).mono
    fun _ h' hb => ⟨_, hb, fun i j hi hj hr => ?_⟩
  exact (Ex.leftSum H (ex_input _) fun k _ =>
    (ex_mul H (a i k) (b j k)).add H (ex_mul H (b i k) (a j k))).toExact

example (t : Triangle) := C70_kokkos_complex_syr2k (R := annexG binary64) binary64_integers kB kC kA t _ _ _ _ (mholds bB) (mholds bC) (mholds bA) rfl rfl rfl rfl rfl rfl rfl
    (by kview_facts) (by kview_facts) (by kview_facts)

/-- **C70** `hermitian_matrix_rank_2k_update(exec, A, B, C, t)` -/
theorem C70_kokkos_complex_her2k {F : Format} {R : Recovery F} {N : ℕ} {g₁ g₂ : ℝ} (H : F.Grid N (g₁ * g₂))
    (A B C : KMat) (t : Triangle)
    (h : Heap (CFP F R))
    (a b c : Nat → Nat → CFP F R) (hA : A.toMat.Holds h a) (hB : B.toMat.Holds h b)
    (hC : C.toMat.HoldsOn h t.region c)
    (hAt : A.transposed = false) (hBt : B.transposed = false) (hCt : C.transposed = false)
    (he : A.rows = C.rows) (he' : B.rows = C.rows) (hsq : C.rows = C.cols)
    (hK : A.cols = B.cols) (hu : C.toMat.UniqueOn t.region)
    (hAC : Apart A.toMat.Cell (C.toMat.CellOn t.region))
    (hBC : Apart B.toMat.Cell (C.toMat.CellOn t.region)) :
    Surely (kkHer2k A B C t) h fun _ h' => ∃ r, C.toMat.BecomesOn h h' t.region r ∧
      ∀ i j, i < C.rows → j < C.cols → t.region i j →
      CFP.Exact N (g₁ * g₂)
        ((c i j).On (g₁ * g₂) ∧ ∀ k, k < A.cols →
          ((a i k).On g₁ ∧ (b j k).On g₂) ∧ (b i k).On g₁ ∧ (a j k).On g₂)
        (r i j)
        ((c i j).val + ∑ k ∈ range A.cols,
          ((a i k).val * conj (b j k).val + (b i k).val * conj (a j k).val))
        (size (c i j).val + ∑ k ∈ range A.cols,
          (size (a i k).val * size (b j k).val + size (b i k).val * size (a j k).val)) := by
  refine (C65_her2k A B C t h a b c hA hB hC hAt hBt hCt he he' hsq hK hu hAC hBC).mono
    fun _ h' hb => ⟨_, hb, fun i j hi hj hr => ?_⟩
  exact (Ex.leftSum H (ex_input _) fun k _ =>
    (ex_mul_conj H (a i k) (b j k)).add H (ex_mul_conj H (b i k) (a j k))).toExact

example (t : Triangle) := C70_kokkos_complex_her2k (R := annexG binary64) binary64_integers kB kC kA t _ _ _ _ (mholds bB) (mholds bC) (mholds bA) rfl rfl rfl rfl rfl rfl rfl
    (by kview_facts) (by kview_facts) (by kview_facts)

/-! ## Reductions -/

/-- **C70** `dot(exec, x, y, init)`: the order in which the products are added does not matter -/
theorem C70_kokkos_complex_dot {F : Format} {R : Recovery F} {N : ℕ} {g₁ g₂ : ℝ} (H : F.Grid N (g₁ * g₂)) (x y : KVec)
    (init : CFP F R) (h : Heap (CFP F R)) (f g : Nat → CFP F R) (hx : x.mdspan.Holds h f)
    (hy : y.mdspan.Holds h g) (cx : x.stride = 1) (cy : y.stride = 1) (hext : x.ext = y.ext) :
    Surely (kkDot x y init) h fun r h' => h' = h ∧
      CFP.Exact N (g₁ * g₂)
        (init.On (g₁ * g₂) ∧ ∀ k, k < x.ext → (f k).On g₁ ∧ (g k).On g₂)
        r
        (init.val + ∑ k ∈ range x.ext, (f k).val * (g k).val)
        (size init.val + ∑ k ∈ range x.ext, size (f k).val * size (g k).val) := by
  unfold kkDot
  rw [KVec.view_eq cx, KVec.view_eq cy]
  refine surely_require_bind hext (surely_bind (Ex.surely H (fun k => f k * g k) ?_
    (fun k _ => ex_mul H (f k) (g k)) fun r c => surely_pure.2 ⟨rfl, ?_⟩))
  · intro i hi s
    have hi' : i < y.mdspan.ext := by change i < y.ext; rw [← hext]; exact hi
    rw [Rd.bind_ok (hx.look hi), Rd.bind_ok (hy.look hi')]; rfl
  · exact ((c.add H (ex_input init)).congr And.symm (add_comm _ _) (add_comm _ _)).toExact

example := C70_kokkos_complex_dot (R := annexG binary64) binary64_integers kx ky ((5 : ℤ) : Z) _ _ _ (holds bkx) (holds bky) rfl rfl rfl

/-- **C70** On such data the two backends return the same number from `dot`, under every schedule.
(In general they do not: `C65_dot_false`.) -/
theorem C70_complex_dot_backends_agree {F : Format} {R : Recovery F} {N : ℕ} {g₁ g₂ : ℝ} (H : F.Grid N (g₁ * g₂)) (x y : KVec)
    (init : CFP F R) (h : Heap (CFP F R)) (f g : Nat → CFP F R) (hx : x.mdspan.Holds h f)
    (hy : y.mdspan.Holds h g) (cx : x.stride = 1) (cy : y.stride = 1) (hext : x.ext = y.ext)
    (hin : init.On (g₁ * g₂) ∧ ∀ k, k < x.ext → (f k).On g₁ ∧ (g k).On g₂)
    (hfit : size init.val + ∑ k ∈ range x.ext, size (f k).val * size (g k).val ≤ N * (g₁ * g₂)) :
    Surely (kkDot x y init) h fun r _ =>
      Ends (dot (x.mdspan.view : VecV (CFP F R)) y.mdspan.view init) h fun r' _ => r = r' := by
  refine (C70_kokkos_complex_dot H x y init h f g hx hy cx cy hext).mono fun r _ hr => ?_
  refine (C70_complex_dot H (x.mdspan.view : VecV (CFP F R)) y.mdspan.view init h f g
    (fun i hi => ⟨_, hx i hi, rfl⟩) (fun i hi => ⟨_, hy i hi, rfl⟩) hext.le).mono fun r' _ hr' => ?_
  exact (hr.2 hin hfit).trans (hr'.2 hin hfit).symm

example : Surely (kkDot kx ky ((5 : ℤ) : Z)) (heap Z) fun r _ =>
    Ends (dot (kx.mdspan.view : VecV Z) ky.mdspan.view ((5 : ℤ) : Z)) (heap Z) fun r' _ => r = r' := by
  have e : ∀ k : ℤ, |k| ≤ 7 → (k : Z).On 1 ∧ size (k : Z).val ≤ 22 := fun k hk => by
    refine ⟨⟨int_on k (hk.trans (by norm_num)), int_on (1 - 2 * k) ?_⟩, ?_⟩
    · rw [abs_le] at *; constructor <;> omega
    · rw [(zint_exact k (hk.trans (by norm_num))).2]
      have h1 : |(k : ℝ)| ≤ 7 := by exact_mod_cast hk
      change |(k : ℝ)| + |1 - 2 * (k : ℝ)| ≤ 22
      have h2 := abs_sub (1 : ℝ) (2 * k)
      rw [abs_one, abs_mul, abs_two] at h2
      linarith
  have hx : ∀ k, k < 3 → _ := fun k hk => e (((0 + 1 * k : ℕ) : ℤ) - 7)
    (by rw [abs_le]; constructor <;> push_cast <;> omega)
  have hy : ∀ k, k < 3 → _ := fun k hk => e (((10 + 1 * k : ℕ) : ℤ) - 7)
    (by rw [abs_le]; constructor <;> push_cast <;> omega)
  have h5 := e 5 (by norm_num)
  refine C70_complex_dot_backends_agree binary64_integers kx ky _ _ _ _ (holds bkx) (holds bky) rfl rfl rfl
    ⟨by rw [mul_one]; exact h5.1, fun k hk => ⟨(hx k hk).1, (hy k hk).1⟩⟩ ?_
  refine (add_le_add h5.2 (sum_le_sum (g := fun _ => 22 * 22) fun k hk => mul_le_mul
    (hx k (mem_range.1 hk)).2 (hy k (mem_range.1 hk)).2 (size_nonneg _) (by norm_num))).trans ?_
  rw [sum_const, card_range, nsmul_eq_mul]
  norm_num [kx]

end StdBLAS

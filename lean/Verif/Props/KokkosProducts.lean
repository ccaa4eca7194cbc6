import Verif.Lemmas.KokkosProducts
import Verif.Props.KokkosWitness

/-!
# Property C48: the parallel loops of the Kokkos backend, products

As in `KokkosUpdates`: `Surely p h Q` speaks of every interleaving of the iterations, and the
conclusions fix all of memory.

These theorems say what the backend computes.  Where that differs from the sequential
implementation (the updating `matrix_vector_product`, the diagonal of Hermitian matrices) the
difference is visible in the conclusion; see also `C50`.
-/

namespace StdBLAS
open Finset Witness
variable {α : Type}

/-! ## Matrix-vector products -/

/-- **C48** `symmetric_matrix_vector_product(exec, A, t, x, y)` -/
theorem C48_symv [NonUnitalNonAssocSemiring α] (A : KMat) (t : Triangle) (x y : KVec)
    (h : Heap α) (a : Nat → Nat → α) (f : Nat → α) (hA : A.toMat.HoldsOn h t.region a)
    (hx : x.mdspan.Holds h f) (hy : y.mdspan.Alloc h) (hAt : A.transposed = false)
    (hxs : x.stride = 1) (hys : y.stride = 1) (hsq : A.rows = A.cols) (hxe : A.cols = x.ext)
    (hye : A.rows = y.ext) (hAy : Apart (A.toMat.CellOn t.region) y.mdspan.Cell)
    (hxy : Apart x.mdspan.Cell y.mdspan.Cell) :
    Surely (kkSymv A t x y) h fun _ h' =>
      y.mdspan.Becomes h h' fun i => mulVec A.cols (symOf t a) f i := by
  unfold kkSymv kkCheckSquare
  rw [KVec.view_eq hxs, KVec.view_eq hys, KMat.view_eq hAt]
  have huy : y.mdspan.Unique := by
    intro i k hi hk e; simp only [KVec.mdspan, hys] at e; omega
  refine surely_bind (surely_require_bind hsq (surely_require_bind hxe (surely_require hye ?_)))
  refine parFor_vec _ hye huy fun i hi => ?_
  refine Task.safe_bind.2 ((kkSymRow_safe id hA hx hsq hxe hAy hxy hi).post ?_)
  rintro s g ⟨rfl, rfl⟩
  have hi' : i < y.ext := by omega
  obtain ⟨v, hv⟩ := hy i hi'
  rw [Vec.safe_wr_own hi' hv, mirror_id]
  simp

example : Surely (kkSymv kA .lower kx ky) (heap ℤ) fun _ h' =>
    ky.mdspan.Becomes (heap ℤ) h' fun i =>
      mulVec 3 (symOf .lower (mvals ℤ A)) (vals ℤ kx.mdspan) i :=
  C48_symv kA .lower kx ky _ _ _ (mholds bA) (holds bkx)
    (alloc bky) rfl rfl rfl rfl rfl rfl (by kview_facts) (by kview_facts)

/-- **C48** `symmetric_matrix_vector_product(exec, A, t, x, y, z)`; `z` may be `y`. -/
theorem C48_symv_update [NonUnitalNonAssocSemiring α] (A : KMat) (t : Triangle) (x y z : KVec)
    (h : Heap α) (a : Nat → Nat → α) (f g : Nat → α) (hA : A.toMat.HoldsOn h t.region a)
    (hx : x.mdspan.Holds h f) (hy : y.mdspan.Holds h g) (hz : z.mdspan.Alloc h)
    (hAt : A.transposed = false) (hxs : x.stride = 1) (hys : y.stride = 1) (hzs : z.stride = 1)
    (hsq : A.rows = A.cols) (hxe : A.cols = x.ext) (hye : A.rows = y.ext) (hze : A.rows = z.ext)
    (hAz : Apart (A.toMat.CellOn t.region) z.mdspan.Cell)
    (hxz : Apart x.mdspan.Cell z.mdspan.Cell) (hyz : y.mdspan.Aligned z.mdspan) :
    Surely (kkSymvUpdate A t x y z) h fun _ h' =>
      z.mdspan.Becomes h h' fun i => g i + mulVec A.cols (symOf t a) f i := by
  unfold kkSymvUpdate kkCheckSquare
  rw [KVec.view_eq hxs, KVec.view_eq hys, KVec.view_eq hzs, KMat.view_eq hAt]
  have huz : z.mdspan.Unique := by
    intro i k hi hk e; simp only [KVec.mdspan, hzs] at e; omega
  refine surely_bind (surely_require_bind hsq (surely_require_bind hxe (surely_require hye ?_)))
  refine surely_require_bind hze (parFor_vec _ hze huz fun i hi => ?_)
  refine Task.safe_bind.2 ((kkSymRow_safe id hA hx hsq hxe hAz hxz hi).post ?_)
  rintro s g' ⟨rfl, rfl⟩
  have hi' : i < z.ext := by omega
  have hi'' : i < y.ext := by omega
  obtain ⟨v, hv⟩ := hz i hi'
  rw [Task.safe_bind, hy.safe_rd_aligned hyz hi'', Vec.safe_wr_own hi' hv, mirror_id]
  simp

/-- with `z = y` -/
example : Surely (kkSymvUpdate kA .upper kx ky ky) (heap ℤ) fun _ h' =>
    ky.mdspan.Becomes (heap ℤ) h' fun i => vals ℤ ky.mdspan i +
      mulVec 3 (symOf .upper (mvals ℤ A)) (vals ℤ kx.mdspan) i :=
  C48_symv_update kA .upper kx ky ky _ _ _ _ (mholds bA)
    (holds bkx) (holds bky) (alloc bky) rfl rfl rfl rfl rfl rfl rfl rfl (by kview_facts)
    (by kview_facts) (by kview_facts)

/-- **C48** `hermitian_matrix_vector_product(exec, A, t, x, y)`: the diagonal is used as it is
stored, with its imaginary part (`C50_hemv_imaginary_diagonal_false`). -/
theorem C48_hemv [NonUnitalNonAssocSemiring α] [ConjOps α] (A : KMat) (t : Triangle)
    (x y : KVec) (h : Heap α) (a : Nat → Nat → α) (f : Nat → α)
    (hA : A.toMat.HoldsOn h t.region a)
    (hx : x.mdspan.Holds h f) (hy : y.mdspan.Alloc h) (hAt : A.transposed = false)
    (hxs : x.stride = 1) (hys : y.stride = 1) (hsq : A.rows = A.cols) (hxe : A.cols = x.ext)
    (hye : A.rows = y.ext) (hAy : Apart (A.toMat.CellOn t.region) y.mdspan.Cell)
    (hxy : Apart x.mdspan.Cell y.mdspan.Cell) :
    Surely (kkHemv A t x y) h fun _ h' =>
      y.mdspan.Becomes h h' fun i =>
        mulVec A.cols (fun i j => if i = j then a i i else hermOf t a i j) f i := by
  unfold kkHemv kkCheckSquare
  rw [KVec.view_eq hxs, KVec.view_eq hys, KMat.view_eq hAt]
  have huy : y.mdspan.Unique := by
    intro i k hi hk e; simp only [KVec.mdspan, hys] at e; omega
  refine surely_bind (surely_require_bind hsq (surely_require_bind hxe (surely_require hye ?_)))
  refine parFor_vec _ hye huy fun i hi => ?_
  refine Task.safe_bind.2 ((kkSymRow_safe ConjOps.conj hA hx hsq hxe hAy hxy hi).post ?_)
  rintro s g ⟨rfl, rfl⟩
  have hi' : i < y.ext := by omega
  obtain ⟨v, hv⟩ := hy i hi'
  rw [Vec.safe_wr_own hi' hv, Function.update_self]
  simp only [mulVec, mirror_conj]

example : Surely (kkHemv kA .lower kx ky) (heap ℂ) fun _ h' =>
    ky.mdspan.Becomes (heap ℂ) h' fun i =>
      mulVec 3 (fun i j => if i = j then mvals ℂ A i i else hermOf .lower (mvals ℂ A) i j)
        (vals ℂ kx.mdspan) i :=
  C48_hemv kA .lower kx ky _ _ _ (mholds bA) (holds bkx)
    (alloc bky) rfl rfl rfl rfl rfl rfl (by kview_facts) (by kview_facts)

/-- **C48** `hermitian_matrix_vector_product(exec, A, t, x, y, z)`; `z` may be `y`. -/
theorem C48_hemv_update [NonUnitalNonAssocSemiring α] [ConjOps α] (A : KMat) (t : Triangle)
    (x y z : KVec)
    (h : Heap α) (a : Nat → Nat → α) (f g : Nat → α) (hA : A.toMat.HoldsOn h t.region a)
    (hx : x.mdspan.Holds h f) (hy : y.mdspan.Holds h g) (hz : z.mdspan.Alloc h)
    (hAt : A.transposed = false) (hxs : x.stride = 1) (hys : y.stride = 1) (hzs : z.stride = 1)
    (hsq : A.rows = A.cols) (hxe : A.cols = x.ext) (hye : A.rows = y.ext) (hze : A.rows = z.ext)
    (hAz : Apart (A.toMat.CellOn t.region) z.mdspan.Cell)
    (hxz : Apart x.mdspan.Cell z.mdspan.Cell) (hyz : y.mdspan.Aligned z.mdspan) :
    Surely (kkHemvUpdate A t x y z) h fun _ h' =>
      z.mdspan.Becomes h h' fun i =>
        g i + mulVec A.cols (fun i j => if i = j then a i i else hermOf t a i j) f i := by
  unfold kkHemvUpdate kkCheckSquare
  rw [KVec.view_eq hxs, KVec.view_eq hys, KVec.view_eq hzs, KMat.view_eq hAt]
  have huz : z.mdspan.Unique := by
    intro i k hi hk e; simp only [KVec.mdspan, hzs] at e; omega
  refine surely_bind (surely_require_bind hsq (surely_require_bind hxe (surely_require hye ?_)))
  refine surely_require_bind hze (parFor_vec _ hze huz fun i hi => ?_)
  refine Task.safe_bind.2 ((kkSymRow_safe ConjOps.conj hA hx hsq hxe hAz hxz hi).post ?_)
  rintro s g' ⟨rfl, rfl⟩
  have hi' : i < z.ext := by omega
  have hi'' : i < y.ext := by omega
  obtain ⟨v, hv⟩ := hz i hi'
  rw [Task.safe_bind, hy.safe_rd_aligned hyz hi'', Vec.safe_wr_own hi' hv, Function.update_self]
  simp only [mulVec, mirror_conj]

/-- with `z = y` -/
example : Surely (kkHemvUpdate kA .upper kx ky ky) (heap ℂ) fun _ h' =>
    ky.mdspan.Becomes (heap ℂ) h' fun i => vals ℂ ky.mdspan i +
      mulVec 3 (fun i j => if i = j then mvals ℂ A i i else hermOf .upper (mvals ℂ A) i j)
        (vals ℂ kx.mdspan) i :=
  C48_hemv_update kA .upper kx ky ky _ _ _ _ (mholds bA)
    (holds bkx) (holds bky) (alloc bky) rfl rfl rfl rfl rfl rfl rfl rfl (by kview_facts)
    (by kview_facts) (by kview_facts)

/-- **C48** `triangular_matrix_vector_product(exec, A, t, d, x, y)` -/
theorem C48_trmv [NonAssocSemiring α] (A : KMat) (t : Triangle) (d : Diag) (x y : KVec)
    (h : Heap α) (a : Nat → Nat → α) (f : Nat → α) (hA : A.toMat.HoldsOn h (triRegion t d) a)
    (hx : x.mdspan.Holds h f) (hy : y.mdspan.Alloc h) (hAt : A.transposed = false)
    (hxs : x.stride = 1) (hys : y.stride = 1) (hsq : A.rows = A.cols) (hxe : A.cols = x.ext)
    (hye : A.rows = y.ext) (hAy : Apart (A.toMat.CellOn (triRegion t d)) y.mdspan.Cell)
    (hxy : Apart x.mdspan.Cell y.mdspan.Cell) :
    Surely (kkTrmv A t d x y) h fun _ h' =>
      y.mdspan.Becomes h h' fun i => mulVec A.cols (triOf t d a) f i := by
  unfold kkTrmv kkCheckSquare
  rw [KVec.view_eq hxs, KVec.view_eq hys, KMat.view_eq hAt]
  have huy : y.mdspan.Unique := by
    intro i k hi hk e; simp only [KVec.mdspan, hys] at e; omega
  refine surely_bind (surely_require_bind hsq (surely_require_bind hxe (surely_require hye ?_)))
  refine parFor_vec _ hye huy fun i hi => ?_
  refine Task.safe_bind.2 ((kkTriRow_safe hA hx hsq hxe hAy hxy hi).post ?_)
  rintro s g ⟨rfl, rfl⟩
  have hi' : i < y.ext := by omega
  obtain ⟨v, hv⟩ := hy i hi'
  rw [Vec.safe_wr_own hi' hv]
  simp

example (t : Triangle) (d : Diag) : Surely (kkTrmv kA t d kx ky) (heap ℤ) fun _ h' =>
    ky.mdspan.Becomes (heap ℤ) h' fun i =>
      mulVec 3 (triOf t d (mvals ℤ A)) (vals ℤ kx.mdspan) i :=
  C48_trmv kA t d kx ky _ _ _ (mholds bA) (holds bkx)
    (alloc bky) rfl rfl rfl rfl rfl rfl (by kview_facts) (by kview_facts)

/-- **C48** `triangular_matrix_vector_product(exec, A, t, d, x, y, z)`; `z` may be `y`. -/
theorem C48_trmv_update [NonAssocSemiring α] (A : KMat) (t : Triangle) (d : Diag)
    (x y z : KVec)
    (h : Heap α) (a : Nat → Nat → α) (f g : Nat → α)
    (hA : A.toMat.HoldsOn h (triRegion t d) a)
    (hx : x.mdspan.Holds h f) (hy : y.mdspan.Holds h g) (hz : z.mdspan.Alloc h)
    (hAt : A.transposed = false) (hxs : x.stride = 1) (hys : y.stride = 1) (hzs : z.stride = 1)
    (hsq : A.rows = A.cols) (hxe : A.cols = x.ext) (hye : A.rows = y.ext) (hze : A.rows = z.ext)
    (hAz : Apart (A.toMat.CellOn (triRegion t d)) z.mdspan.Cell)
    (hxz : Apart x.mdspan.Cell z.mdspan.Cell) (hyz : y.mdspan.Aligned z.mdspan) :
    Surely (kkTrmvUpdate A t d x y z) h fun _ h' =>
      z.mdspan.Becomes h h' fun i => g i + mulVec A.cols (triOf t d a) f i := by
  unfold kkTrmvUpdate kkCheckSquare
  rw [KVec.view_eq hxs, KVec.view_eq hys, KVec.view_eq hzs, KMat.view_eq hAt]
  have huz : z.mdspan.Unique := by
    intro i k hi hk e; simp only [KVec.mdspan, hzs] at e; omega
  refine surely_bind (surely_require_bind hsq (surely_require_bind hxe (surely_require hye ?_)))
  refine surely_require_bind hze (parFor_vec _ hze huz fun i hi => ?_)
  refine Task.safe_bind.2 ((kkTriRow_safe hA hx hsq hxe hAz hxz hi).post ?_)
  rintro s g' ⟨rfl, rfl⟩
  have hi' : i < z.ext := by omega
  have hi'' : i < y.ext := by omega
  obtain ⟨v, hv⟩ := hz i hi'
  rw [Task.safe_bind, hy.safe_rd_aligned hyz hi'', Vec.safe_wr_own hi' hv]
  simp

/-- with `z = y` -/
example (t : Triangle) (d : Diag) : Surely (kkTrmvUpdate kA t d kx ky ky) (heap ℤ) fun _ h' =>
    ky.mdspan.Becomes (heap ℤ) h' fun i => vals ℤ ky.mdspan i +
      mulVec 3 (triOf t d (mvals ℤ A)) (vals ℤ kx.mdspan) i :=
  C48_trmv_update kA t d kx ky ky _ _ _ _ (mholds bA)
    (holds bkx) (holds bky) (alloc bky) rfl rfl rfl rfl rfl rfl rfl rfl (by kview_facts)
    (by kview_facts) (by kview_facts)

/-- **C48** updating `matrix_vector_product(exec, A, x, y, z)`: under every schedule it
computes, in every row, the sum over the columns `j` of `y(i) + A(i,j) x(j)`, which is not
`y + A x` (`C50_gemv_update_false`). -/
theorem C48_gemv_update [NonUnitalNonAssocSemiring α] (A : KMat) (x y z : KVec)
    (h : Heap α) (a : Nat → Nat → α) (f g : Nat → α) (hA : A.toMat.Holds h a)
    (hx : x.mdspan.Holds h f) (hy : y.mdspan.Holds h g) (hz : z.mdspan.Alloc h)
    (hAt : A.transposed = false) (hxs : x.stride = 1) (hys : y.stride = 1) (hzs : z.stride = 1)
    (hxe : A.cols = x.ext) (hye : A.rows = y.ext) (hze : A.rows = z.ext)
    (hAz : Apart A.toMat.Cell z.mdspan.Cell)
    (hxz : Apart x.mdspan.Cell z.mdspan.Cell) (hyz : y.mdspan.Aligned z.mdspan) :
    Surely (kkGemvUpdate A x y z) h fun _ h' =>
      z.mdspan.Becomes h h' fun i => ∑ j ∈ range A.cols, (g i + a i j * f j) := by
  unfold kkGemvUpdate
  rw [KVec.view_eq hxs, KVec.view_eq hys, KVec.view_eq hzs, KMat.view_eq hAt]
  have huz : z.mdspan.Unique := by
    intro i k hi hk e; simp only [KVec.mdspan, hzs] at e; omega
  refine surely_require_bind hxe (surely_require_bind hye (surely_require_bind hze
    (parFor_vec _ rfl huz fun i hi => ?_)))
  have hiz : i < z.ext := hi
  have hiy : i < y.ext := by omega
  have hiA : i < A.rows := by omega
  refine Task.safe_bind.2 ((Task.safe_foldUp (fun s j => s + (g i + a i j * f j)) ?_).post ?_)
  · intro j _ hj s
    have hjx : j < x.ext := by omega
    rw [Task.safe_bind, hy.safe_rd_aligned hyz hiy, Task.safe_bind,
      hA.safe_rd hAz (fun _ _ => rfl) hiA hj trivial, Task.safe_bind,
      hx.safe_rd hxz (fun _ _ => rfl) hjx, Task.safe_pure]
    exact ⟨rfl, rfl⟩
  · rintro s g' ⟨rfl, rfl⟩
    obtain ⟨v, hv⟩ := hz i hiz
    rw [Vec.safe_wr_own hiz hv, foldl_range'_sum, zero_add, Nat.zero_add, Nat.sub_zero,
      ← range_eq_Ico]
    simp

example : Surely (kkGemvUpdate kA kx ky kz) (heap ℤ) fun _ h' =>
    kz.mdspan.Becomes (heap ℤ) h' fun i => ∑ j ∈ range 3,
      (vals ℤ ky.mdspan i + mvals ℤ A i j * vals ℤ kx.mdspan j) :=
  C48_gemv_update kA kx ky kz _ _ _ _ (mholds bA) (holds bkx) (holds bky) (alloc bkz)
    rfl rfl rfl rfl rfl rfl rfl (by kview_facts) (by kview_facts) (by kview_facts)

/-! ## Matrix-matrix products -/

/-- **C48** `symmetric_matrix_left_product(exec, A, t, B, C)` -/
theorem C48_symm_left [NonUnitalNonAssocSemiring α] (A : KMat) (t : Triangle) (B C : KMat)
    (h : Heap α) (a b : Nat → Nat → α) (hA : A.toMat.HoldsOn h t.region a)
    (hB : B.toMat.Holds h b) (hC : C.toMat.Alloc h) (hAt : A.transposed = false)
    (hBt : B.transposed = false) (hCt : C.transposed = false)
    (hsq : A.rows = A.cols) (hAB : A.cols = B.rows) (hAC : A.rows = C.rows)
    (hBC : B.cols = C.cols) (hu : C.toMat.Unique)
    (hApC : Apart (A.toMat.CellOn t.region) C.toMat.Cell)
    (hBpC : Apart B.toMat.Cell C.toMat.Cell) :
    Surely (kkSymmLeft A t B C) h fun _ h' =>
      C.toMat.Becomes h h' fun i j => mulMat A.cols (symOf t a) b i j := by
  unfold kkSymmLeft kkCheckLeft
  refine surely_bind (surely_require_bind hsq (surely_require_bind hAB (surely_require_bind hAC
    (surely_require hBC ?_))))
  refine (kkProduct_surely (fun _ _ => 0) (fun i j k => flipped id t a i k * b k j) hAt hCt hC hu
    (fun i j _ _ => Task.safe_pure.2 ⟨rfl, rfl⟩) fun i j k hi hj hk g hg =>
      kkLeftTerm_safe id hA hB hAt hBt hApC hBpC hsq hAB (by omega) (by omega) hk hg).mono ?_
  intro _ h' hb
  refine hb.congr fun i j _ _ _ => ?_
  simp only [flipped_id, zero_add]
  rfl

example : Surely (kkSymmLeft kA .lower kB kC) (heap ℤ) fun _ h' =>
    C.Becomes (heap ℤ) h' fun i j =>
      mulMat 3 (symOf .lower (mvals ℤ A)) (mvals ℤ B) i j :=
  C48_symm_left kA .lower kB kC _ _ _ (mholds bA)
    (mholds bB) (malloc bC) rfl rfl rfl rfl rfl rfl rfl (by kview_facts) (by kview_facts)
    (by kview_facts)

/-- **C48** `symmetric_matrix_left_product(exec, A, t, B, E, C)`; `C` may be `E`. -/
theorem C48_symm_left_update [NonUnitalNonAssocSemiring α] (A : KMat) (t : Triangle)
    (B E C : KMat) (h : Heap α) (a b e : Nat → Nat → α) (hA : A.toMat.HoldsOn h t.region a)
    (hB : B.toMat.Holds h b) (hE : E.toMat.Holds h e) (hC : C.toMat.Alloc h)
    (hAt : A.transposed = false) (hBt : B.transposed = false) (hEt : E.transposed = false)
    (hCt : C.transposed = false)
    (hsq : A.rows = A.cols) (hAB : A.cols = B.rows) (hAC : A.rows = C.rows)
    (hBC : B.cols = C.cols) (hEr : E.rows = C.rows) (hEc : E.cols = C.cols)
    (hu : C.toMat.Unique)
    (hApC : Apart (A.toMat.CellOn t.region) C.toMat.Cell)
    (hBpC : Apart B.toMat.Cell C.toMat.Cell) (hEC : E.toMat.Aligned C.toMat) :
    Surely (kkSymmLeftUpdate A t B E C) h fun _ h' =>
      C.toMat.Becomes h h' fun i j => e i j + mulMat A.cols (symOf t a) b i j := by
  unfold kkSymmLeftUpdate kkCheckLeft kkCheckE
  refine surely_bind (surely_require_bind hsq (surely_require_bind hAB (surely_require_bind hAC
    (surely_require hBC (surely_bind (surely_require_bind hEr (surely_require hEc ?_)))))))
  rw [KMat.view_eq hEt]
  refine (kkProduct_surely e (fun i j k => flipped id t a i k * b k j) hAt hCt hC hu
    (fun i j hi hj => (hE.safe_rd_aligned hEC (by omega) (by omega)).2 ⟨rfl, rfl⟩)
    fun i j k hi hj hk g hg =>
      kkLeftTerm_safe id hA hB hAt hBt hApC hBpC hsq hAB (by omega) (by omega) hk hg).mono ?_
  intro _ h' hb
  refine hb.congr fun i j _ _ _ => ?_
  simp only [flipped_id]
  rfl

/-- with `C = E` -/
example : Surely (kkSymmLeftUpdate kA .lower kB kC kC) (heap ℤ) fun _ h' =>
    C.Becomes (heap ℤ) h' fun i j =>
      mvals ℤ C i j + mulMat 3 (symOf .lower (mvals ℤ A)) (mvals ℤ B) i j :=
  C48_symm_left_update kA .lower kB kC kC _ _ _ _
    (mholds bA)
    (mholds bB) (mholds bC) (malloc bC) rfl rfl rfl rfl rfl rfl rfl rfl rfl rfl (by kview_facts)
    (by kview_facts) (by kview_facts) (by kview_facts)

/-- **C48** `symmetric_matrix_right_product(exec, A, t, B, C)`.  `B` may have any layout. -/
theorem C48_symm_right [NonUnitalNonAssocSemiring α] (A : KMat) (t : Triangle) (B C : KMat)
    (h : Heap α) (a b : Nat → Nat → α) (hA : A.toMat.HoldsOn h t.region a)
    (hB : B.toMat.Holds h b) (hC : C.toMat.Alloc h) (hAt : A.transposed = false)
    (hCt : C.transposed = false)
    (hsq : A.rows = A.cols) (hBA : B.cols = A.rows) (hBC : B.rows = C.rows)
    (hAC : A.cols = C.cols) (hu : C.toMat.Unique)
    (hApC : Apart (A.toMat.CellOn t.region) C.toMat.Cell)
    (hBpC : Apart B.toMat.Cell C.toMat.Cell) :
    Surely (kkSymmRight A t B C) h fun _ h' =>
      C.toMat.Becomes h h' fun i j => mulMat A.cols b (symOf t a) i j := by
  unfold kkSymmRight kkCheckRight
  refine surely_bind (surely_require_bind hsq (surely_require_bind hBA (surely_require_bind hBC
    (surely_require hAC ?_))))
  refine (kkProduct_surely (fun _ _ => 0) (fun i j k => b i k * flipped id t a k j) hAt hCt hC hu
    (fun i j _ _ => Task.safe_pure.2 ⟨rfl, rfl⟩) fun i j k hi hj hk g hg =>
      kkRightTerm_safe id hA hB hAt hApC hBpC hsq hBA (by omega) (by omega) hk hg).mono ?_
  intro _ h' hb
  refine hb.congr fun i j _ _ _ => ?_
  simp only [flipped_id, zero_add]
  rfl

example : Surely (kkSymmRight kA .upper kB kC) (heap ℤ) fun _ h' =>
    C.Becomes (heap ℤ) h' fun i j =>
      mulMat 3 (mvals ℤ B) (symOf .upper (mvals ℤ A)) i j :=
  C48_symm_right kA .upper kB kC _ _ _ (mholds bA)
    (mholds bB) (malloc bC) rfl rfl rfl rfl rfl rfl (by kview_facts) (by kview_facts)
    (by kview_facts)

/-- **C48** `symmetric_matrix_right_product(exec, A, t, B, E, C)`; `C` may be `E`. -/
theorem C48_symm_right_update [NonUnitalNonAssocSemiring α] (A : KMat) (t : Triangle)
    (B E C : KMat) (h : Heap α) (a b e : Nat → Nat → α) (hA : A.toMat.HoldsOn h t.region a)
    (hB : B.toMat.Holds h b) (hE : E.toMat.Holds h e) (hC : C.toMat.Alloc h)
    (hAt : A.transposed = false) (hEt : E.transposed = false) (hCt : C.transposed = false)
    (hsq : A.rows = A.cols) (hBA : B.cols = A.rows) (hBC : B.rows = C.rows)
    (hAC : A.cols = C.cols) (hEr : E.rows = C.rows) (hEc : E.cols = C.cols)
    (hu : C.toMat.Unique)
    (hApC : Apart (A.toMat.CellOn t.region) C.toMat.Cell)
    (hBpC : Apart B.toMat.Cell C.toMat.Cell) (hEC : E.toMat.Aligned C.toMat) :
    Surely (kkSymmRightUpdate A t B E C) h fun _ h' =>
      C.toMat.Becomes h h' fun i j => e i j + mulMat A.cols b (symOf t a) i j := by
  unfold kkSymmRightUpdate kkCheckRight kkCheckE
  refine surely_bind (surely_require_bind hsq (surely_require_bind hBA (surely_require_bind hBC
    (surely_require hAC (surely_bind (surely_require_bind hEr (surely_require hEc ?_)))))))
  rw [KMat.view_eq hEt]
  refine (kkProduct_surely e (fun i j k => b i k * flipped id t a k j) hAt hCt hC hu
    (fun i j hi hj => (hE.safe_rd_aligned hEC (by omega) (by omega)).2 ⟨rfl, rfl⟩)
    fun i j k hi hj hk g hg =>
      kkRightTerm_safe id hA hB hAt hApC hBpC hsq hBA (by omega) (by omega) hk hg).mono ?_
  intro _ h' hb
  refine hb.congr fun i j _ _ _ => ?_
  simp only [flipped_id]
  rfl

example : Surely (kkSymmRightUpdate kA .upper kB kE kC) (heap ℤ) fun _ h' =>
    C.Becomes (heap ℤ) h' fun i j =>
      mvals ℤ E i j + mulMat 3 (mvals ℤ B) (symOf .upper (mvals ℤ A)) i j :=
  C48_symm_right_update kA .upper kB kE kC _ _ _ _
    (mholds bA)
    (mholds bB) (mholds bE) (malloc bC) rfl rfl rfl rfl rfl rfl rfl rfl rfl (by kview_facts)
    (by kview_facts) (by kview_facts) (by kview_facts)

/-- **C48** `hermitian_matrix_left_product(exec, A, t, B, C)`: what it computes; the diagonal of
`A` enters conjugated (`C50_hemm_conjugates_diagonal`). -/
theorem C48_hemm_left [NonUnitalNonAssocSemiring α] [ConjOps α] (A : KMat) (t : Triangle)
    (B C : KMat)
    (h : Heap α) (a b : Nat → Nat → α) (hA : A.toMat.HoldsOn h t.region a)
    (hB : B.toMat.Holds h b) (hC : C.toMat.Alloc h) (hAt : A.transposed = false)
    (hBt : B.transposed = false) (hCt : C.transposed = false)
    (hsq : A.rows = A.cols) (hAB : A.cols = B.rows) (hAC : A.rows = C.rows)
    (hBC : B.cols = C.cols) (hu : C.toMat.Unique)
    (hApC : Apart (A.toMat.CellOn t.region) C.toMat.Cell)
    (hBpC : Apart B.toMat.Cell C.toMat.Cell) :
    Surely (kkHemmLeft A t B C) h fun _ h' =>
      C.toMat.Becomes h h' fun i j => mulMat A.cols
        (fun i k => if i = k then ConjOps.conj (a i i) else hermOf t a i k) b i j := by
  unfold kkHemmLeft kkCheckLeft
  refine surely_bind (surely_require_bind hsq (surely_require_bind hAB (surely_require_bind hAC
    (surely_require hBC ?_))))
  refine (kkProduct_surely (fun _ _ => 0) (fun i j k => flipped ConjOps.conj t a i k * b k j)
    hAt hCt hC hu
    (fun i j _ _ => Task.safe_pure.2 ⟨rfl, rfl⟩) fun i j k hi hj hk g hg =>
      kkLeftTerm_safe _ hA hB hAt hBt hApC hBpC hsq hAB (by omega) (by omega) hk hg).mono ?_
  intro _ h' hb
  refine hb.congr fun i j _ _ _ => ?_
  simp only [flipped_conj, zero_add]
  rfl

example : Surely (kkHemmLeft kA .lower kB kC) (heap ℂ) fun _ h' =>
    C.Becomes (heap ℂ) h' fun i j =>
      mulMat 3 (fun i k => if i = k then (starRingEnd ℂ) (mvals ℂ A i i)
        else hermOf .lower (mvals ℂ A) i k) (mvals ℂ B) i j :=
  C48_hemm_left kA .lower kB kC _ _ _ (mholds bA)
    (mholds bB) (malloc bC) rfl rfl rfl rfl rfl rfl rfl (by kview_facts) (by kview_facts)
    (by kview_facts)

/-- **C48** `hermitian_matrix_left_product(exec, A, t, B, E, C)`; `C` may be `E`. -/
theorem C48_hemm_left_update [NonUnitalNonAssocSemiring α] [ConjOps α] (A : KMat)
    (t : Triangle)
    (B E C : KMat) (h : Heap α) (a b e : Nat → Nat → α) (hA : A.toMat.HoldsOn h t.region a)
    (hB : B.toMat.Holds h b) (hE : E.toMat.Holds h e) (hC : C.toMat.Alloc h)
    (hAt : A.transposed = false) (hBt : B.transposed = false) (hEt : E.transposed = false)
    (hCt : C.transposed = false)
    (hsq : A.rows = A.cols) (hAB : A.cols = B.rows) (hAC : A.rows = C.rows)
    (hBC : B.cols = C.cols) (hEr : E.rows = C.rows) (hEc : E.cols = C.cols)
    (hu : C.toMat.Unique)
    (hApC : Apart (A.toMat.CellOn t.region) C.toMat.Cell)
    (hBpC : Apart B.toMat.Cell C.toMat.Cell) (hEC : E.toMat.Aligned C.toMat) :
    Surely (kkHemmLeftUpdate A t B E C) h fun _ h' =>
      C.toMat.Becomes h h' fun i j => e i j + mulMat A.cols
        (fun i k => if i = k then ConjOps.conj (a i i) else hermOf t a i k) b i j := by
  unfold kkHemmLeftUpdate kkCheckLeft kkCheckE
  refine surely_bind (surely_require_bind hsq (surely_require_bind hAB (surely_require_bind hAC
    (surely_require hBC (surely_bind (surely_require_bind hEr (surely_require hEc ?_)))))))
  rw [KMat.view_eq hEt]
  refine (kkProduct_surely e (fun i j k => flipped ConjOps.conj t a i k * b k j) hAt hCt hC hu
    (fun i j hi hj => (hE.safe_rd_aligned hEC (by omega) (by omega)).2 ⟨rfl, rfl⟩)
    fun i j k hi hj hk g hg =>
      kkLeftTerm_safe _ hA hB hAt hBt hApC hBpC hsq hAB (by omega) (by omega) hk hg).mono ?_
  intro _ h' hb
  refine hb.congr fun i j _ _ _ => ?_
  simp only [flipped_conj]
  rfl

/-- with `C = E` -/
example : Surely (kkHemmLeftUpdate kA .lower kB kC kC) (heap ℂ) fun _ h' =>
    C.Becomes (heap ℂ) h' fun i j => mvals ℂ C i j +
      mulMat 3 (fun i k => if i = k then (starRingEnd ℂ) (mvals ℂ A i i)
        else hermOf .lower (mvals ℂ A) i k) (mvals ℂ B) i j :=
  C48_hemm_left_update kA .lower kB kC kC _ _ _ _
    (mholds bA)
    (mholds bB) (mholds bC) (malloc bC) rfl rfl rfl rfl rfl rfl rfl rfl rfl rfl (by kview_facts)
    (by kview_facts) (by kview_facts) (by kview_facts)

/-- **C48** `hermitian_matrix_right_product(exec, A, t, B, C)`: what it computes; the diagonal
of `A` enters conjugated.  `B` may have any layout. -/
theorem C48_hemm_right [NonUnitalNonAssocSemiring α] [ConjOps α] (A : KMat) (t : Triangle)
    (B C : KMat)
    (h : Heap α) (a b : Nat → Nat → α) (hA : A.toMat.HoldsOn h t.region a)
    (hB : B.toMat.Holds h b) (hC : C.toMat.Alloc h) (hAt : A.transposed = false)
    (hCt : C.transposed = false)
    (hsq : A.rows = A.cols) (hBA : B.cols = A.rows) (hBC : B.rows = C.rows)
    (hAC : A.cols = C.cols) (hu : C.toMat.Unique)
    (hApC : Apart (A.toMat.CellOn t.region) C.toMat.Cell)
    (hBpC : Apart B.toMat.Cell C.toMat.Cell) :
    Surely (kkHemmRight A t B C) h fun _ h' =>
      C.toMat.Becomes h h' fun i j => mulMat A.cols b
        (fun k j => if k = j then ConjOps.conj (a k k) else hermOf t a k j) i j := by
  unfold kkHemmRight kkCheckRight
  refine surely_bind (surely_require_bind hsq (surely_require_bind hBA (surely_require_bind hBC
    (surely_require hAC ?_))))
  refine (kkProduct_surely (fun _ _ => 0) (fun i j k => b i k * flipped ConjOps.conj t a k j)
    hAt hCt hC hu
    (fun i j _ _ => Task.safe_pure.2 ⟨rfl, rfl⟩) fun i j k hi hj hk g hg =>
      kkRightTerm_safe _ hA hB hAt hApC hBpC hsq hBA (by omega) (by omega) hk hg).mono ?_
  intro _ h' hb
  refine hb.congr fun i j _ _ _ => ?_
  simp only [flipped_conj, zero_add]
  rfl

example : Surely (kkHemmRight kA .upper kB kC) (heap ℂ) fun _ h' =>
    C.Becomes (heap ℂ) h' fun i j =>
      mulMat 3 (mvals ℂ B) (fun k j => if k = j then (starRingEnd ℂ) (mvals ℂ A k k)
        else hermOf .upper (mvals ℂ A) k j) i j :=
  C48_hemm_right kA .upper kB kC _ _ _ (mholds bA)
    (mholds bB) (malloc bC) rfl rfl rfl rfl rfl rfl (by kview_facts) (by kview_facts)
    (by kview_facts)

/-- **C48** `hermitian_matrix_right_product(exec, A, t, B, E, C)`; `C` may be `E`.  The backend
does not check the extents of `E`. -/
theorem C48_hemm_right_update [NonUnitalNonAssocSemiring α] [ConjOps α] (A : KMat)
    (t : Triangle)
    (B E C : KMat) (h : Heap α) (a b e : Nat → Nat → α) (hA : A.toMat.HoldsOn h t.region a)
    (hB : B.toMat.Holds h b) (hE : E.toMat.Holds h e) (hC : C.toMat.Alloc h)
    (hAt : A.transposed = false) (hEt : E.transposed = false) (hCt : C.transposed = false)
    (hsq : A.rows = A.cols) (hBA : B.cols = A.rows) (hBC : B.rows = C.rows)
    (hAC : A.cols = C.cols) (hEr : E.rows = C.rows) (hEc : E.cols = C.cols)
    (hu : C.toMat.Unique)
    (hApC : Apart (A.toMat.CellOn t.region) C.toMat.Cell)
    (hBpC : Apart B.toMat.Cell C.toMat.Cell) (hEC : E.toMat.Aligned C.toMat) :
    Surely (kkHemmRightUpdate A t B E C) h fun _ h' =>
      C.toMat.Becomes h h' fun i j => e i j + mulMat A.cols b
        (fun k j => if k = j then ConjOps.conj (a k k) else hermOf t a k j) i j := by
  unfold kkHemmRightUpdate kkCheckRight
  refine surely_bind (surely_require_bind hsq (surely_require_bind hBA (surely_require_bind hBC
    (surely_require hAC ?_))))
  rw [KMat.view_eq hEt]
  refine (kkProduct_surely e (fun i j k => b i k * flipped ConjOps.conj t a k j) hAt hCt hC hu
    (fun i j hi hj => (hE.safe_rd_aligned hEC (by omega) (by omega)).2 ⟨rfl, rfl⟩)
    fun i j k hi hj hk g hg =>
      kkRightTerm_safe _ hA hB hAt hApC hBpC hsq hBA (by omega) (by omega) hk hg).mono ?_
  intro _ h' hb
  refine hb.congr fun i j _ _ _ => ?_
  simp only [flipped_conj]
  rfl

example : Surely (kkHemmRightUpdate kA .upper kB kE kC) (heap ℂ) fun _ h' =>
    C.Becomes (heap ℂ) h' fun i j => mvals ℂ E i j +
      mulMat 3 (mvals ℂ B) (fun k j => if k = j then (starRingEnd ℂ) (mvals ℂ A k k)
        else hermOf .upper (mvals ℂ A) k j) i j :=
  C48_hemm_right_update kA .upper kB kE kC _ _ _ _
    (mholds bA)
    (mholds bB) (mholds bE) (malloc bC) rfl rfl rfl rfl rfl rfl rfl rfl rfl (by kview_facts)
    (by kview_facts) (by kview_facts) (by kview_facts)

/-! ## Triangular products with implicit unit diagonal -/

/-- **C48** `triangular_matrix_left_product(exec, A, t, implicit_unit_diagonal, B, C)` -/
theorem C48_trmm_left [NonAssocSemiring α] (A : KMat) (t : Triangle) (B C : KMat)
    (h : Heap α) (a b : Nat → Nat → α) (hA : A.toMat.HoldsOn h (triRegion t .implicitUnit) a)
    (hB : B.toMat.Holds h b) (hC : C.toMat.Alloc h) (hAt : A.transposed = false)
    (hBt : B.transposed = false) (hCt : C.transposed = false)
    (hsq : A.rows = A.cols) (hAB : A.cols = B.rows) (hAC : A.rows = C.rows)
    (hBC : B.cols = C.cols) (hu : C.toMat.Unique)
    (hApC : Apart (A.toMat.CellOn (triRegion t .implicitUnit)) C.toMat.Cell)
    (hBpC : Apart B.toMat.Cell C.toMat.Cell) :
    Surely (kkTrmmLeft A t B C) h fun _ h' =>
      C.toMat.Becomes h h' fun i j => mulMat A.cols (triOf t .implicitUnit a) b i j := by
  unfold kkTrmmLeft kkCheckLeft
  rw [KMat.view_eq hAt, KMat.view_eq hBt, KMat.view_eq hCt]
  refine surely_bind (surely_require_bind hsq (surely_require_bind hAB (surely_require_bind hAC
    (surely_require hBC ?_))))
  obtain ⟨c, hc⟩ := hC.exists_holds fun _ _ => 0
  rw [← hsq, hAC]
  refine kkTrmmLeft_loop hA hApC hc hu hAC (by omega) ?_
  intro i hi g hg _ k j hk hj _ Q
  have hkB : k < B.rows := by omega
  have hjB : j < B.cols := by omega
  have hnc : ¬ C.toMat.Cell (B.addr k j) := hBpC _ ⟨k, j, hkB, hjB, trivial, rfl⟩
  refine Mat.safe_rd hkB hjB (Or.inr ?_) ?_
  · rintro ⟨l, hl, e⟩
    exact hnc ⟨i, l, hi, hl, trivial, e⟩
  · rw [hg _ hnc]; exact hB k j hkB hjB trivial

example : Surely (kkTrmmLeft kA .lower kB kC) (heap ℤ) fun _ h' =>
    C.Becomes (heap ℤ) h' fun i j =>
      mulMat 3 (triOf .lower .implicitUnit (mvals ℤ A)) (mvals ℤ B) i j :=
  C48_trmm_left kA .lower kB kC _ _ _ (mholds bA)
    (mholds bB) (malloc bC) rfl rfl rfl rfl rfl rfl rfl (by kview_facts) (by kview_facts)
    (by kview_facts)

/-- **C48** `triangular_matrix_left_product(exec, A, t, implicit_unit_diagonal, C)`, in place. -/
theorem C48_trmm_left_in_place [NonAssocSemiring α] (A : KMat) (t : Triangle) (C : KMat)
    (h : Heap α) (a c : Nat → Nat → α) (hA : A.toMat.HoldsOn h (triRegion t .implicitUnit) a)
    (hC : C.toMat.Holds h c) (hAt : A.transposed = false) (hCt : C.transposed = false)
    (hsq : A.rows = A.cols) (hAC : A.rows = C.rows) (hu : C.toMat.Unique)
    (hApC : Apart (A.toMat.CellOn (triRegion t .implicitUnit)) C.toMat.Cell) :
    Surely (kkTrmmLeftInPlace A t C) h fun _ h' =>
      C.toMat.Becomes h h' fun i j => mulMat A.cols (triOf t .implicitUnit a) c i j := by
  unfold kkTrmmLeftInPlace kkCheckLeft
  rw [KMat.view_eq hAt, KMat.view_eq hCt]
  refine surely_bind (surely_require_bind hsq (surely_require_bind (hsq.symm.trans hAC)
    (surely_require_bind hAC (surely_require rfl ?_))))
  rw [← hsq, hAC]
  refine kkTrmmLeft_loop hA hApC hC hu hAC (by omega) ?_
  intro i hi g hg hun k j hk hj hr Q
  refine Mat.safe_rd hk hj ?_ (hun k j hk hj hr)
  by_cases e : k = i
  · exact Or.inl (by rw [e])
  · refine Or.inr ?_
    rintro ⟨l, hl, e'⟩
    exact e (hu i l k j hi hl trivial hk hj trivial e').1.symm

example : Surely (kkTrmmLeftInPlace kA .upper kC) (heap ℤ) fun _ h' =>
    C.Becomes (heap ℤ) h' fun i j =>
      mulMat 3 (triOf .upper .implicitUnit (mvals ℤ A)) (mvals ℤ C) i j :=
  C48_trmm_left_in_place kA .upper kC _ _ _ (mholds bA)
    (mholds bC) rfl rfl rfl rfl (by kview_facts) (by kview_facts)

/-- **C48** `triangular_matrix_right_product(exec, A, t, implicit_unit_diagonal, B, C)` -/
theorem C48_trmm_right [NonAssocSemiring α] (A : KMat) (t : Triangle) (B C : KMat)
    (h : Heap α) (a b : Nat → Nat → α) (hA : A.toMat.HoldsOn h (triRegion t .implicitUnit) a)
    (hB : B.toMat.Holds h b) (hC : C.toMat.Alloc h) (hAt : A.transposed = false)
    (hBt : B.transposed = false) (hCt : C.transposed = false)
    (hsq : A.rows = A.cols) (hBA : B.cols = A.rows) (hBC : B.rows = C.rows)
    (hAC : A.cols = C.cols) (hu : C.toMat.Unique)
    (hApC : Apart (A.toMat.CellOn (triRegion t .implicitUnit)) C.toMat.Cell)
    (hBpC : Apart B.toMat.Cell C.toMat.Cell) :
    Surely (kkTrmmRight A t B C) h fun _ h' =>
      C.toMat.Becomes h h' fun i j => mulMat A.cols b (triOf t .implicitUnit a) i j := by
  unfold kkTrmmRight kkCheckRight
  rw [KMat.view_eq hAt, KMat.view_eq hBt, KMat.view_eq hCt]
  refine surely_bind (surely_require_bind hsq (surely_require_bind hBA (surely_require_bind hBC
    (surely_require hAC ?_))))
  obtain ⟨c, hc⟩ := hC.exists_holds fun _ _ => 0
  rw [hAC]
  refine kkTrmmRight_loop hA hApC hc hu (by omega) hAC ?_
  intro j hj g hg _ i k hi hk _ Q
  have hiB : i < B.rows := by omega
  have hkB : k < B.cols := by omega
  have hnc : ¬ C.toMat.Cell (B.addr i k) := hBpC _ ⟨i, k, hiB, hkB, trivial, rfl⟩
  refine Mat.safe_rd hiB hkB (Or.inr ?_) ?_
  · rintro ⟨l, hl, e⟩
    exact hnc ⟨l, j, hl, hj, trivial, e⟩
  · rw [hg _ hnc]; exact hB i k hiB hkB trivial

example : Surely (kkTrmmRight kA .lower kB kC) (heap ℤ) fun _ h' =>
    C.Becomes (heap ℤ) h' fun i j =>
      mulMat 3 (mvals ℤ B) (triOf .lower .implicitUnit (mvals ℤ A)) i j :=
  C48_trmm_right kA .lower kB kC _ _ _ (mholds bA)
    (mholds bB) (malloc bC) rfl rfl rfl rfl rfl rfl rfl (by kview_facts) (by kview_facts)
    (by kview_facts)

/-- **C48** `triangular_matrix_right_product(exec, A, t, implicit_unit_diagonal, C)`, in
place. -/
theorem C48_trmm_right_in_place [NonAssocSemiring α] (A : KMat) (t : Triangle) (C : KMat)
    (h : Heap α) (a c : Nat → Nat → α) (hA : A.toMat.HoldsOn h (triRegion t .implicitUnit) a)
    (hC : C.toMat.Holds h c) (hAt : A.transposed = false) (hCt : C.transposed = false)
    (hsq : A.rows = A.cols) (hAC : C.cols = A.rows) (hu : C.toMat.Unique)
    (hApC : Apart (A.toMat.CellOn (triRegion t .implicitUnit)) C.toMat.Cell) :
    Surely (kkTrmmRightInPlace A t C) h fun _ h' =>
      C.toMat.Becomes h h' fun i j => mulMat A.cols c (triOf t .implicitUnit a) i j := by
  unfold kkTrmmRightInPlace kkCheckRight
  rw [KMat.view_eq hAt, KMat.view_eq hCt]
  refine surely_bind (surely_require_bind hsq (surely_require_bind hAC
    (surely_require_bind rfl (surely_require (by omega) ?_))))
  rw [← hsq, ← hAC]
  refine kkTrmmRight_loop hA hApC hC hu (by omega) (by omega) ?_
  intro j hj g hg hun i k hi hk hr Q
  refine Mat.safe_rd hi hk ?_ (hun i k hi hk hr)
  by_cases e : k = j
  · exact Or.inl (by rw [e])
  · refine Or.inr ?_
    rintro ⟨l, hl, e'⟩
    exact e (hu l j i k hl hj trivial hi hk trivial e').2.symm

example : Surely (kkTrmmRightInPlace kA .upper kC) (heap ℤ) fun _ h' =>
    C.Becomes (heap ℤ) h' fun i j =>
      mulMat 3 (mvals ℤ C) (triOf .upper .implicitUnit (mvals ℤ A)) i j :=
  C48_trmm_right_in_place kA .upper kC _ _ _ (mholds bA)
    (mholds bC) rfl rfl rfl rfl (by kview_facts) (by kview_facts)

end StdBLAS

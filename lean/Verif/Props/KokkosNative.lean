import Verif.Lemmas.KokkosNative
import Verif.Props.Blas1Elementwise
import Verif.Props.Blas1Reductions
import Verif.Props.Blas2Products
import Verif.Props.Blas3Products
import Verif.Props.RankUpdates
import Verif.Props.KokkosLoops
import Verif.Props.KokkosProducts
import Verif.Props.KokkosReductions
import Verif.Props.KokkosUpdates

/-!
# C50: where the Kokkos backend agrees with the native implementation

Every theorem says: both calls end normally, and the Kokkos call, under every schedule, has
the same result and leaves the same memory as the native one.  Restrictions, as in C48:
vectors have stride 1, matrices are not transposed views.  A suffix `_partial` marks a further
restriction (real diagonals, `init = 0`); what happens otherwise is in `KokkosDiffer.lean`.
-/

namespace StdBLAS
open Finset Witness
variable {α : Type}

/-- **C50** `copy(exec, x, y)` between different rank-2 layouts: `copy(x, y)`: the native result. -/
theorem C50_copy_matrix (x y : KMat) (h : Heap α) (f : Nat → Nat → α) (hx : x.toMat.Holds h f)
    (hy : y.toMat.Alloc h) (hxt : x.transposed = false) (hyt : y.transposed = false)
    (hr : x.rows = y.rows) (hc : x.cols = y.cols) (hu : y.toMat.Unique)
    (hal : x.toMat.Aligned y.toMat) :
    SameOutcome (copy2 x.toMat.view y.toMat)
      (kkCopy2 x y) h :=
  same_mat
    (C09_copy_matrix _ _ _ _ (Mat.HoldsOn.toView hx) hy hr.ge hc.ge hu hal)
    (C48_copy_matrix x y h f hx hy hxt hyt hr hc hu hal)
    (fun _ _ _ _ _ => rfl)

example : SameOutcome (copy2 kA.toMat.view kB.toMat)
    (kkCopy2 kA kB) (heap ℤ) :=
  C50_copy_matrix kA kB _ _ (mholds bA) (malloc bB) rfl rfl rfl rfl (by kview_facts) (by kview_facts)

/-- **C50** `matrix_rank_1_update(exec, x, y, A)`: the native result. -/
theorem C50_ger [Add α] [Mul α] (x y : KVec) (A : KMat) (h : Heap α) (f g : Nat → α)
    (a : Nat → Nat → α) (hx : x.mdspan.Holds h f) (hy : y.mdspan.Holds h g)
    (hA : A.toMat.Holds h a) (hxs : x.stride = 1) (hys : y.stride = 1)
    (hAt : A.transposed = false) (hxe : A.rows = x.ext) (hye : A.cols = y.ext)
    (hu : A.toMat.Unique) (hxA : Apart x.mdspan.Cell A.toMat.Cell)
    (hyA : Apart y.mdspan.Cell A.toMat.Cell) :
    SameOutcome (ger x.mdspan.view y.mdspan.view A.toMat)
      (kkGer x y A) h :=
  same_mat
    (C25_ger _ _ _ _ _ _ _ (Vec.Holds.toView hx) (Vec.Holds.toView hy) hA hxe.le hye.le hu hxA hyA)
    (C48_ger x y A h f g a hx hy hA hxs hys hAt hxe hye hu hxA hyA)
    (fun _ _ _ _ _ => rfl)

example : SameOutcome (ger kx.mdspan.view ky.mdspan.view kA.toMat)
    (kkGer kx ky kA) (heap ℤ) :=
  C50_ger _ _ _ _ _ _ _ (holds bkx) (holds bky) (mholds bA) rfl rfl rfl rfl rfl (by kview_facts) (by kview_facts) (by kview_facts)

/-- **C50** `matrix_rank_1_update_c(exec, x, y, A)`: the native result. -/
theorem C50_gerc [Add α] [Mul α] [ConjOps α] (x y : KVec) (A : KMat) (h : Heap α)
    (f g : Nat → α) (a : Nat → Nat → α) (hx : x.mdspan.Holds h f) (hy : y.mdspan.Holds h g)
    (hA : A.toMat.Holds h a) (hxs : x.stride = 1) (hys : y.stride = 1)
    (hAt : A.transposed = false) (hxe : A.rows = x.ext) (hye : A.cols = y.ext)
    (hu : A.toMat.Unique) (hxA : Apart x.mdspan.Cell A.toMat.Cell)
    (hyA : Apart y.mdspan.Cell A.toMat.Cell) :
    SameOutcome (gerc x.mdspan.view y.mdspan.view A.toMat)
      (kkGerc x y A) h :=
  same_mat
    (C25_gerc _ _ _ _ _ _ _ (Vec.Holds.toView hx) (Vec.Holds.toView hy) hA hxe.le hye.le hu hxA hyA)
    (C48_gerc x y A h f g a hx hy hA hxs hys hAt hxe hye hu hxA hyA)
    (fun _ _ _ _ _ => rfl)

example : SameOutcome (gerc kx.mdspan.view ky.mdspan.view kA.toMat)
    (kkGerc kx ky kA) (heap ℂ) :=
  C50_gerc _ _ _ _ _ _ _ (holds bkx) (holds bky) (mholds bA) rfl rfl rfl rfl rfl (by kview_facts) (by kview_facts) (by kview_facts)

/-- **C50** `symmetric_matrix_rank_1_update(exec, x, A, t)`: the native result. -/
theorem C50_syr [Add α] [Mul α] (x : KVec) (A : KMat) (t : Triangle) (h : Heap α)
    (f : Nat → α) (a : Nat → Nat → α) (hx : x.mdspan.Holds h f)
    (hA : A.toMat.HoldsOn h t.region a) (hxs : x.stride = 1) (hAt : A.transposed = false)
    (hsq : A.rows = A.cols) (hxe : A.rows = x.ext) (hu : A.toMat.UniqueOn t.region)
    (hxA : Apart x.mdspan.Cell (A.toMat.CellOn t.region)) :
    SameOutcome (syr x.mdspan.view A.toMat t)
      (kkSyr x A t) h :=
  same_mat
    (C26_syr _ _ _ _ _ _ (Vec.Holds.toView hx) hA hsq hxe.le hu hxA)
    (C48_syr x A t h f a hx hA hxs hAt hsq hxe hu hxA)
    (fun _ _ _ _ _ => rfl)

example (t : Triangle) : SameOutcome (syr kx.mdspan.view kA.toMat t) (kkSyr kx kA t) (heap ℤ) :=
  C50_syr _ _ _ _ _ _ (holds bkx) (mholds bA) rfl rfl rfl rfl (by kview_facts) (by kview_facts)

/-- **C50** `hermitian_matrix_rank_1_update(exec, x, A, t)` when the stored diagonal is real: the native result. -/
theorem C50_her_partial [Add α] [Mul α] [ConjOps α] (x : KVec) (A : KMat) (t : Triangle) (h : Heap α)
    (f : Nat → α) (a : Nat → Nat → α) (hx : x.mdspan.Holds h f)
    (hA : A.toMat.HoldsOn h t.region a) (hxs : x.stride = 1) (hAt : A.transposed = false)
    (hsq : A.rows = A.cols) (hxe : A.rows = x.ext) (hu : A.toMat.UniqueOn t.region)
    (hxA : Apart x.mdspan.Cell (A.toMat.CellOn t.region))
    (hreal : ∀ i, i < A.rows → ConjOps.re (a i i) = a i i) :
    SameOutcome (her x.mdspan.view A.toMat t)
      (kkHer x A t) h :=
  same_mat
    (C26_her _ _ _ _ _ _ (Vec.Holds.toView hx) hA hsq hxe.le hu hxA)
    (C48_her x A t h f a hx hA hxs hAt hsq hxe hu hxA)
    fun i j hi _ _ => by
      split
      · next e => subst e; rw [hreal i hi]
      · rfl

example (t : Triangle) : SameOutcome (her kx.mdspan.view kA.toMat t)
    (kkHer kx kA t) (heap ℂ) :=
  C50_her_partial _ _ _ _ _ _ (holds bkx) (mholds bA) rfl rfl rfl rfl (by kview_facts) (by kview_facts)
    (by intro i _; simp [mvals, ConjOps.re])

/-- **C50** `symmetric_matrix_rank_2_update(exec, x, y, A, t)`: the native result. -/
theorem C50_syr2 [Add α] [Mul α] (x y : KVec) (A : KMat) (t : Triangle) (h : Heap α)
    (f g : Nat → α) (a : Nat → Nat → α) (hx : x.mdspan.Holds h f) (hy : y.mdspan.Holds h g)
    (hA : A.toMat.HoldsOn h t.region a) (hxs : x.stride = 1) (hys : y.stride = 1)
    (hAt : A.transposed = false)
    (hsq : A.rows = A.cols) (hxe : A.rows = x.ext) (hye : A.rows = y.ext)
    (hu : A.toMat.UniqueOn t.region)
    (hxA : Apart x.mdspan.Cell (A.toMat.CellOn t.region))
    (hyA : Apart y.mdspan.Cell (A.toMat.CellOn t.region)) :
    SameOutcome (syr2 x.mdspan.view y.mdspan.view A.toMat t)
      (kkSyr2 x y A t) h :=
  same_mat
    (C27_syr2 _ _ _ _ _ _ _ _ (Vec.Holds.toView hx) (Vec.Holds.toView hy) hA hsq hxe.le hye.le hu hxA hyA)
    (C48_syr2 x y A t h f g a hx hy hA hxs hys hAt hsq hxe hye hu hxA hyA)
    (fun _ _ _ _ _ => rfl)

example (t : Triangle) : SameOutcome (syr2 kx.mdspan.view ky.mdspan.view kA.toMat t)
    (kkSyr2 kx ky kA t) (heap ℤ) :=
  C50_syr2 _ _ _ _ _ _ _ _ (holds bkx) (holds bky) (mholds bA) rfl rfl rfl rfl rfl rfl (by kview_facts) (by kview_facts) (by kview_facts)

/-- **C50** `hermitian_matrix_rank_2_update(exec, x, y, A, t)` when the stored diagonal is real: the native result. -/
theorem C50_her2_partial [Add α] [Mul α] [ConjOps α] (x y : KVec) (A : KMat) (t : Triangle) (h : Heap α)
    (f g : Nat → α) (a : Nat → Nat → α) (hx : x.mdspan.Holds h f) (hy : y.mdspan.Holds h g)
    (hA : A.toMat.HoldsOn h t.region a) (hxs : x.stride = 1) (hys : y.stride = 1)
    (hAt : A.transposed = false)
    (hsq : A.rows = A.cols) (hxe : A.rows = x.ext) (hye : A.rows = y.ext)
    (hu : A.toMat.UniqueOn t.region)
    (hxA : Apart x.mdspan.Cell (A.toMat.CellOn t.region))
    (hyA : Apart y.mdspan.Cell (A.toMat.CellOn t.region))
    (hreal : ∀ i, i < A.rows → ConjOps.re (a i i) = a i i) :
    SameOutcome (her2 x.mdspan.view y.mdspan.view A.toMat t)
      (kkHer2 x y A t) h :=
  same_mat
    (C27_her2 _ _ _ _ _ _ _ _ (Vec.Holds.toView hx) (Vec.Holds.toView hy) hA hsq hxe.le hye.le hu hxA hyA)
    (C48_her2 x y A t h f g a hx hy hA hxs hys hAt hsq hxe hye hu hxA hyA)
    fun i j hi _ _ => by
      split
      · next e => subst e; rw [hreal i hi]
      · rfl

example (t : Triangle) : SameOutcome (her2 kx.mdspan.view ky.mdspan.view kA.toMat t)
    (kkHer2 kx ky kA t) (heap ℂ) :=
  C50_her2_partial _ _ _ _ _ _ _ _ (holds bkx) (holds bky) (mholds bA) rfl rfl rfl rfl rfl rfl (by kview_facts) (by kview_facts) (by kview_facts)
    (by intro i _; simp [mvals, ConjOps.re])

/-- **C50** `symmetric_matrix_rank_k_update(exec, alpha, A, C, t)`: the native result. -/
theorem C50_syrk [AddCommMonoid α] [Mul α] (alpha : α) (A C : KMat) (t : Triangle) (h : Heap α)
    (a c : Nat → Nat → α) (hA : A.toMat.Holds h a) (hC : C.toMat.HoldsOn h t.region c)
    (hAt : A.transposed = false) (hCt : C.transposed = false)
    (he : A.rows = C.rows) (hsq : C.rows = C.cols) (hu : C.toMat.UniqueOn t.region)
    (hAC : Apart A.toMat.Cell (C.toMat.CellOn t.region)) :
    SameOutcome (syrkAlpha alpha A.toMat.view C.toMat t)
      (kkSyrk alpha A C t) h :=
  same_mat
    (C28_syrkAlpha _ _ _ _ _ _ _ (Mat.HoldsOn.toView hA) hC hsq he.ge hu hAC)
    (C48_syrk alpha A C t h a c hA hC hAt hCt he hsq hu hAC)
    (fun _ _ _ _ _ => rfl)

example (t : Triangle) : SameOutcome (syrkAlpha 5 kT.toMat.view kA.toMat t)
    (kkSyrk 5 kT kA t) (heap ℤ) :=
  C50_syrk _ _ _ _ _ _ _ (mholds bT) (mholds bA) rfl rfl rfl rfl (by kview_facts) (by kview_facts)

/-- **C50** `hermitian_matrix_rank_k_update(exec, alpha, A, C, t)` when the stored diagonal is real: the native result. -/
theorem C50_herk_partial [AddCommMonoid α] [Mul α] [ConjOps α] (alpha : α) (A C : KMat) (t : Triangle)
    (h : Heap α)
    (a c : Nat → Nat → α) (hA : A.toMat.Holds h a) (hC : C.toMat.HoldsOn h t.region c)
    (hAt : A.transposed = false) (hCt : C.transposed = false)
    (he : A.rows = C.rows) (hsq : C.rows = C.cols) (hu : C.toMat.UniqueOn t.region)
    (hAC : Apart A.toMat.Cell (C.toMat.CellOn t.region))
    (hreal : ∀ i, i < C.rows → ConjOps.re (c i i) = c i i) :
    SameOutcome (herkAlpha alpha A.toMat.view C.toMat t)
      (kkHerk alpha A C t) h :=
  same_mat
    (C28_herkAlpha _ _ _ _ _ _ _ (Mat.HoldsOn.toView hA) hC hsq he.ge hu hAC)
    (C48_herk alpha A C t h a c hA hC hAt hCt he hsq hu hAC)
    fun i j hi _ _ => by
      split
      · next e => subst e; rw [hreal i hi]; rfl
      · rfl

example (t : Triangle) : SameOutcome (herkAlpha 5 kT.toMat.view kA.toMat t)
    (kkHerk 5 kT kA t) (heap ℂ) :=
  C50_herk_partial _ _ _ _ _ _ _ (mholds bT) (mholds bA) rfl rfl rfl rfl (by kview_facts) (by kview_facts)
    (by intro i _; simp [mvals, ConjOps.re])

/-- **C50** `symmetric_matrix_rank_2k_update(exec, A, B, C, t)`: the native result. -/
theorem C50_syr2k [AddCommMonoid α] [Mul α] (A B C : KMat) (t : Triangle) (h : Heap α)
    (a b c : Nat → Nat → α) (hA : A.toMat.Holds h a) (hB : B.toMat.Holds h b)
    (hC : C.toMat.HoldsOn h t.region c)
    (hAt : A.transposed = false) (hBt : B.transposed = false) (hCt : C.transposed = false)
    (he : A.rows = C.rows) (he' : B.rows = C.rows) (hsq : C.rows = C.cols)
    (hK : A.cols = B.cols) (hu : C.toMat.UniqueOn t.region)
    (hAC : Apart A.toMat.Cell (C.toMat.CellOn t.region))
    (hBC : Apart B.toMat.Cell (C.toMat.CellOn t.region)) :
    SameOutcome (syr2k A.toMat.view B.toMat.view C.toMat t)
      (kkSyr2k A B C t) h :=
  same_mat
    (C29_syr2k _ _ _ _ _ _ _ _ (Mat.HoldsOn.toView hA) (Mat.HoldsOn.toView hB) hC hsq he.ge he'.ge hK.le hu hAC hBC)
    (C48_syr2k A B C t h a b c hA hB hC hAt hBt hCt he he' hsq hK hu hAC hBC)
    (fun _ _ _ _ _ => rfl)

example (t : Triangle) : SameOutcome (syr2k kB.toMat.view kC.toMat.view kA.toMat t)
    (kkSyr2k kB kC kA t) (heap ℤ) :=
  C50_syr2k _ _ _ _ _ _ _ _ (mholds bB) (mholds bC) (mholds bA) rfl rfl rfl rfl rfl rfl rfl (by kview_facts) (by kview_facts) (by kview_facts)

/-- **C50** `hermitian_matrix_rank_2k_update(exec, A, B, C, t)` when the stored diagonal is real: the native result. -/
theorem C50_her2k_partial [AddCommMonoid α] [Mul α] [ConjOps α] (A B C : KMat) (t : Triangle)
    (h : Heap α)
    (a b c : Nat → Nat → α) (hA : A.toMat.Holds h a) (hB : B.toMat.Holds h b)
    (hC : C.toMat.HoldsOn h t.region c)
    (hAt : A.transposed = false) (hBt : B.transposed = false) (hCt : C.transposed = false)
    (he : A.rows = C.rows) (he' : B.rows = C.rows) (hsq : C.rows = C.cols)
    (hK : A.cols = B.cols) (hu : C.toMat.UniqueOn t.region)
    (hAC : Apart A.toMat.Cell (C.toMat.CellOn t.region))
    (hBC : Apart B.toMat.Cell (C.toMat.CellOn t.region))
    (hreal : ∀ i, i < C.rows → ConjOps.re (c i i) = c i i) :
    SameOutcome (her2k A.toMat.view B.toMat.view C.toMat t)
      (kkHer2k A B C t) h :=
  same_mat
    (C29_her2k _ _ _ _ _ _ _ _ (Mat.HoldsOn.toView hA) (Mat.HoldsOn.toView hB) hC hsq he.ge he'.ge hK.le hu hAC hBC)
    (C48_her2k A B C t h a b c hA hB hC hAt hBt hCt he he' hsq hK hu hAC hBC)
    fun i j hi _ _ => by
      split
      · next e => subst e; rw [hreal i hi]; rfl
      · rfl

example (t : Triangle) : SameOutcome (her2k kB.toMat.view kC.toMat.view kA.toMat t)
    (kkHer2k kB kC kA t) (heap ℂ) :=
  C50_her2k_partial _ _ _ _ _ _ _ _ (mholds bB) (mholds bC) (mholds bA) rfl rfl rfl rfl rfl rfl rfl (by kview_facts) (by kview_facts) (by kview_facts)
    (by intro i _; simp [mvals, ConjOps.re])

/-- **C50** `symmetric_matrix_vector_product(exec, A, t, x, y)`: the native result. -/
theorem C50_symv [NonUnitalNonAssocSemiring α] (A : KMat) (t : Triangle) (x y : KVec)
    (h : Heap α) (a : Nat → Nat → α) (f : Nat → α) (hA : A.toMat.HoldsOn h t.region a)
    (hx : x.mdspan.Holds h f) (hy : y.mdspan.Alloc h) (hAt : A.transposed = false)
    (hxs : x.stride = 1) (hys : y.stride = 1) (hsq : A.rows = A.cols) (hxe : A.cols = x.ext)
    (hye : A.rows = y.ext) (hAy : Apart (A.toMat.CellOn t.region) y.mdspan.Cell)
    (hxy : Apart x.mdspan.Cell y.mdspan.Cell) :
    SameOutcome (symv A.toMat.view t x.mdspan.view y.mdspan)
      (kkSymv A t x y) h :=
  same_vec
    (C17_symv _ _ _ _ _ _ _ (Mat.HoldsOn.toView hA) (Vec.Holds.toView hx) hy hsq hye hxe.le (KVec.mdspan_unique hys) hAy hxy)
    (C48_symv A t x y h a f hA hx hy hAt hxs hys hsq hxe hye hAy hxy)
    (fun _ _ => rfl)

example : SameOutcome (symv kA.toMat.view .lower kx.mdspan.view ky.mdspan)
    (kkSymv kA .lower kx ky) (heap ℤ) :=
  C50_symv kA .lower kx ky _ _ _ (mholds bA) (holds bkx) (alloc bky) rfl rfl rfl rfl rfl rfl (by kview_facts) (by kview_facts)

/-- **C50** `symmetric_matrix_vector_product(exec, A, t, x, y, z)`: the native result. -/
theorem C50_symv_update [NonUnitalNonAssocSemiring α] (A : KMat) (t : Triangle) (x y z : KVec)
    (h : Heap α) (a : Nat → Nat → α) (f g : Nat → α) (hA : A.toMat.HoldsOn h t.region a)
    (hx : x.mdspan.Holds h f) (hy : y.mdspan.Holds h g) (hz : z.mdspan.Alloc h)
    (hAt : A.transposed = false) (hxs : x.stride = 1) (hys : y.stride = 1) (hzs : z.stride = 1)
    (hsq : A.rows = A.cols) (hxe : A.cols = x.ext) (hye : A.rows = y.ext) (hze : A.rows = z.ext)
    (hAz : Apart (A.toMat.CellOn t.region) z.mdspan.Cell)
    (hxz : Apart x.mdspan.Cell z.mdspan.Cell) (hyz : y.mdspan.Aligned z.mdspan) :
    SameOutcome (symvUpdate A.toMat.view t x.mdspan.view y.mdspan.view z.mdspan)
      (kkSymvUpdate A t x y z) h :=
  same_vec
    (C17_symv_update _ _ _ _ _ _ _ _ _ (Mat.HoldsOn.toView hA) (Vec.Holds.toView hx) (Vec.Holds.toView hy) hz hsq hze hxe.le hye.le (KVec.mdspan_unique hzs) hAz hxz hyz)
    (C48_symv_update A t x y z h a f g hA hx hy hz hAt hxs hys hzs hsq hxe hye hze hAz hxz hyz)
    (fun _ _ => rfl)

example : SameOutcome (symvUpdate kA.toMat.view .upper kx.mdspan.view ky.mdspan.view ky.mdspan)
    (kkSymvUpdate kA .upper kx ky ky) (heap ℤ) :=
  C50_symv_update kA .upper kx ky ky _ _ _ _ (mholds bA) (holds bkx) (holds bky) (alloc bky) rfl rfl rfl rfl rfl rfl rfl rfl (by kview_facts) (by kview_facts) (by kview_facts)

/-- **C50** `hermitian_matrix_vector_product(exec, A, t, x, y)` when the stored diagonal is real: the native result. -/
theorem C50_hemv_partial [NonUnitalNonAssocSemiring α] [ConjOps α] (A : KMat) (t : Triangle)
    (x y : KVec) (h : Heap α) (a : Nat → Nat → α) (f : Nat → α)
    (hA : A.toMat.HoldsOn h t.region a)
    (hx : x.mdspan.Holds h f) (hy : y.mdspan.Alloc h) (hAt : A.transposed = false)
    (hxs : x.stride = 1) (hys : y.stride = 1) (hsq : A.rows = A.cols) (hxe : A.cols = x.ext)
    (hye : A.rows = y.ext) (hAy : Apart (A.toMat.CellOn t.region) y.mdspan.Cell)
    (hxy : Apart x.mdspan.Cell y.mdspan.Cell)
    (hreal : ∀ i, i < A.rows → ConjOps.re (a i i) = a i i) :
    SameOutcome (hemv A.toMat.view t x.mdspan.view y.mdspan)
      (kkHemv A t x y) h :=
  same_vec
    (C18_hemv _ _ _ _ _ _ _ (Mat.HoldsOn.toView hA) (Vec.Holds.toView hx) hy hsq hye hxe.le (KVec.mdspan_unique hys) hAy hxy)
    (C48_hemv A t x y h a f hA hx hy hAt hxs hys hsq hxe hye hAy hxy)
    fun i hi => by
      refine Finset.sum_congr rfl fun j _ => ?_
      beta_reduce
      split
      · next e =>
        subst e
        have hi' : i < A.rows := by rw [hye]; exact hi
        rw [hermOf, if_pos rfl, hreal i hi']
      · rfl

example : SameOutcome (hemv kA.toMat.view .lower kx.mdspan.view ky.mdspan)
    (kkHemv kA .lower kx ky) (heap ℂ) :=
  C50_hemv_partial kA .lower kx ky _ _ _ (mholds bA) (holds bkx) (alloc bky) rfl rfl rfl rfl rfl rfl (by kview_facts) (by kview_facts)
    (by intro i _; simp [mvals, ConjOps.re])

/-- **C50** `hermitian_matrix_vector_product(exec, A, t, x, y, z)` when the stored diagonal is real: the native result. -/
theorem C50_hemv_update_partial [NonUnitalNonAssocSemiring α] [ConjOps α] (A : KMat) (t : Triangle)
    (x y z : KVec)
    (h : Heap α) (a : Nat → Nat → α) (f g : Nat → α) (hA : A.toMat.HoldsOn h t.region a)
    (hx : x.mdspan.Holds h f) (hy : y.mdspan.Holds h g) (hz : z.mdspan.Alloc h)
    (hAt : A.transposed = false) (hxs : x.stride = 1) (hys : y.stride = 1) (hzs : z.stride = 1)
    (hsq : A.rows = A.cols) (hxe : A.cols = x.ext) (hye : A.rows = y.ext) (hze : A.rows = z.ext)
    (hAz : Apart (A.toMat.CellOn t.region) z.mdspan.Cell)
    (hxz : Apart x.mdspan.Cell z.mdspan.Cell) (hyz : y.mdspan.Aligned z.mdspan)
    (hreal : ∀ i, i < A.rows → ConjOps.re (a i i) = a i i) :
    SameOutcome (hemvUpdate A.toMat.view t x.mdspan.view y.mdspan.view z.mdspan)
      (kkHemvUpdate A t x y z) h :=
  same_vec
    (C18_hemv_update _ _ _ _ _ _ _ _ _ (Mat.HoldsOn.toView hA) (Vec.Holds.toView hx) (Vec.Holds.toView hy) hz hsq hze hxe.le hye.le (KVec.mdspan_unique hzs) hAz hxz hyz)
    (C48_hemv_update A t x y z h a f g hA hx hy hz hAt hxs hys hzs hsq hxe hye hze hAz hxz hyz)
    fun i hi => by
      refine congrArg (g i + ·) ?_
      refine Finset.sum_congr rfl fun j _ => ?_
      beta_reduce
      split
      · next e =>
        subst e
        have hi' : i < A.rows := by rw [hze]; exact hi
        rw [hermOf, if_pos rfl, hreal i hi']
      · rfl

example : SameOutcome (hemvUpdate kA.toMat.view .upper kx.mdspan.view ky.mdspan.view ky.mdspan)
    (kkHemvUpdate kA .upper kx ky ky) (heap ℂ) :=
  C50_hemv_update_partial kA .upper kx ky ky _ _ _ _ (mholds bA) (holds bkx) (holds bky) (alloc bky) rfl rfl rfl rfl rfl rfl rfl rfl (by kview_facts) (by kview_facts) (by kview_facts)
    (by intro i _; simp [mvals, ConjOps.re])

/-- **C50** `triangular_matrix_vector_product(exec, A, t, d, x, y)`: the native result. -/
theorem C50_trmv [NonAssocSemiring α] (A : KMat) (t : Triangle) (d : Diag) (x y : KVec)
    (h : Heap α) (a : Nat → Nat → α) (f : Nat → α) (hA : A.toMat.HoldsOn h (triRegion t d) a)
    (hx : x.mdspan.Holds h f) (hy : y.mdspan.Alloc h) (hAt : A.transposed = false)
    (hxs : x.stride = 1) (hys : y.stride = 1) (hsq : A.rows = A.cols) (hxe : A.cols = x.ext)
    (hye : A.rows = y.ext) (hAy : Apart (A.toMat.CellOn (triRegion t d)) y.mdspan.Cell)
    (hxy : Apart x.mdspan.Cell y.mdspan.Cell) :
    SameOutcome (trmv A.toMat.view t d x.mdspan.view y.mdspan)
      (kkTrmv A t d x y) h :=
  same_vec
    (C19_trmv _ _ _ _ _ _ _ _ (Mat.HoldsOn.toView hA) (Vec.Holds.toView hx) hy hsq hye hxe.le (KVec.mdspan_unique hys) hAy hxy)
    (C48_trmv A t d x y h a f hA hx hy hAt hxs hys hsq hxe hye hAy hxy)
    (fun _ _ => rfl)

example (t : Triangle) (d : Diag) : SameOutcome (trmv kA.toMat.view t d kx.mdspan.view ky.mdspan)
    (kkTrmv kA t d kx ky) (heap ℤ) :=
  C50_trmv kA t d kx ky _ _ _ (mholds bA) (holds bkx) (alloc bky) rfl rfl rfl rfl rfl rfl (by kview_facts) (by kview_facts)

/-- **C50** `triangular_matrix_vector_product(exec, A, t, d, x, y, z)`: the native result. -/
theorem C50_trmv_update [NonAssocSemiring α] (A : KMat) (t : Triangle) (d : Diag)
    (x y z : KVec)
    (h : Heap α) (a : Nat → Nat → α) (f g : Nat → α)
    (hA : A.toMat.HoldsOn h (triRegion t d) a)
    (hx : x.mdspan.Holds h f) (hy : y.mdspan.Holds h g) (hz : z.mdspan.Alloc h)
    (hAt : A.transposed = false) (hxs : x.stride = 1) (hys : y.stride = 1) (hzs : z.stride = 1)
    (hsq : A.rows = A.cols) (hxe : A.cols = x.ext) (hye : A.rows = y.ext) (hze : A.rows = z.ext)
    (hAz : Apart (A.toMat.CellOn (triRegion t d)) z.mdspan.Cell)
    (hxz : Apart x.mdspan.Cell z.mdspan.Cell) (hyz : y.mdspan.Aligned z.mdspan) :
    SameOutcome (trmvUpdate A.toMat.view t d x.mdspan.view y.mdspan.view z.mdspan)
      (kkTrmvUpdate A t d x y z) h :=
  same_vec
    (C19_trmv_update _ _ _ _ _ _ _ _ _ _ (Mat.HoldsOn.toView hA) (Vec.Holds.toView hx) (Vec.Holds.toView hy) hz hsq hze hxe.le hye.le (KVec.mdspan_unique hzs) hAz hxz hyz)
    (C48_trmv_update A t d x y z h a f g hA hx hy hz hAt hxs hys hzs hsq hxe hye hze hAz hxz hyz)
    (fun _ _ => rfl)

example (t : Triangle) (d : Diag) : SameOutcome (trmvUpdate kA.toMat.view t d kx.mdspan.view ky.mdspan.view ky.mdspan)
    (kkTrmvUpdate kA t d kx ky ky) (heap ℤ) :=
  C50_trmv_update kA t d kx ky ky _ _ _ _ (mholds bA) (holds bkx) (holds bky) (alloc bky) rfl rfl rfl rfl rfl rfl rfl rfl (by kview_facts) (by kview_facts) (by kview_facts)

/-- **C50** `symmetric_matrix_left_product(exec, A, t, B, C)`: the native result. -/
theorem C50_symm_left [NonUnitalNonAssocSemiring α] (A : KMat) (t : Triangle) (B C : KMat)
    (h : Heap α) (a b : Nat → Nat → α) (hA : A.toMat.HoldsOn h t.region a)
    (hB : B.toMat.Holds h b) (hC : C.toMat.Alloc h) (hAt : A.transposed = false)
    (hBt : B.transposed = false) (hCt : C.transposed = false)
    (hsq : A.rows = A.cols) (hAB : A.cols = B.rows) (hAC : A.rows = C.rows)
    (hBC : B.cols = C.cols) (hu : C.toMat.Unique)
    (hApC : Apart (A.toMat.CellOn t.region) C.toMat.Cell)
    (hBpC : Apart B.toMat.Cell C.toMat.Cell) :
    SameOutcome (symmLeft A.toMat.view t B.toMat.view C.toMat)
      (kkSymmLeft A t B C) h :=
  same_mat
    (C32_symm_left _ _ _ _ _ _ _ (Mat.HoldsOn.toView hA) (Mat.HoldsOn.toView hB) hC hsq hAC.symm hAB hBC.symm hu hApC hBpC)
    (C48_symm_left A t B C h a b hA hB hC hAt hBt hCt hsq hAB hAC hBC hu hApC hBpC)
    (fun _ _ _ _ _ => rfl)

example : SameOutcome (symmLeft kA.toMat.view .lower kB.toMat.view kC.toMat)
    (kkSymmLeft kA .lower kB kC) (heap ℤ) :=
  C50_symm_left kA .lower kB kC _ _ _ (mholds bA) (mholds bB) (malloc bC) rfl rfl rfl rfl rfl rfl rfl (by kview_facts) (by kview_facts) (by kview_facts)

/-- **C50** `symmetric_matrix_right_product(exec, A, t, B, C)`: the native result. -/
theorem C50_symm_right [NonUnitalNonAssocSemiring α] (A : KMat) (t : Triangle) (B C : KMat)
    (h : Heap α) (a b : Nat → Nat → α) (hA : A.toMat.HoldsOn h t.region a)
    (hB : B.toMat.Holds h b) (hC : C.toMat.Alloc h) (hAt : A.transposed = false)
    (hCt : C.transposed = false)
    (hsq : A.rows = A.cols) (hBA : B.cols = A.rows) (hBC : B.rows = C.rows)
    (hAC : A.cols = C.cols) (hu : C.toMat.Unique)
    (hApC : Apart (A.toMat.CellOn t.region) C.toMat.Cell)
    (hBpC : Apart B.toMat.Cell C.toMat.Cell) :
    SameOutcome (symmRight B.toMat.view A.toMat.view t C.toMat)
      (kkSymmRight A t B C) h :=
  same_mat
    (C32_symm_right _ _ _ _ _ _ _ (Mat.HoldsOn.toView hA) (Mat.HoldsOn.toView hB) hC hsq hBC.symm hBA hAC.symm hu hApC hBpC)
    (C48_symm_right A t B C h a b hA hB hC hAt hCt hsq hBA hBC hAC hu hApC hBpC)
    fun i j _ _ _ => by
      rw [show (B.toMat.view : MatV α).cols = A.cols from hBA.trans hsq]

example : SameOutcome (symmRight kB.toMat.view kA.toMat.view .upper kC.toMat)
    (kkSymmRight kA .upper kB kC) (heap ℤ) :=
  C50_symm_right kA .upper kB kC _ _ _ (mholds bA) (mholds bB) (malloc bC) rfl rfl rfl rfl rfl rfl (by kview_facts) (by kview_facts) (by kview_facts)

/-- **C50** `hermitian_matrix_left_product(exec, A, t, B, C)` when the stored diagonal is real: the native result. -/
theorem C50_hemm_left_partial [NonUnitalNonAssocSemiring α] [ConjOps α] (A : KMat) (t : Triangle)
    (B C : KMat)
    (h : Heap α) (a b : Nat → Nat → α) (hA : A.toMat.HoldsOn h t.region a)
    (hB : B.toMat.Holds h b) (hC : C.toMat.Alloc h) (hAt : A.transposed = false)
    (hBt : B.transposed = false) (hCt : C.transposed = false)
    (hsq : A.rows = A.cols) (hAB : A.cols = B.rows) (hAC : A.rows = C.rows)
    (hBC : B.cols = C.cols) (hu : C.toMat.Unique)
    (hApC : Apart (A.toMat.CellOn t.region) C.toMat.Cell)
    (hBpC : Apart B.toMat.Cell C.toMat.Cell)
    (hreal : ∀ i, i < A.rows → ConjOps.re (a i i) = a i i ∧ ConjOps.conj (a i i) = a i i) :
    SameOutcome (hemmLeft A.toMat.view t B.toMat.view C.toMat)
      (kkHemmLeft A t B C) h :=
  same_mat
    (C33_hemm_left _ _ _ _ _ _ _ (Mat.HoldsOn.toView hA) (Mat.HoldsOn.toView hB) hC hsq hAC.symm hAB hBC.symm hu hApC hBpC)
    (C48_hemm_left A t B C h a b hA hB hC hAt hBt hCt hsq hAB hAC hBC hu hApC hBpC)
    fun i j hi _ _ => by
      have hi' : i < A.rows := by rw [hAC]; exact hi
      refine Finset.sum_congr rfl fun k _ => ?_
      beta_reduce
      split
      · next e =>
        subst e
        rw [hermOf, if_pos rfl, (hreal i hi').1, (hreal i hi').2]
      · rfl

example : SameOutcome (hemmLeft kA.toMat.view .lower kB.toMat.view kC.toMat)
    (kkHemmLeft kA .lower kB kC) (heap ℂ) :=
  C50_hemm_left_partial kA .lower kB kC _ _ _ (mholds bA) (mholds bB) (malloc bC) rfl rfl rfl rfl rfl rfl rfl (by kview_facts) (by kview_facts) (by kview_facts)
    (by intro i _; constructor <;> simp [mvals, ConjOps.re, ConjOps.conj, Complex.conj_ofNat])

/-- **C50** `hermitian_matrix_right_product(exec, A, t, B, C)` when the stored diagonal is real: the native result. -/
theorem C50_hemm_right_partial [NonUnitalNonAssocSemiring α] [ConjOps α] (A : KMat) (t : Triangle)
    (B C : KMat)
    (h : Heap α) (a b : Nat → Nat → α) (hA : A.toMat.HoldsOn h t.region a)
    (hB : B.toMat.Holds h b) (hC : C.toMat.Alloc h) (hAt : A.transposed = false)
    (hCt : C.transposed = false)
    (hsq : A.rows = A.cols) (hBA : B.cols = A.rows) (hBC : B.rows = C.rows)
    (hAC : A.cols = C.cols) (hu : C.toMat.Unique)
    (hApC : Apart (A.toMat.CellOn t.region) C.toMat.Cell)
    (hBpC : Apart B.toMat.Cell C.toMat.Cell)
    (hreal : ∀ i, i < A.rows → ConjOps.re (a i i) = a i i ∧ ConjOps.conj (a i i) = a i i) :
    SameOutcome (hemmRight B.toMat.view A.toMat.view t C.toMat)
      (kkHemmRight A t B C) h :=
  same_mat
    (C33_hemm_right_uses_stored_diagonal _ _ _ _ _ _ _ (Mat.HoldsOn.toView hA) (Mat.HoldsOn.toView hB) hC hsq hBC.symm hBA hAC.symm hu hApC hBpC)
    (C48_hemm_right A t B C h a b hA hB hC hAt hCt hsq hBA hBC hAC hu hApC hBpC)
    fun i j _ hj _ => by
      have hj' : j < A.rows := by rw [hsq, hAC]; exact hj
      rw [show (B.toMat.view : MatV α).cols = A.cols from hBA.trans hsq]
      refine Finset.sum_congr rfl fun k _ => ?_
      beta_reduce
      split
      · next e =>
        subst e
        rw [(hreal k hj').2]
      · rfl

example : SameOutcome (hemmRight kB.toMat.view kA.toMat.view .upper kC.toMat)
    (kkHemmRight kA .upper kB kC) (heap ℂ) :=
  C50_hemm_right_partial kA .upper kB kC _ _ _ (mholds bA) (mholds bB) (malloc bC) rfl rfl rfl rfl rfl rfl (by kview_facts) (by kview_facts) (by kview_facts)
    (by intro i _; constructor <;> simp [mvals, ConjOps.re, ConjOps.conj, Complex.conj_ofNat])

/-- **C50** `triangular_matrix_left_product(exec, A, t, implicit_unit_diagonal, B, C)`: the native result. -/
theorem C50_trmm_left [NonAssocSemiring α] (A : KMat) (t : Triangle) (B C : KMat)
    (h : Heap α) (a b : Nat → Nat → α) (hA : A.toMat.HoldsOn h (triRegion t .implicitUnit) a)
    (hB : B.toMat.Holds h b) (hC : C.toMat.Alloc h) (hAt : A.transposed = false)
    (hBt : B.transposed = false) (hCt : C.transposed = false)
    (hsq : A.rows = A.cols) (hAB : A.cols = B.rows) (hAC : A.rows = C.rows)
    (hBC : B.cols = C.cols) (hu : C.toMat.Unique)
    (hApC : Apart (A.toMat.CellOn (triRegion t .implicitUnit)) C.toMat.Cell)
    (hBpC : Apart B.toMat.Cell C.toMat.Cell) :
    SameOutcome (trmmLeft A.toMat.view t .implicitUnit B.toMat.view C.toMat)
      (kkTrmmLeft A t B C) h :=
  same_mat
    (C35_trmm_left _ _ _ _ _ _ _ _ (Mat.HoldsOn.toView hA) (Mat.HoldsOn.toView hB) hC hsq hAC.symm hAB hBC.symm hu hApC hBpC)
    (C48_trmm_left A t B C h a b hA hB hC hAt hBt hCt hsq hAB hAC hBC hu hApC hBpC)
    (fun _ _ _ _ _ => rfl)

example : SameOutcome (trmmLeft kA.toMat.view .lower .implicitUnit kB.toMat.view kC.toMat)
    (kkTrmmLeft kA .lower kB kC) (heap ℤ) :=
  C50_trmm_left kA .lower kB kC _ _ _ (mholds bA) (mholds bB) (malloc bC) rfl rfl rfl rfl rfl rfl rfl (by kview_facts) (by kview_facts) (by kview_facts)

/-- **C50** `triangular_matrix_right_product(exec, A, t, implicit_unit_diagonal, B, C)`: the native result. -/
theorem C50_trmm_right [NonAssocSemiring α] (A : KMat) (t : Triangle) (B C : KMat)
    (h : Heap α) (a b : Nat → Nat → α) (hA : A.toMat.HoldsOn h (triRegion t .implicitUnit) a)
    (hB : B.toMat.Holds h b) (hC : C.toMat.Alloc h) (hAt : A.transposed = false)
    (hBt : B.transposed = false) (hCt : C.transposed = false)
    (hsq : A.rows = A.cols) (hBA : B.cols = A.rows) (hBC : B.rows = C.rows)
    (hAC : A.cols = C.cols) (hu : C.toMat.Unique)
    (hApC : Apart (A.toMat.CellOn (triRegion t .implicitUnit)) C.toMat.Cell)
    (hBpC : Apart B.toMat.Cell C.toMat.Cell) :
    SameOutcome (trmmRight B.toMat.view A.toMat.view t .implicitUnit C.toMat)
      (kkTrmmRight A t B C) h :=
  same_mat
    (C35_trmm_right _ _ _ _ _ _ _ _ (Mat.HoldsOn.toView hA) (Mat.HoldsOn.toView hB) hC hsq hBC.symm hBA hAC.symm hu hApC hBpC)
    (C48_trmm_right A t B C h a b hA hB hC hAt hBt hCt hsq hBA hBC hAC hu hApC hBpC)
    fun i j _ _ _ => by
      rw [show (B.toMat.view : MatV α).cols = A.cols from hBA.trans hsq]

example : SameOutcome (trmmRight kB.toMat.view kA.toMat.view .lower .implicitUnit kC.toMat)
    (kkTrmmRight kA .lower kB kC) (heap ℤ) :=
  C50_trmm_right kA .lower kB kC _ _ _ (mholds bA) (mholds bB) (malloc bC) rfl rfl rfl rfl rfl rfl rfl (by kview_facts) (by kview_facts) (by kview_facts)

/-- **C50** `triangular_matrix_left_product(exec, A, t, implicit_unit_diagonal, C)`: the native result. -/
theorem C50_trmm_left_in_place [NonAssocSemiring α] (A : KMat) (t : Triangle) (C : KMat)
    (h : Heap α) (a c : Nat → Nat → α) (hA : A.toMat.HoldsOn h (triRegion t .implicitUnit) a)
    (hC : C.toMat.Holds h c) (hAt : A.transposed = false) (hCt : C.transposed = false)
    (hsq : A.rows = A.cols) (hAC : A.rows = C.rows) (hu : C.toMat.Unique)
    (hApC : Apart (A.toMat.CellOn (triRegion t .implicitUnit)) C.toMat.Cell) :
    SameOutcome (trmmLeftInPlace A.toMat.view t .implicitUnit C.toMat)
      (kkTrmmLeftInPlace A t C) h :=
  same_mat
    (C36_trmm_left_in_place _ _ _ _ _ _ _ (Mat.HoldsOn.toView hA) hC hsq hAC.symm hu hApC)
    (C48_trmm_left_in_place A t C h a c hA hC hAt hCt hsq hAC hu hApC)
    (fun _ _ _ _ _ => rfl)

example : SameOutcome (trmmLeftInPlace kA.toMat.view .upper .implicitUnit kC.toMat)
    (kkTrmmLeftInPlace kA .upper kC) (heap ℤ) :=
  C50_trmm_left_in_place kA .upper kC _ _ _ (mholds bA) (mholds bC) rfl rfl rfl rfl (by kview_facts) (by kview_facts)

/-- **C50** `triangular_matrix_right_product(exec, A, t, implicit_unit_diagonal, C)`: the native result. -/
theorem C50_trmm_right_in_place [NonAssocSemiring α] (A : KMat) (t : Triangle) (C : KMat)
    (h : Heap α) (a c : Nat → Nat → α) (hA : A.toMat.HoldsOn h (triRegion t .implicitUnit) a)
    (hC : C.toMat.Holds h c) (hAt : A.transposed = false) (hCt : C.transposed = false)
    (hsq : A.rows = A.cols) (hAC : C.cols = A.rows) (hu : C.toMat.Unique)
    (hApC : Apart (A.toMat.CellOn (triRegion t .implicitUnit)) C.toMat.Cell) :
    SameOutcome (trmmRightInPlace A.toMat.view t .implicitUnit C.toMat)
      (kkTrmmRightInPlace A t C) h :=
  same_mat
    (C36_trmm_right_in_place _ _ _ _ _ _ _ (Mat.HoldsOn.toView hA) hC hsq (hAC.trans hsq) hu hApC)
    (C48_trmm_right_in_place A t C h a c hA hC hAt hCt hsq hAC hu hApC)
    (fun i j _ _ _ => by rw [hAC.trans hsq])

example : SameOutcome (trmmRightInPlace kA.toMat.view .upper .implicitUnit kC.toMat)
    (kkTrmmRightInPlace kA .upper kC) (heap ℤ) :=
  C50_trmm_right_in_place kA .upper kC _ _ _ (mholds bA) (mholds bC) rfl rfl rfl rfl (by kview_facts) (by kview_facts)

/-! ## swap_elements -/

/-- **C50** `swap_elements(exec, x, y)`, rank 1: the native result. -/
theorem C50_swap_vector (x y : KVec) (h : Heap α) (f g : Nat → α) (hx : x.mdspan.Holds h f)
    (hy : y.mdspan.Holds h g) (hxs : x.stride = 1) (hys : y.stride = 1) (hext : x.ext = y.ext)
    (hal : x.mdspan.Aligned y.mdspan) :
    SameOutcome (swap1 x.mdspan y.mdspan) (kkSwap1 x y) h := by
  refine same_swap (P := fun h' => x.mdspan.Holds h' g ∧ y.mdspan.Holds h' f) ?_
    ((C10_swap_vector _ _ _ _ _ hx hy hext (KVec.mdspan_unique hxs) (KVec.mdspan_unique hys)
      hal).mono fun _ _ r => ⟨⟨r.1, r.2.1⟩, r.2.2⟩)
    ((C48_swap_vector x y h f g hx hy hxs hys hext hal).mono fun _ _ r => ⟨⟨r.1, r.2.1⟩, r.2.2⟩)
  rintro h1 h2 ⟨a1, b1⟩ ⟨a2, b2⟩ _ (⟨i, hi, rfl⟩ | ⟨i, hi, rfl⟩)
  · rw [a1 i hi, a2 i hi]
  · rw [b1 i hi, b2 i hi]

example : SameOutcome (swap1 kx.mdspan ky.mdspan) (kkSwap1 kx ky) (heap ℤ) :=
  C50_swap_vector _ _ _ _ _ (holds bkx) (holds bky) rfl rfl rfl (by kview_facts)

/-- **C50** `swap_elements(exec, x, y)`, rank 2: the native result. -/
theorem C50_swap_matrix (x y : KMat) (h : Heap α) (f g : Nat → Nat → α)
    (hx : x.toMat.Holds h f) (hy : y.toMat.Holds h g) (hxt : x.transposed = false)
    (hyt : y.transposed = false) (hr : x.rows = y.rows) (hc : x.cols = y.cols)
    (hux : x.toMat.Unique) (huy : y.toMat.Unique) (hal : x.toMat.Aligned y.toMat) :
    SameOutcome (swap2 x.toMat y.toMat) (kkSwap2 x y) h := by
  refine same_swap (P := fun h' => x.toMat.Holds h' g ∧ y.toMat.Holds h' f) ?_
    ((C10_swap_matrix _ _ _ _ _ hx hy hr hc hux huy hal).mono
      fun _ _ r => ⟨⟨r.1, r.2.1⟩, r.2.2⟩)
    ((C48_swap_matrix x y h f g hx hy hxt hyt hr hc hux huy hal).mono
      fun _ _ r => ⟨⟨r.1, r.2.1⟩, r.2.2⟩)
  rintro h1 h2 ⟨a1, b1⟩ ⟨a2, b2⟩ _ (⟨i, j, hi, hj, hr, rfl⟩ | ⟨i, j, hi, hj, hr, rfl⟩)
  · rw [a1 i j hi hj hr, a2 i j hi hj hr]
  · rw [b1 i j hi hj hr, b2 i j hi hj hr]

example : SameOutcome (swap2 kA.toMat kB.toMat) (kkSwap2 kA kB) (heap ℤ) :=
  C50_swap_matrix _ _ _ _ _ (mholds bA) (mholds bB) rfl rfl rfl rfl (by kview_facts)
    (by kview_facts) (by kview_facts)

/-! ## Reductions -/

/-- **C50** `dot(exec, x, y, init)`: the native result (exact arithmetic). -/
theorem C50_dot [NonUnitalNonAssocSemiring α] (x y : KVec) (init : α) (h : Heap α)
    (f g : Nat → α) (hx : x.mdspan.Holds h f) (hy : y.mdspan.Holds h g) (cx : x.stride = 1)
    (cy : y.stride = 1) (hext : x.ext = y.ext) :
    SameOutcome (dot x.mdspan.view y.mdspan.view init) (kkDot x y init) h :=
  same_value (C01_dot _ _ _ _ _ _ (Vec.Holds.toView hx) (Vec.Holds.toView hy) hext.le)
    (C49_dot x y init h f g hx hy cx cy hext) rfl

example : SameOutcome (dot kx.mdspan.view ky.mdspan.view 10) (kkDot kx ky 10) (heap ℤ) :=
  C50_dot _ _ _ _ _ _ (holds bkx) (holds bky) rfl rfl rfl

/-- **C50** `vector_abs_sum(exec, x, init)`, real elements: the native result.  Missing: complex
elements, for which the results differ, `C50_abs_sum_complex_false`. -/
theorem C50_abs_sum_partial (x : KVec) (init : ℝ) (h : Heap ℝ) (f : Nat → ℝ)
    (hx : x.mdspan.Holds h f) (cx : x.stride = 1) :
    SameOutcome (vectorAbsSum x.mdspan.view init) (kkAbsSum x init) h :=
  same_value (C05_abs_sum_real _ _ _ _ (Vec.Holds.toView hx)) (C49_abs_sum x init h f hx cx) rfl

example : SameOutcome (vectorAbsSum kx.mdspan.view 10) (kkAbsSum kx 10) (heap ℝ) :=
  C50_abs_sum_partial _ _ _ _ (holds bkx) rfl

/-- **C50** `vector_two_norm(exec, x, init)` with `init = 0`: the native result.  Missing: other
initial values, `C50_norm2_init_false`. -/
theorem C50_norm2_partial [AbsOps α] [LawfulAbs α] (x : KVec) (h : Heap α) (f : Nat → α)
    (hx : x.mdspan.Holds h f) (cx : x.stride = 1) :
    SameOutcome (vectorTwoNorm x.mdspan.view 0) (kkNorm2 x 0) h :=
  same_value (C04_two_norm _ _ _ _ (Vec.Holds.toView hx)) (C49_norm2 x 0 h f hx cx)
    (by rw [zero_add, zero_add]; rfl)

example : SameOutcome (vectorTwoNorm kx.mdspan.view 0) (kkNorm2 kx 0) (heap ℂ) :=
  C50_norm2_partial _ _ _ (holds bkx) rfl

/-- **C50** `vector_sum_of_squares(exec, x, init)` when the largest magnitude `m` of `x` is
positive and at least the initial scaling factor: the native result.  Missing: the other cases,
`C50_sum_of_squares_init_false`, `C50_sum_of_squares_zero_vector_false`,
`C50_sum_of_squares_empty_false`. -/
theorem C50_sum_of_squares_partial [AbsOps α] [LawfulAbs α] (low : ℝ) (x : KVec)
    (init : SumOfSquares) (h : Heap α)
    (f : Nat → α) (hx : x.mdspan.Holds h f) (cx : x.stride = 1) (hlow : low ≤ 0) (m : ℝ)
    (hm : ∃ k < x.ext, AbsOps.abs (f k) = m) (hm' : ∀ k < x.ext, AbsOps.abs (f k) ≤ m)
    (hpos : 0 < m) (h0 : 0 ≤ init.scalingFactor) (hle : init.scalingFactor ≤ m) :
    SameOutcome (vectorSumOfSquares x.mdspan.view init) (kkSumOfSquares low x init) h := by
  have n := C03_sum_of_squares x.mdspan.view init h f (Vec.Holds.toView hx)
  have k := C49_sum_of_squares low x init h f hx cx hlow m hm hm' hpos
  have key : ∀ s q : ℝ, s = m → s ^ 2 * q = init.scalingFactor ^ 2 * init.scaledSumOfSquares +
      ∑ k ∈ range x.ext, AbsOps.abs (f k) ^ 2 →
      q = (init.scalingFactor ^ 2 * init.scaledSumOfSquares +
        ∑ k ∈ range x.ext, AbsOps.abs (f k) ^ 2) / m ^ 2 := by
    rintro s q rfl e
    rw [← e]
    field_simp
  refine same_value (v := ⟨m, (init.scalingFactor ^ 2 * init.scaledSumOfSquares +
        ∑ k ∈ range x.ext, AbsOps.abs (f k) ^ 2) / m ^ 2⟩) (n.mono ?_) (k.mono ?_) rfl
  · rintro ⟨s, q⟩ h' ⟨rfl, e, r⟩
    obtain ⟨⟨r1, r2, r3⟩, -⟩ := r h0
    have es : s = m := by
      obtain ⟨k, hk, ek⟩ := hm
      apply le_antisymm
      · rcases r3 with r3 | ⟨k', hk', r3⟩
        · exact le_trans (le_of_eq r3) hle
        · exact le_trans (le_of_eq r3) (hm' k' hk')
      · rw [← ek]; exact r2 k hk
    refine ⟨?_, rfl⟩
    rw [key s q es e, es]
  · rintro ⟨s, q⟩ h' ⟨rfl, e, r⟩
    refine ⟨?_, rfl⟩
    simp only at e r
    have es : s = m := by rw [e, max_eq_left hle]
    subst es
    rw [r]
    congr 1
    rw [add_div, Finset.sum_div, add_comm]
    congr 1
    exact Finset.sum_congr rfl fun k _ => div_pow _ _ _

example : SameOutcome (vectorSumOfSquares kx.mdspan.view ⟨2, 5⟩) (kkSumOfSquares (-100) kx ⟨2, 5⟩)
    (heap ℝ) := by
  refine C50_sum_of_squares_partial (-100) kx ⟨2, 5⟩ _ _ (holds bkx) rfl (by norm_num) 7
    ⟨0, by decide, ?_⟩ ?_ (by norm_num) (by norm_num) (by norm_num)
  · simp [vals, kx, KVec.mdspan, AbsOps.abs]
  · intro k hk
    simp only [kx] at hk
    interval_cases k <;> norm_num [vals, kx, KVec.mdspan, AbsOps.abs]

/-- Two largest elements of the same finite family are equal. -/
theorem largest_unique {n : Nat} {s : Nat → ℝ} {r r' : ℝ} (h1 : (∃ i < n, r = s i) ∧ ∀ i < n, s i ≤ r)
    (h2 : (∃ i < n, r' = s i) ∧ ∀ i < n, s i ≤ r') : r = r' := by
  obtain ⟨⟨i, hi, e⟩, m⟩ := h1
  obtain ⟨⟨j, hj, e'⟩, m'⟩ := h2
  exact le_antisymm (e ▸ m' i hi) (e' ▸ m j hj)

/-- **C50** `matrix_inf_norm(exec, A, init)`: the native result. -/
theorem C50_inf_norm [AbsOps α] [LawfulAbs α] (low : ℝ) (A : KMat) (init : ℝ) (h : Heap α)
    (f : Nat → Nat → α) (hA : A.Holds h f) (cA : A.transposed = false) (hlow : low ≤ 0) :
    SameOutcome (matrixInfNorm A.toMat.view init) (kkInfNorm low A init) h := by
  refine same_of ?_ (C08_inf_norm A.toMat.view init h f (Mat.HoldsOn.toView hA))
    (C49_inf_norm low A init h f hA cA hlow)
  rintro b h1 b' h2 ⟨rfl, e1, l1⟩ ⟨rfl, e2, l2⟩
  refine ⟨?_, rfl⟩
  by_cases z : A.rows = 0 ∨ A.cols = 0
  · rw [e1 z, e2 z]
  · exact largest_unique (l1 (fun e => z (.inl e)) fun e => z (.inr e))
      (l2 (fun e => z (.inl e)) fun e => z (.inr e))

example : SameOutcome (matrixInfNorm kT.toMat.view 1) (kkInfNorm (-100) kT 1) (heap ℂ) :=
  C50_inf_norm _ _ _ _ _ (mholds bT) rfl (by norm_num)

/-- **C50** `matrix_frob_norm(exec, A, init)` of at most one element: the native result.  Missing:
more elements, `C50_frob_norm_init_false`, `C50_frob_norm_zero_matrix_false`; there the native
result is itself wrong for some matrices, `C07_frob_norm_false`. -/
theorem C50_frob_norm_partial [AbsOps α] (low : ℝ) (A : KMat) (init : ℝ) (h : Heap α)
    (f : Nat → Nat → α) (hA : A.Holds h f) (hle : A.rows * A.cols ≤ 1) :
    SameOutcome (matrixFrobNorm A.toMat.view init) (kkFrobNorm low A init) h := by
  by_cases z : A.rows = 0 ∨ A.cols = 0
  · refine same_value (v := init) (w := init) ?_ ?_ rfl
    · unfold matrixFrobNorm
      rw [if_pos (show A.toMat.view.rows = 0 ∨ A.toMat.view.cols = 0 from z)]
      exact ends_pure.2 ⟨rfl, rfl⟩
    · unfold kkFrobNorm
      rw [if_pos z]
      exact surely_pure.2 ⟨rfl, rfl⟩
  · have one : A.rows = 1 ∧ A.cols = 1 := by
      rw [not_or] at z
      have h1 := Nat.pos_of_ne_zero z.1
      have h2 := Nat.pos_of_ne_zero z.2
      constructor <;> nlinarith
    have hA0 := hA 0 0 (by omega) (by omega) trivial
    refine same_value (v := init + AbsOps.abs (f 0 0)) ?_ ?_ rfl
    · unfold matrixFrobNorm
      rw [if_neg (show ¬(A.toMat.view.rows = 0 ∨ A.toMat.view.cols = 0) from z),
        if_pos (show A.toMat.view.rows = 1 ∧ A.toMat.view.cols = 1 from one)]
      refine ends_bind.2 (ends_matV_get.2 ⟨?_, f 0 0, hA0, ends_pure.2 ⟨rfl, rfl⟩⟩)
      change 0 < A.rows ∧ 0 < A.cols
      omega
    · unfold kkFrobNorm
      rw [if_neg z, if_pos one]
      refine surely_bind (surely_lift.2 (ends_mat_get.2 ⟨by omega, f 0 0, hA0, ?_⟩))
      exact surely_pure.2 ⟨rfl, rfl⟩

example : SameOutcome (matrixFrobNorm (⟨1, 1, fun i j => i + j⟩ : Mat).view 2)
    (kkFrobNorm (-100) ⟨⟨1, 1, fun i j => i + j⟩, false⟩ 2) (heap ℝ) :=
  C50_frob_norm_partial (-100) ⟨⟨1, 1, fun i j => i + j⟩, false⟩ 2 (heap ℝ) _
    (mholds (m := ⟨1, 1, fun i j => i + j⟩) fun i j hi hj => by
      simp only at hi hj ⊢
      omega) (by decide)

/-- **C50** `matrix_one_norm(exec, A, init)`, unless `A` has columns but no rows: the native
result.  Missing: that case, `C50_one_norm_no_rows_false`. -/
theorem C50_one_norm_partial [AbsOps α] [LawfulAbs α] (low : ℝ) (A : KMat) (init : ℝ) (h : Heap α)
    (f : Nat → Nat → α) (hA : A.Holds h f) (cA : A.transposed = false) (hlow : low ≤ 0)
    (hrows : A.rows = 0 → A.cols = 0) :
    SameOutcome (matrixOneNorm A.toMat.view init) (kkOneNorm low A init) h := by
  have k := C49_one_norm low A init h f hA cA hlow hrows
  refine same_of ?_ (C08_one_norm A.toMat.view init h f (Mat.HoldsOn.toView hA))
    (k.mono fun r h' e => ⟨e.1, fun z => e.2.1 (z.elim hrows id), fun _ z => e.2.2 z⟩)
  rintro b h1 b' h2 ⟨rfl, e1, l1⟩ ⟨rfl, e2, l2⟩
  refine ⟨?_, rfl⟩
  by_cases z : A.rows = 0 ∨ A.cols = 0
  · rw [e1 z, e2 z]
  · exact largest_unique (l1 (fun e => z (.inl e)) fun e => z (.inr e))
      (l2 (fun e => z (.inl e)) fun e => z (.inr e))

example : SameOutcome (matrixOneNorm kW.toMat.view 1) (kkOneNorm (-100) kW 1) (heap ℤ) :=
  C50_one_norm_partial _ _ _ _ _ (mholds bW) rfl (by norm_num) (by decide)

end StdBLAS

import Verif.Lemmas.KokkosLib
import Verif.Lemmas.KokkosChecks
import Verif.Props.KokkosWitness
import Verif.Props.Blas3Products
import Verif.Props.Blas2Solve
import Verif.Props.KokkosChecks
import Mathlib.Tactic.NormNum

/-!
# C53: the algorithms of the Kokkos backend that call KokkosKernels

Each theorem assumes that the called library functions do what `Spec/KokkosLib.lean` says, and
that vectors have stride 1 and matrices are not transposed views (except where a transposed view
is the point).  `refLib` (`Lemmas/KokkosLib.lean`) meets all the assumptions; the examples use it.
The theorems named C50 compare with the native implementation, those named C52 are about
arguments of wrong sizes.
-/

namespace StdBLAS
open Finset Witness
variable {α : Type}

/-! ## BLAS 1 -/

/-- **C53** `copy(exec, x, y)`, rank 1: `y` becomes `x`. -/
theorem C53_copy_vector (K : KokkosLib α) (hK : K.DeepCopyOk) (x y : KVec) (h : Heap α)
    (f : Nat → α) (hx : x.mdspan.Holds h f) (hy : y.mdspan.Alloc h) (hxs : x.stride = 1)
    (hys : y.stride = 1) (he : x.ext = y.ext)
    (hd : Apart x.mdspan.Cell y.mdspan.Cell ∨ y.mdspan = x.mdspan) :
    Surely (kkCopy1 K x y) h fun _ h' => y.mdspan.Becomes h h' f := by
  unfold kkCopy1
  rw [KVec.view_eq hxs, KVec.view_eq hys]
  exact hK.vec _ _ h f hx hy he.symm (KVec.mdspan_unique hys) hd

example : Surely (kkCopy1 (refLib Uplo.standard abs) kx ky) (heap ℝ) fun _ h' =>
    ky.mdspan.Becomes (heap ℝ) h' (vals ℝ kx.mdspan) :=
  C53_copy_vector _ (refLib_deepCopy ..) kx ky _ _ (holds bkx) (alloc bky) rfl rfl rfl
    (Or.inl (by kview_facts))

/-- **C53** `copy(exec, x, y)`, rank 2, equal layouts: `y` becomes `x`. -/
theorem C53_copy_matrix (K : KokkosLib α) (hK : K.DeepCopyOk) (x y : KMat) (h : Heap α)
    (f : Nat → Nat → α) (hx : x.toMat.Holds h f) (hy : y.toMat.Alloc h)
    (hxt : x.transposed = false) (hyt : y.transposed = false) (hr : x.rows = y.rows)
    (hc : x.cols = y.cols) (hu : y.toMat.Unique)
    (hd : Apart x.toMat.Cell y.toMat.Cell ∨ y.toMat = x.toMat) :
    Surely (kkCopySame2 K x y) h fun _ h' => y.toMat.Becomes h h' f := by
  unfold kkCopySame2
  rw [KMat.view_eq hxt, KMat.view_eq hyt]
  exact hK.mat _ _ h f hx hy hr.symm hc.symm hu hd

example : Surely (kkCopySame2 (refLib Uplo.standard abs) kA kE) (heap ℝ) fun _ h' =>
    kE.toMat.Becomes (heap ℝ) h' (mvals ℝ A) :=
  C53_copy_matrix _ (refLib_deepCopy ..) kA kE _ _ (mholds bA) (malloc bE) rfl rfl rfl rfl
    (by kview_facts) (Or.inl (by kview_facts))

/-- **C53** `add(exec, x, y, z)`, rank 1: `z = x + y`. -/
theorem C53_add_vector [NonAssocSemiring α] (K : KokkosLib α) (hK : K.UpdateOk) (x y z : KVec)
    (h : Heap α) (f g : Nat → α) (hx : x.mdspan.Holds h f) (hy : y.mdspan.Holds h g)
    (hz : z.mdspan.Alloc h) (hxs : x.stride = 1) (hys : y.stride = 1) (hzs : z.stride = 1)
    (hxy : x.ext = y.ext) (hyz : y.ext = z.ext) (hax : x.mdspan.Aligned z.mdspan)
    (hay : y.mdspan.Aligned z.mdspan) :
    Surely (kkAdd1 K x y z) h fun _ h' => z.mdspan.Becomes h h' fun i => f i + g i := by
  unfold kkAdd1
  rw [KVec.view_eq hxs, KVec.view_eq hys, KVec.view_eq hzs]
  refine surely_require_bind hxy (surely_require_bind hyz ?_)
  refine (hK.vec 1 _ 1 _ _ h f g hx hy hz (hxy.trans hyz) hyz (KVec.mdspan_unique hzs) hax
    hay).mono fun _ h' hb => ?_
  simpa only [one_mul] using hb

example : Surely (kkAdd1 (refLib Uplo.standard abs) kx ky ky) (heap ℝ) fun _ h' =>
    ky.mdspan.Becomes (heap ℝ) h' fun i => vals ℝ kx.mdspan i + vals ℝ ky.mdspan i :=
  C53_add_vector _ (refLib_update ..) kx ky ky _ _ _ (holds bkx) (holds bky) (alloc bky) rfl rfl rfl
    rfl rfl (by kview_facts) (by kview_facts)

/-- **C53** `add(exec, x, y, z)`, rank 2: `z = x + y`. -/
theorem C53_add_matrix [NonAssocSemiring α] (K : KokkosLib α) (hK : K.UpdateOk) (x y z : KMat)
    (h : Heap α) (f g : Nat → Nat → α) (hx : x.toMat.Holds h f) (hy : y.toMat.Holds h g)
    (hz : z.toMat.Alloc h) (hxt : x.transposed = false) (hyt : y.transposed = false)
    (hzt : z.transposed = false) (hxyr : x.rows = y.rows) (hyzr : y.rows = z.rows)
    (hxyc : x.cols = y.cols) (hyzc : y.cols = z.cols) (hu : z.toMat.Unique)
    (hax : x.toMat.Aligned z.toMat) (hay : y.toMat.Aligned z.toMat) :
    Surely (kkAdd2 K x y z) h fun _ h' => z.toMat.Becomes h h' fun i j => f i j + g i j := by
  unfold kkAdd2
  rw [KMat.view_eq hxt, KMat.view_eq hyt, KMat.view_eq hzt]
  refine surely_require_bind hxyr (surely_require_bind hyzr (surely_require_bind hxyc
    (surely_require_bind hyzc ?_)))
  refine (hK.mat 1 _ 1 _ _ h f g hx hy hz (hxyr.trans hyzr) hyzr (hxyc.trans hyzc) hyzc hu hax
    hay).mono fun _ h' hb => ?_
  simpa only [one_mul] using hb

example : Surely (kkAdd2 (refLib Uplo.standard abs) kA kB kC) (heap ℝ) fun _ h' =>
    kC.toMat.Becomes (heap ℝ) h' fun i j => mvals ℝ A i j + mvals ℝ B i j :=
  C53_add_matrix _ (refLib_update ..) kA kB kC _ _ _ (mholds bA) (mholds bB) (malloc bC) rfl rfl rfl
    rfl rfl rfl rfl (by kview_facts) (by kview_facts) (by kview_facts)

/-- **C53** `scale(exec, alpha, x)`, rank 1: every element is multiplied from the left. -/
theorem C53_scale_vector [Mul α] (K : KokkosLib α) (hK : K.ScalOk) (alpha : α) (x : KVec)
    (h : Heap α) (f : Nat → α) (hx : x.mdspan.Holds h f) (hxs : x.stride = 1) :
    Surely (kkScale1 K alpha x) h fun _ h' => x.mdspan.Becomes h h' fun i => alpha * f i := by
  unfold kkScale1
  rw [KVec.view_eq hxs]
  exact hK.vec alpha _ h f hx (KVec.mdspan_unique hxs)

example : Surely (kkScale1 (refLib Uplo.standard abs) 3 kx) (heap ℝ) fun _ h' =>
    kx.mdspan.Becomes (heap ℝ) h' fun i => 3 * vals ℝ kx.mdspan i :=
  C53_scale_vector _ (refLib_scal ..) 3 kx _ _ (holds bkx) rfl

/-- **C53** `scale(exec, alpha, x)`, rank 2. -/
theorem C53_scale_matrix [Mul α] (K : KokkosLib α) (hK : K.ScalOk) (alpha : α) (x : KMat)
    (h : Heap α) (f : Nat → Nat → α) (hx : x.toMat.Holds h f) (hxt : x.transposed = false)
    (hu : x.toMat.Unique) :
    Surely (kkScale2 K alpha x) h fun _ h' =>
      x.toMat.Becomes h h' fun i j => alpha * f i j := by
  unfold kkScale2
  rw [KMat.view_eq hxt]
  exact hK.mat alpha _ h f hx hu

example : Surely (kkScale2 (refLib Uplo.standard abs) 3 kB) (heap ℝ) fun _ h' =>
    kB.toMat.Becomes (heap ℝ) h' fun i j => 3 * mvals ℝ B i j :=
  C53_scale_matrix _ (refLib_scal ..) 3 kB _ _ (mholds bB) rfl (by kview_facts)

/-- **C53** `dotc(exec, x, y, init)`: `init` plus the sum of `conj(x(i)) * y(i)`. -/
theorem C53_dotc [NonUnitalNonAssocSemiring α] [ConjOps α] (K : KokkosLib α) (hK : K.DotOk)
    (x y : KVec) (init : α) (h : Heap α) (f g : Nat → α) (hx : x.mdspan.Holds h f)
    (hy : y.mdspan.Holds h g) (hxs : x.stride = 1) (hys : y.stride = 1) (he : x.ext = y.ext) :
    Surely (kkDotc K x y init) h fun r h' =>
      r = init + ∑ i ∈ range x.ext, ConjOps.conj (f i) * g i ∧ h' = h := by
  unfold kkDotc
  rw [KVec.view_eq hxs, KVec.view_eq hys]
  refine surely_require_bind he (surely_bind ((hK _ _ h f g hx hy he).mono ?_))
  rintro r h' ⟨rfl, rfl⟩
  exact surely_pure.2 ⟨add_comm .., rfl⟩

example : Surely (kkDotc (refLib Uplo.standard norm) kx ky 5) (heap ℂ) fun r h' =>
    r = 5 + ∑ i ∈ range 3, ConjOps.conj (vals ℂ kx.mdspan i) * vals ℂ ky.mdspan i ∧ h' = heap ℂ :=
  C53_dotc _ (refLib_dot _ _) kx ky 5 _ _ _ (holds bkx) (holds bky) rfl rfl rfl

/-- **C53** `vector_idx_abs_max(exec, v)`: the first index of an element that is largest in
the measure of `iamax`, if there are elements. -/
theorem C53_idx_abs_max (K : KokkosLib α) (mag : α → ℝ) (hK : K.IamaxOk mag) (sizeMax : Nat)
    (v : KVec) (h : Heap α) (f : Nat → α) (hv : v.mdspan.Holds h f) (hvs : v.stride = 1)
    (hne : v.ext ≠ 0) (hle : v.ext ≤ sizeMax) :
    Surely (kkIdxAbsMax K sizeMax v) h fun r h' =>
      (r < v.ext ∧ (∀ k < v.ext, mag (f k) ≤ mag (f r)) ∧ ∀ k < r, mag (f k) < mag (f r)) ∧
        h' = h := by
  unfold kkIdxAbsMax
  rw [KVec.view_eq hvs]
  refine surely_bind ((hK _ h f hv).mono ?_)
  rintro r h' ⟨rfl, ⟨e, -⟩ | ⟨i, rfl, hi, hm, hf⟩⟩
  · exact absurd e hne
  · have hi' : i < v.ext := hi
    have e : (i + 1 + sizeMax) % (sizeMax + 1) = i := by
      rw [show i + 1 + sizeMax = i + (sizeMax + 1) by omega, Nat.add_mod_right,
        Nat.mod_eq_of_lt (by omega)]
    exact surely_pure.2 ⟨by rw [e]; exact ⟨hi, hm, hf⟩, rfl⟩

example : Surely (kkIdxAbsMax (refLib Uplo.standard abs) 255 kx) (heap ℝ) fun r h' =>
    (r < 3 ∧ (∀ k < 3, |vals ℝ kx.mdspan k| ≤ |vals ℝ kx.mdspan r|) ∧
      ∀ k < r, |vals ℝ kx.mdspan k| < |vals ℝ kx.mdspan r|) ∧ h' = heap ℝ :=
  C53_idx_abs_max _ _ (refLib_iamax _ _) 255 kx _ _ (holds bkx) rfl (by decide) (by decide)

/-- **C53** `vector_idx_abs_max(exec, v)` without elements: `0 - 1` wraps around to the value
that the native implementation returns. -/
theorem C53_idx_abs_max_empty [Nonempty α] (K : KokkosLib α) (mag : α → ℝ) (hK : K.IamaxOk mag)
    (sizeMax : Nat) (v : KVec) (h : Heap α) (he : v.ext = 0) :
    Surely (kkIdxAbsMax K sizeMax v) h fun r h' => r = sizeMax ∧ h' = h := by
  unfold kkIdxAbsMax
  have hv : v.view.ext = 0 := he
  obtain ⟨d⟩ := ‹Nonempty α›
  refine surely_bind ((hK v.view h (fun _ => d) (fun i hi => ?_)).mono ?_)
  · omega
  · rintro r h' ⟨rfl, ⟨-, rfl⟩ | ⟨i, -, hi, -⟩⟩
    · exact surely_pure.2 ⟨by rw [zero_add, Nat.mod_eq_of_lt (by omega)], rfl⟩
    · omega

example : Surely (kkIdxAbsMax (refLib Uplo.standard abs) 255 ⟨0, 7, 1⟩) (heap ℝ) fun r h' =>
    r = 255 ∧ h' = heap ℝ :=
  C53_idx_abs_max_empty _ _ (refLib_iamax _ _) 255 _ _ rfl

/-! ## Products -/

/-- **C53** `matrix_vector_product(exec, A, x, y)`: `y = A x`. -/
theorem C53_gemv [NonAssocSemiring α] (K : KokkosLib α) (hK : K.GemvOk) (A : KMat) (x y : KVec)
    (h : Heap α) (a : Nat → Nat → α) (f : Nat → α) (hA : A.toMat.Holds h a)
    (hx : x.mdspan.Holds h f) (hy : y.mdspan.Alloc h) (hAt : A.transposed = false)
    (hxs : x.stride = 1) (hys : y.stride = 1) (hAx : A.cols = x.ext) (hAy : A.rows = y.ext)
    (hApy : Apart A.toMat.Cell y.mdspan.Cell) (hxpy : Apart x.mdspan.Cell y.mdspan.Cell) :
    Surely (kkGemv K A x y) h fun _ h' => y.mdspan.Becomes h h' (mulVec A.cols a f) := by
  unfold kkGemv
  rw [KVec.view_eq hxs, KVec.view_eq hys, KMat.view_eq hAt]
  refine surely_require_bind hAx (surely_require_bind hAy ?_)
  refine (hK .N 1 _ _ _ h a f hA hx hy hAx hAy (KVec.mdspan_unique hys) hApy hxpy).mono
    fun _ h' hb => ?_
  simp only [one_mul] at hb
  exact hb

example : Surely (kkGemv (refLib Uplo.standard abs) kA kx ky) (heap ℝ) fun _ h' =>
    ky.mdspan.Becomes (heap ℝ) h' (mulVec 3 (mvals ℝ A) (vals ℝ kx.mdspan)) :=
  C53_gemv _ (refLib_gemv _ _) kA kx ky _ _ _ (mholds bA) (holds bkx) (alloc bky) rfl rfl rfl rfl
    rfl (by kview_facts) (by kview_facts)

/-- **C53** `matrix_vector_product(exec, transposed(A), x, y)`: the transposition is dropped, so
a square `A` (given here as the view `transposed(A)`, whose elements are `a`) is multiplied
instead of its transpose. -/
theorem C53_gemv_transposed_exact [NonAssocSemiring α] (K : KokkosLib α) (hK : K.GemvOk)
    (A : KMat) (x y : KVec) (h : Heap α) (a : Nat → Nat → α) (f : Nat → α)
    (hA : A.toMat.Holds h a) (hx : x.mdspan.Holds h f) (hy : y.mdspan.Alloc h)
    (hAt : A.transposed = true) (hxs : x.stride = 1) (hys : y.stride = 1)
    (hsq : A.rows = A.cols) (hAx : A.cols = x.ext) (hAy : A.rows = y.ext)
    (hApy : Apart A.toMat.Cell y.mdspan.Cell) (hxpy : Apart x.mdspan.Cell y.mdspan.Cell) :
    Surely (kkGemv K A x y) h fun _ h' =>
      y.mdspan.Becomes h h' (mulVec A.rows (fun i j => a j i) f) := by
  unfold kkGemv
  have hv : A.view = A.toMat.transposed := by simp [KMat.view, hAt]
  rw [KVec.view_eq hxs, KVec.view_eq hys, hv]
  refine surely_require_bind hAx (surely_require_bind hAy ?_)
  refine (hK .N 1 _ _ _ h _ f (Mat.transposed_holds hA) hx hy (hsq.trans hAx) (hsq.symm.trans hAy)
    (KVec.mdspan_unique hys) (Mat.transposed_apart hApy) hxpy).mono fun _ h' hb => ?_
  simp only [one_mul] at hb
  exact hb

example : Surely (kkGemv (refLib Uplo.standard abs) ⟨A, true⟩ kx ky) (heap ℝ) fun _ h' =>
    ky.mdspan.Becomes (heap ℝ) h' (mulVec 3 (fun i j => mvals ℝ A j i) (vals ℝ kx.mdspan)) :=
  C53_gemv_transposed_exact _ (refLib_gemv _ _) ⟨A, true⟩ kx ky _ _ _ (mholds bA) (holds bkx)
    (alloc bky) rfl rfl rfl rfl rfl rfl (by kview_facts) (by kview_facts)

/-- **C53** is false for `matrix_vector_product(exec, transposed(A), x, y)`. -/
theorem C53_gemv_transposed_false (K : KokkosLib ℚ) (hK : K.GemvOk) :
    ¬ ∀ (A : KMat) (x y : KVec) (h : Heap ℚ) (a : Nat → Nat → ℚ) (f : Nat → ℚ),
      A.toMat.Holds h a → x.mdspan.Holds h f → y.mdspan.Alloc h → x.stride = 1 → y.stride = 1 →
      A.cols = x.ext → A.rows = y.ext → Apart A.toMat.Cell y.mdspan.Cell →
      Apart x.mdspan.Cell y.mdspan.Cell →
      Surely (kkGemv K A x y) h fun _ h' => y.mdspan.Becomes h h' (mulVec A.cols a f) := by
  intro H
  have h1 := H ⟨A, true⟩ kx ky (heap ℚ) _ _ (mholds bA) (holds bkx) (alloc bky) rfl rfl rfl rfl
    (by kview_facts) (by kview_facts)
  have h2 := C53_gemv_transposed_exact K hK ⟨A, true⟩ kx ky (heap ℚ) _ _ (mholds bA) (holds bkx)
    (alloc bky) rfl rfl rfl rfl rfl rfl (by kview_facts) (by kview_facts)
  obtain ⟨⟨r, hr⟩, H1⟩ := h1
  obtain ⟨_, h', rfl, b1⟩ := H1 r hr
  obtain ⟨_, h'', e, b2⟩ := h2.2 _ hr
  cases e
  have e := Option.some.inj ((b1.1 0 (by decide)).symm.trans (b2.1 0 (by decide)))
  simp [mulVec, Finset.sum_range_succ, mvals, vals, A, kx, KVec.mdspan] at e
  norm_num at e

theorem kkCheckGemm_ok {A B C : Mat} (hk : A.cols = B.rows) (hr : A.rows = C.rows)
    (hc : B.cols = C.cols) : (kkCheckGemm A B C : Sched α Unit) = pure () := by
  simp only [kkCheckGemm, require, if_pos hk, if_pos hr, if_pos hc, sched_pure_bind]

/-- **C53** `matrix_product(exec, A, B, C)`: `C = A B`. -/
theorem C53_gemm [NonAssocSemiring α] (K : KokkosLib α) (hK : K.GemmOk) (A B C : KMat)
    (h : Heap α) (a b : Nat → Nat → α) (hA : A.toMat.Holds h a) (hB : B.toMat.Holds h b)
    (hC : C.toMat.Alloc h) (hAt : A.transposed = false) (hBt : B.transposed = false)
    (hCt : C.transposed = false) (hAB : A.cols = B.rows) (hAC : A.rows = C.rows)
    (hBC : B.cols = C.cols) (hu : C.toMat.Unique) (hApC : Apart A.toMat.Cell C.toMat.Cell)
    (hBpC : Apart B.toMat.Cell C.toMat.Cell) :
    Surely (kkGemm K A B C) h fun _ h' => C.toMat.Becomes h h' (mulMat A.cols a b) := by
  unfold kkGemm
  rw [kkCheckGemm_ok hAB hAC hBC, sched_pure_bind, KMat.view_eq hAt, KMat.view_eq hBt,
    KMat.view_eq hCt]
  refine (hK .N .N 1 _ _ _ h a b hA hB hC hAB hAC hBC hu hApC hBpC).mono fun _ h' hb => ?_
  simp only [one_mul] at hb
  exact hb

example : Surely (kkGemm (refLib Uplo.standard abs) kT kW kC) (heap ℝ) fun _ h' =>
    kC.toMat.Becomes (heap ℝ) h' (mulMat 2 (mvals ℝ T) (mvals ℝ W)) :=
  C53_gemm _ (refLib_gemm _ _) kT kW kC _ _ _ (mholds bT) (mholds bW) (malloc bC) rfl rfl rfl rfl
    rfl rfl (by kview_facts) (by kview_facts) (by kview_facts)

/-- **C53** `matrix_product(exec, transposed(A), B, C)`, the first argument being the view
`AT = transposed(A)` with elements `a`: `C = AT B`. -/
theorem C53_gemm_transposed_left [NonAssocSemiring α] (K : KokkosLib α) (hK : K.GemmOk)
    (AT B C : KMat) (h : Heap α) (a b : Nat → Nat → α) (hA : AT.toMat.Holds h a)
    (hB : B.toMat.Holds h b) (hC : C.toMat.Alloc h) (hAt : AT.transposed = true)
    (hBt : B.transposed = false) (hCt : C.transposed = false) (hAB : AT.cols = B.rows)
    (hAC : AT.rows = C.rows) (hBC : B.cols = C.cols) (hu : C.toMat.Unique)
    (hApC : Apart AT.toMat.Cell C.toMat.Cell) (hBpC : Apart B.toMat.Cell C.toMat.Cell) :
    Surely (kkGemmTransA K AT B C) h fun _ h' => C.toMat.Becomes h h' (mulMat AT.cols a b) := by
  unfold kkGemmTransA
  have hv : AT.view = AT.toMat.transposed := by simp [KMat.view, hAt]
  rw [kkCheckGemm_ok hAB hAC hBC, sched_pure_bind, hv, KMat.view_eq hBt, KMat.view_eq hCt]
  refine (hK .T .N 1 _ _ _ h _ b (Mat.transposed_holds hA) hB hC hAB hAC hBC hu
    (Mat.transposed_apart hApC) hBpC).mono fun _ h' hb => ?_
  simp only [one_mul] at hb
  exact hb

example : Surely (kkGemmTransA (refLib Uplo.standard abs) ⟨T, true⟩ kW kC) (heap ℝ) fun _ h' =>
    kC.toMat.Becomes (heap ℝ) h' (mulMat 2 (mvals ℝ T) (mvals ℝ W)) :=
  C53_gemm_transposed_left _ (refLib_gemm _ _) ⟨T, true⟩ kW kC _ _ _ (mholds bT) (mholds bW)
    (malloc bC) rfl rfl rfl rfl rfl rfl (by kview_facts) (by kview_facts) (by kview_facts)

/-- **C53** `matrix_product(exec, A, transposed(B), C)`, the second argument being the view
`BT = transposed(B)` with elements `b`: `C = A BT`. -/
theorem C53_gemm_transposed_right [NonAssocSemiring α] (K : KokkosLib α) (hK : K.GemmOk)
    (A BT C : KMat) (h : Heap α) (a b : Nat → Nat → α) (hA : A.toMat.Holds h a)
    (hB : BT.toMat.Holds h b) (hC : C.toMat.Alloc h) (hAt : A.transposed = false)
    (hBt : BT.transposed = true) (hCt : C.transposed = false) (hAB : A.cols = BT.rows)
    (hAC : A.rows = C.rows) (hBC : BT.cols = C.cols) (hu : C.toMat.Unique)
    (hApC : Apart A.toMat.Cell C.toMat.Cell) (hBpC : Apart BT.toMat.Cell C.toMat.Cell) :
    Surely (kkGemmTransB K A BT C) h fun _ h' => C.toMat.Becomes h h' (mulMat A.cols a b) := by
  unfold kkGemmTransB
  have hv : BT.view = BT.toMat.transposed := by simp [KMat.view, hBt]
  rw [kkCheckGemm_ok hAB hAC hBC, sched_pure_bind, hv, KMat.view_eq hAt, KMat.view_eq hCt]
  refine (hK .N .T 1 _ _ _ h a _ hA (Mat.transposed_holds hB) hC hAB hAC hBC hu hApC
    (Mat.transposed_apart hBpC)).mono fun _ h' hb => ?_
  simp only [one_mul] at hb
  exact hb

example : Surely (kkGemmTransB (refLib Uplo.standard abs) kT ⟨W, true⟩ kC) (heap ℝ) fun _ h' =>
    kC.toMat.Becomes (heap ℝ) h' (mulMat 2 (mvals ℝ T) (mvals ℝ W)) :=
  C53_gemm_transposed_right _ (refLib_gemm _ _) kT ⟨W, true⟩ kC _ _ _ (mholds bT) (mholds bW)
    (malloc bC) rfl rfl rfl rfl rfl rfl (by kview_facts) (by kview_facts) (by kview_facts)

/-- **C53** `matrix_product(exec, A, B, C)` with accessors that KokkosKernels does not know
(scaled, conjugated): `C = A B`, by the native loops. -/
theorem C53_gemm_fallback [NonUnitalNonAssocSemiring α] (A B : MatV α) (C : Mat) (h : Heap α)
    (a b : Nat → Nat → α) (hA : A.Holds h a) (hB : B.Holds h b) (hC : C.Alloc h)
    (hAB : A.cols = B.rows) (hAC : A.rows = C.rows) (hBC : B.cols = C.cols) (hu : C.Unique)
    (hApC : Apart A.toMat.Cell C.Cell) (hBpC : Apart B.toMat.Cell C.Cell) :
    Surely (kkGemmFallback A B C) h fun _ h' => C.Becomes h h' (mulMat A.cols a b) := by
  unfold kkGemmFallback
  rw [kkCheckGemm_ok hAB hAC hBC, sched_pure_bind]
  exact surely_lift.2 (C31_gemm A B C h a b hA hB hC hAC.symm hAB hBC.symm hu hApC hBpC)

example : Surely (kkGemmFallback ((T.view : MatV ℝ).scaled 2) W.view C) (heap ℝ) fun _ h' =>
    C.Becomes (heap ℝ) h' (mulMat 2 (fun i j => 2 * mvals ℝ T i j) (mvals ℝ W)) :=
  C53_gemm_fallback _ _ _ _ _ _ (MatV.HoldsOn.scaled 2 (mholdsV bT)) (mholdsV bW) (malloc bC) rfl
    rfl rfl (by view_facts) (show Apart T.Cell C.Cell by kview_facts)
    (show Apart W.Cell C.Cell by kview_facts)

/-! ## Triangular solves -/

/-- The matrix and the flags that `trimatmatsolve_impl::trsm` passes on: with the usual meaning of
the flags, it solves with the triangular matrix that the caller named. -/
theorem surely_trsmKK [NonAssocSemiring α] {K : KokkosLib α} (hK : K.TrsmOk Uplo.standard)
    {side : Side} {t : Triangle} {d : Diag} {A X : Mat} {h : Heap α} {a b : Nat → Nat → α}
    (hA : A.HoldsOn h (triRegion t d) a) (hX : X.Holds h b) (hsq : A.rows = A.cols)
    (he : sideExt side X = A.rows) (hu : X.Unique) (hAX : Apart (A.CellOn (triRegion t d)) X.Cell)
    (hnz : d = .explicit → ∀ i, i < A.rows → a i i ≠ 0) :
    Surely (trsmKK K side t d A X) h fun _ h' => ∃ x, X.Becomes h h' x ∧
      ∀ i j, i < X.rows → j < X.cols → sideMul side A.cols (triOf t d a) x i j = b i j := by
  have et : (if t = .lower then Uplo.L else Uplo.U).standard = t := by cases t <;> rfl
  have ed : (if d = .explicit then UnitFlag.N else UnitFlag.U).diag = d := by cases d <;> rfl
  have := hK side (if t = .lower then .L else .U) (if d = .explicit then .N else .U) A X h a b
  rw [et, ed] at this
  exact this hA hX hsq he hu hAX fun e => hnz (by cases d <;> first | rfl | cases e)

/-- **C53** `triangular_matrix_vector_solve(exec, A, t, d, b, x)`: `x` solves `T x = b`, where
`T` is the triangular matrix named by `(A, t, d)`.  `x` may be `b`. -/
theorem C53_trsv [NonAssocSemiring α] (K : KokkosLib α) (hK : K.TrsmOk Uplo.standard)
    (hK' : K.DeepCopyOk) (A : KMat) (t : Triangle) (d : Diag) (b x : KVec) (h : Heap α)
    (a : Nat → Nat → α) (g : Nat → α) (hA : A.toMat.HoldsOn h (triRegion t d) a)
    (hb : b.mdspan.Holds h g) (hx : x.mdspan.Alloc h) (hAt : A.transposed = false)
    (hbs : b.stride = 1) (hxs : x.stride = 1) (hsq : A.rows = A.cols) (hAb : A.cols = b.ext)
    (hAx : A.rows = x.ext) (hApx : Apart (A.toMat.CellOn (triRegion t d)) x.mdspan.Cell)
    (hbx : Apart b.mdspan.Cell x.mdspan.Cell ∨ x.mdspan = b.mdspan)
    (hnz : d = .explicit → ∀ i, i < A.rows → a i i ≠ 0) :
    Surely (kkTrsv K A t d b x) h fun _ h' => ∃ v, x.mdspan.Becomes h h' v ∧
      ∀ i, i < A.rows → mulVec A.cols (triOf t d a) v i = g i := by
  unfold kkTrsv
  rw [KVec.view_eq hbs, KVec.view_eq hxs, KMat.view_eq hAt]
  refine surely_require_bind hsq (surely_require_bind hAb (surely_require_bind hAx ?_))
  refine surely_bind ((hK'.vec _ _ h g hb hx (by simp only [KVec.mdspan]; omega)
    (KVec.mdspan_unique hxs) hbx).mono fun _ h1 b1 => ?_)
  refine (surely_trsmKK hK (hA.elsewhere b1.2 hApx) ((KVec.asColumn_holds hxs).2 b1.1) hsq
    (side := .left) hAx.symm x.asColumn_unique (fun c hc hc' => hApx c hc ((KVec.asColumn_cell hxs c).1 hc')) hnz).mono ?_
  rintro _ h' ⟨v, b2, e⟩
  refine ⟨fun i => v i 0, ⟨?_, fun c hc => ?_⟩, fun i hi => e i 0 (lt_of_lt_of_eq hi hAx) Nat.one_pos⟩
  · intro i hi
    have := b2.1 i 0 hi Nat.one_pos trivial
    simpa only [KVec.mdspan, KVec.asColumn, hxs, one_mul] using this
  · rw [b2.2 c (fun hc' => hc ((KVec.asColumn_cell hxs c).1 hc')), b1.2 c hc]

theorem mvals_A_ne_zero : ∀ i, i < A.rows → mvals ℝ A i i ≠ 0 := by
  intro i hi
  have hi' : i < 3 := hi
  have : i = 0 ∨ i = 1 ∨ i = 2 := by omega
  rcases this with rfl | rfl | rfl <;> simp [mvals, A]

example : Surely (kkTrsv (refLib Uplo.standard abs) kA .upper .explicit ky ky) (heap ℝ)
    fun _ h' => ∃ v, ky.mdspan.Becomes (heap ℝ) h' v ∧
      ∀ i, i < 3 → mulVec 3 (triOf .upper .explicit (mvals ℝ A)) v i = vals ℝ ky.mdspan i :=
  C53_trsv _ (refLib_trsm _ _) (refLib_deepCopy ..) kA _ _ ky ky _ _ _ (mholds bA) (holds bky)
    (alloc bky) rfl rfl rfl rfl rfl rfl (by kview_facts) (Or.inr rfl) fun _ => mvals_A_ne_zero

/-- **C53** `triangular_matrix_matrix_left_solve(exec, A, t, d, B, X)`: `X` solves `T X = B`,
where `T` is the triangular matrix named by `(A, t, d)`.  `X` may be `B`. -/
theorem C53_trsm_left [NonAssocSemiring α] (K : KokkosLib α) (hK : K.TrsmOk Uplo.standard)
    (hK' : K.DeepCopyOk) (A : KMat) (t : Triangle) (d : Diag) (B X : KMat) (h : Heap α)
    (a b : Nat → Nat → α) (hA : A.toMat.HoldsOn h (triRegion t d) a) (hB : B.toMat.Holds h b)
    (hX : X.toMat.Alloc h) (hAt : A.transposed = false) (hBt : B.transposed = false)
    (hXt : X.transposed = false) (hsq : A.rows = A.cols) (hAB : A.cols = B.rows)
    (hr : X.rows = B.rows) (hc : X.cols = B.cols) (hu : X.toMat.Unique)
    (hApX : Apart (A.toMat.CellOn (triRegion t d)) X.toMat.Cell)
    (hBX : Apart B.toMat.Cell X.toMat.Cell ∨ X.toMat = B.toMat)
    (hnz : d = .explicit → ∀ i, i < A.rows → a i i ≠ 0) :
    Surely (kkTrsmLeft K A t d B X) h fun _ h' => ∃ x, X.toMat.Becomes h h' x ∧
      ∀ i j, i < X.rows → j < X.cols → mulMat A.cols (triOf t d a) x i j = b i j := by
  unfold kkTrsmLeft
  rw [KMat.view_eq hAt, KMat.view_eq hBt, KMat.view_eq hXt]
  refine surely_require_bind hsq (surely_require_bind hAB (surely_require_bind hr
    (surely_require_bind hc ?_)))
  refine surely_bind ((hK'.mat _ _ h b hB hX hr hc hu hBX).mono fun _ h1 b1 => ?_)
  have he : sideExt .left X.toMat = A.rows := hr.trans (hAB.symm.trans hsq.symm)
  refine (surely_trsmKK hK (hA.elsewhere b1.2 hApX) b1.1 hsq he hu hApX hnz).mono ?_
  rintro _ h' ⟨x, b2, e⟩
  exact ⟨x, ⟨b2.1, fun c hc => (b2.2 c hc).trans (b1.2 c hc)⟩, e⟩

example : Surely (kkTrsmLeft (refLib Uplo.standard abs) kA .lower .explicit kT kT) (heap ℝ)
    fun _ h' => ∃ x, kT.toMat.Becomes (heap ℝ) h' x ∧ ∀ i j, i < 3 → j < 2 →
      mulMat 3 (triOf .lower .explicit (mvals ℝ A)) x i j = mvals ℝ T i j :=
  C53_trsm_left _ (refLib_trsm _ _) (refLib_deepCopy ..) kA _ _ kT kT _ _ _ (mholds bA)
    (mholds bT) (malloc bT) rfl rfl rfl rfl rfl rfl rfl (by kview_facts) (by kview_facts)
    (Or.inr rfl) fun _ => mvals_A_ne_zero

/-- **C53** `triangular_matrix_matrix_right_solve(exec, A, t, d, B, X)`: `X` solves `X T = B`,
where `T` is the triangular matrix named by `(A, t, d)`.  `X` may be `B`. -/
theorem C53_trsm_right [NonAssocSemiring α] (K : KokkosLib α) (hK : K.TrsmOk Uplo.standard)
    (hK' : K.DeepCopyOk) (A : KMat) (t : Triangle) (d : Diag) (B X : KMat) (h : Heap α)
    (a b : Nat → Nat → α) (hA : A.toMat.HoldsOn h (triRegion t d) a) (hB : B.toMat.Holds h b)
    (hX : X.toMat.Alloc h) (hAt : A.transposed = false) (hBt : B.transposed = false)
    (hXt : X.transposed = false) (hsq : A.rows = A.cols) (hAB : A.cols = B.cols)
    (hr : X.rows = B.rows) (hc : X.cols = B.cols) (hu : X.toMat.Unique)
    (hApX : Apart (A.toMat.CellOn (triRegion t d)) X.toMat.Cell)
    (hBX : Apart B.toMat.Cell X.toMat.Cell ∨ X.toMat = B.toMat)
    (hnz : d = .explicit → ∀ i, i < A.rows → a i i ≠ 0) :
    Surely (kkTrsmRight K A t d B X) h fun _ h' => ∃ x, X.toMat.Becomes h h' x ∧
      ∀ i j, i < X.rows → j < X.cols → mulMat A.cols x (triOf t d a) i j = b i j := by
  unfold kkTrsmRight
  rw [KMat.view_eq hAt, KMat.view_eq hBt, KMat.view_eq hXt]
  refine surely_require_bind hsq (surely_require_bind hAB (surely_require_bind hr
    (surely_require_bind hc ?_)))
  refine surely_bind ((hK'.mat _ _ h b hB hX hr hc hu hBX).mono fun _ h1 b1 => ?_)
  have he : sideExt .right X.toMat = A.rows := hc.trans (hAB.symm.trans hsq.symm)
  refine (surely_trsmKK hK (hA.elsewhere b1.2 hApX) b1.1 hsq he hu hApX hnz).mono ?_
  rintro _ h' ⟨x, b2, e⟩
  exact ⟨x, ⟨b2.1, fun c hc => (b2.2 c hc).trans (b1.2 c hc)⟩, e⟩

example : Surely (kkTrsmRight (refLib Uplo.standard abs) kA .lower .explicit kW kW) (heap ℝ)
    fun _ h' => ∃ x, kW.toMat.Becomes (heap ℝ) h' x ∧ ∀ i j, i < 2 → j < 3 →
      mulMat 3 x (triOf .lower .explicit (mvals ℝ A)) i j = mvals ℝ W i j :=
  C53_trsm_right _ (refLib_trsm _ _) (refLib_deepCopy ..) kA _ _ kW kW _ _ _ (mholds bA)
    (mholds bW) (malloc bW) rfl rfl rfl rfl rfl rfl rfl (by kview_facts) (by kview_facts)
    (Or.inr rfl) fun _ => mvals_A_ne_zero

/-! ## Triangular products with explicit diagonal

`trmm_kk` passes `"U"` for the lower and `"L"` for the upper triangle.  Whether that is right
depends on what the library means by these flags. -/

theorem surely_trmmKK [NonAssocSemiring α] {K : KokkosLib α} {m : Uplo → Triangle}
    (hK : K.TrmmOk m) {side : Side} {t s : Triangle}
    (hs : m (if t = .lower then .U else .L) = s) {A B : Mat} {h : Heap α} {a b : Nat → Nat → α}
    (hA : A.HoldsOn h (triRegion s .explicit) a) (hB : B.Holds h b) (hsq : A.rows = A.cols)
    (he : sideExt side B = A.rows) (hu : B.Unique)
    (hAB : Apart (A.CellOn (triRegion s .explicit)) B.Cell) :
    Surely (trmmKK K side t A B) h fun _ h' =>
      B.Becomes h h' (sideMul side A.cols (triOf s .explicit a) b) := by
  subst hs
  exact hK side _ .N A B h a b hA hB hsq he hu hAB

theorem reversed_flag (t : Triangle) :
    Uplo.reversed (if t = .lower then .U else .L) = t := by cases t <;> rfl

theorem standard_flag (t : Triangle) :
    Uplo.standard (if t = .lower then .U else .L) = t.other := by cases t <;> rfl

theorem kkTrmmLeftExplicit_of [NonAssocSemiring α] {K : KokkosLib α} {m : Uplo → Triangle}
    (hK : K.TrmmOk m) (hK' : K.DeepCopyOk) {A : KMat} {t s : Triangle} {B C : KMat} {h : Heap α}
    (hs : m (if t = .lower then .U else .L) = s)
    {a b : Nat → Nat → α} (hA : A.toMat.HoldsOn h (triRegion s .explicit) a)
    (hB : B.toMat.Holds h b) (hC : C.toMat.Alloc h) (hAt : A.transposed = false)
    (hBt : B.transposed = false) (hCt : C.transposed = false) (hsq : A.rows = A.cols)
    (h1 : A.cols = B.rows) (h2 : A.rows = C.rows) (h3 : B.cols = C.cols)
    (hu : C.toMat.Unique) (hApC : Apart (A.toMat.CellOn (triRegion s .explicit)) C.toMat.Cell)
    (hBC : Apart B.toMat.Cell C.toMat.Cell ∨ C.toMat = B.toMat) :
    Surely (kkTrmmLeftExplicit K A t B C) h fun _ h' =>
      C.toMat.Becomes h h' (mulMat A.cols (triOf s .explicit a) b) := by
  unfold kkTrmmLeftExplicit
  rw [kkCheckLeft_ok (by omega), sched_pure_bind, KMat.view_eq hAt, KMat.view_eq hBt,
    KMat.view_eq hCt]
  refine surely_bind ((hK'.mat _ _ h b hB hC (by omega) (by omega) hu hBC).mono
    fun _ h1 b1 => ?_)
  refine (surely_trmmKK hK hs (side := .left) (hA.elsewhere b1.2 hApC) b1.1 hsq
    (by simp only [sideExt]; omega) hu hApC).mono fun _ h' b2 => ?_
  exact ⟨b2.1, fun c hc => (b2.2 c hc).trans (b1.2 c hc)⟩

/-- **C53** `triangular_matrix_left_product(exec, A, t, explicit_diagonal, B, C)`: `C = T B`,
*if* the library's `"U"` means the lower triangle. -/
theorem C53_trmm_left_partial [NonAssocSemiring α] (K : KokkosLib α)
    (hK : K.TrmmOk Uplo.reversed) (hK' : K.DeepCopyOk) (A : KMat) (t : Triangle) (B C : KMat)
    (h : Heap α) (a b : Nat → Nat → α) (hA : A.toMat.HoldsOn h (triRegion t .explicit) a)
    (hB : B.toMat.Holds h b) (hC : C.toMat.Alloc h) (hAt : A.transposed = false)
    (hBt : B.transposed = false) (hCt : C.transposed = false) (hsq : A.rows = A.cols)
    (h1 : A.cols = B.rows) (h2 : A.rows = C.rows) (h3 : B.cols = C.cols)
    (hu : C.toMat.Unique) (hApC : Apart (A.toMat.CellOn (triRegion t .explicit)) C.toMat.Cell)
    (hBC : Apart B.toMat.Cell C.toMat.Cell ∨ C.toMat = B.toMat) :
    Surely (kkTrmmLeftExplicit K A t B C) h fun _ h' =>
      C.toMat.Becomes h h' (mulMat A.cols (triOf t .explicit a) b) :=
  kkTrmmLeftExplicit_of hK hK' (reversed_flag t) hA hB hC hAt hBt hCt hsq h1 h2 h3 hu hApC hBC

example : Surely (kkTrmmLeftExplicit (refLib Uplo.reversed abs) kA .lower kB kC) (heap ℝ) fun _ h' =>
    kC.toMat.Becomes (heap ℝ) h' (mulMat 3 (triOf .lower .explicit (mvals ℝ A)) (mvals ℝ B)) :=
  C53_trmm_left_partial _ (refLib_trmm _ _) (refLib_deepCopy ..) kA .lower kB kC _ _ _ (mholds bA)
    (mholds bB) (malloc bC) rfl rfl rfl rfl rfl rfl rfl (by kview_facts) (by kview_facts)
    (Or.inl (by kview_facts))

/-- **C53** with a library whose flags have the usual meaning, the same call multiplies with the
triangular matrix named by the *other* triangle of `A`. -/
theorem C53_trmm_left_standard_exact [NonAssocSemiring α] (K : KokkosLib α)
    (hK : K.TrmmOk Uplo.standard) (hK' : K.DeepCopyOk) (A : KMat) (t : Triangle) (B C : KMat)
    (h : Heap α) (a b : Nat → Nat → α) (hA : A.toMat.HoldsOn h (triRegion t.other .explicit) a)
    (hB : B.toMat.Holds h b) (hC : C.toMat.Alloc h) (hAt : A.transposed = false)
    (hBt : B.transposed = false) (hCt : C.transposed = false) (hsq : A.rows = A.cols)
    (h1 : A.cols = B.rows) (h2 : A.rows = C.rows) (h3 : B.cols = C.cols)
    (hu : C.toMat.Unique)
    (hApC : Apart (A.toMat.CellOn (triRegion t.other .explicit)) C.toMat.Cell)
    (hBC : Apart B.toMat.Cell C.toMat.Cell ∨ C.toMat = B.toMat) :
    Surely (kkTrmmLeftExplicit K A t B C) h fun _ h' =>
      C.toMat.Becomes h h' (mulMat A.cols (triOf t.other .explicit a) b) :=
  kkTrmmLeftExplicit_of hK hK' (standard_flag t) hA hB hC hAt hBt hCt hsq h1 h2 h3 hu hApC hBC

example : Surely (kkTrmmLeftExplicit (refLib Uplo.standard abs) kA .lower kB kC) (heap ℝ) fun _ h' =>
    kC.toMat.Becomes (heap ℝ) h' (mulMat 3 (triOf .upper .explicit (mvals ℝ A)) (mvals ℝ B)) :=
  C53_trmm_left_standard_exact _ (refLib_trmm _ _) (refLib_deepCopy ..) kA .lower kB kC _ _ _ (mholds bA)
    (mholds bB) (malloc bC) rfl rfl rfl rfl rfl rfl rfl (by kview_facts) (by kview_facts)
    (Or.inl (by kview_facts))

/-- **C53** is false for `triangular_matrix_left_product` with an explicit diagonal and a library
whose flags have the usual meaning: the result is not that of the native implementation. -/
theorem C53_trmm_left_standard_false (K : KokkosLib ℚ) (hK : K.TrmmOk Uplo.standard)
    (hK' : K.DeepCopyOk) :
    DifferentOutcome (trmmLeft A.view .lower .explicit B.view C)
      (kkTrmmLeftExplicit K kA .lower kB kC) (heap ℚ) := by
  refine differ_mat (C := C) (R := everywhere)
    (C35_trmm_left _ _ _ _ _ _ _ _ (mholdsV bA) (mholdsV bB) (malloc bC) rfl rfl rfl rfl
      (by view_facts) (by view_facts) (by view_facts))
    (C53_trmm_left_standard_exact K hK hK' kA .lower kB kC _ _ _ (mholds bA) (mholds bB)
      (malloc bC) rfl rfl rfl rfl rfl rfl rfl (by kview_facts) (by kview_facts)
      (Or.inl (by kview_facts))) (i := 0) (j := 0) (by decide) (by decide) trivial ?_
  simp [mulMat, Finset.sum_range_succ, triOf, Triangle.region, Triangle.other, mvals, kA, kB, A, B,
    Mat.view]
  norm_num

theorem kkTrmmLeftInPlaceExplicit_of [NonAssocSemiring α] {K : KokkosLib α}
    {m : Uplo → Triangle} (hK : K.TrmmOk m) {A : KMat} {t s : Triangle} {C : KMat} {h : Heap α}
    (hs : m (if t = .lower then .U else .L) = s)
    {a c : Nat → Nat → α} (hA : A.toMat.HoldsOn h (triRegion s .explicit) a)
    (hC : C.toMat.Holds h c) (hAt : A.transposed = false)
    (hCt : C.transposed = false) (hsq : A.rows = A.cols) (hAC : A.cols = C.rows)
    (hu : C.toMat.Unique) (hApC : Apart (A.toMat.CellOn (triRegion s .explicit)) C.toMat.Cell) :
    Surely (kkTrmmLeftInPlaceExplicit K A t C) h fun _ h' =>
      C.toMat.Becomes h h' (mulMat A.cols (triOf s .explicit a) c) := by
  unfold kkTrmmLeftInPlaceExplicit
  rw [kkCheckLeft_ok (by omega), sched_pure_bind, KMat.view_eq hAt, KMat.view_eq hCt]
  exact surely_trmmKK hK hs (side := .left) hA hC hsq (by simp only [sideExt]; omega) hu hApC

/-- **C53** `triangular_matrix_left_product(exec, A, t, explicit_diagonal, C)`: `C = T C`,
*if* the library's `"U"` means the lower triangle. -/
theorem C53_trmm_left_in_place_partial [NonAssocSemiring α] (K : KokkosLib α)
    (hK : K.TrmmOk Uplo.reversed) (A : KMat) (t : Triangle) (C : KMat)
    (h : Heap α) (a c : Nat → Nat → α) (hA : A.toMat.HoldsOn h (triRegion t .explicit) a)
    (hC : C.toMat.Holds h c) (hAt : A.transposed = false)
    (hCt : C.transposed = false) (hsq : A.rows = A.cols) (hAC : A.cols = C.rows)
    (hu : C.toMat.Unique) (hApC : Apart (A.toMat.CellOn (triRegion t .explicit)) C.toMat.Cell) :
    Surely (kkTrmmLeftInPlaceExplicit K A t C) h fun _ h' =>
      C.toMat.Becomes h h' (mulMat A.cols (triOf t .explicit a) c) :=
  kkTrmmLeftInPlaceExplicit_of hK (reversed_flag t) hA hC hAt hCt hsq hAC hu hApC

example : Surely (kkTrmmLeftInPlaceExplicit (refLib Uplo.reversed abs) kA .upper kT) (heap ℝ)
    fun _ h' => kT.toMat.Becomes (heap ℝ) h' (mulMat 3 (triOf .upper .explicit (mvals ℝ A)) (mvals ℝ T)) :=
  C53_trmm_left_in_place_partial _ (refLib_trmm _ _) kA .upper kT _ _ _ (mholds bA)
    (mholds bT) rfl rfl rfl rfl (by kview_facts) (by kview_facts)

/-- **C53** with a library whose flags have the usual meaning: the other triangle. -/
theorem C53_trmm_left_in_place_standard_exact [NonAssocSemiring α] (K : KokkosLib α)
    (hK : K.TrmmOk Uplo.standard) (A : KMat) (t : Triangle) (C : KMat)
    (h : Heap α) (a c : Nat → Nat → α) (hA : A.toMat.HoldsOn h (triRegion t.other .explicit) a)
    (hC : C.toMat.Holds h c) (hAt : A.transposed = false)
    (hCt : C.transposed = false) (hsq : A.rows = A.cols) (hAC : A.cols = C.rows)
    (hu : C.toMat.Unique)
    (hApC : Apart (A.toMat.CellOn (triRegion t.other .explicit)) C.toMat.Cell) :
    Surely (kkTrmmLeftInPlaceExplicit K A t C) h fun _ h' =>
      C.toMat.Becomes h h' (mulMat A.cols (triOf t.other .explicit a) c) :=
  kkTrmmLeftInPlaceExplicit_of hK (standard_flag t) hA hC hAt hCt hsq hAC hu hApC

example : Surely (kkTrmmLeftInPlaceExplicit (refLib Uplo.standard abs) kA .upper kT) (heap ℝ)
    fun _ h' => kT.toMat.Becomes (heap ℝ) h' (mulMat 3 (triOf .lower .explicit (mvals ℝ A)) (mvals ℝ T)) :=
  C53_trmm_left_in_place_standard_exact _ (refLib_trmm _ _) kA .upper kT _ _ _ (mholds bA)
    (mholds bT) rfl rfl rfl rfl (by kview_facts) (by kview_facts)

theorem kkTrmmRightExplicit_of [NonAssocSemiring α] {K : KokkosLib α} {m : Uplo → Triangle}
    (hK : K.TrmmOk m) (hK' : K.DeepCopyOk) {A : KMat} {t s : Triangle} {B C : KMat} {h : Heap α}
    (hs : m (if t = .lower then .U else .L) = s)
    {a b : Nat → Nat → α} (hA : A.toMat.HoldsOn h (triRegion s .explicit) a)
    (hB : B.toMat.Holds h b) (hC : C.toMat.Alloc h) (hAt : A.transposed = false)
    (hBt : B.transposed = false) (hCt : C.transposed = false) (hsq : A.rows = A.cols)
    (h1 : B.cols = A.rows) (h2 : B.rows = C.rows) (h3 : A.cols = C.cols)
    (hu : C.toMat.Unique) (hApC : Apart (A.toMat.CellOn (triRegion s .explicit)) C.toMat.Cell)
    (hBC : Apart B.toMat.Cell C.toMat.Cell ∨ C.toMat = B.toMat) :
    Surely (kkTrmmRightExplicit K A t B C) h fun _ h' =>
      C.toMat.Becomes h h' (mulMat A.cols b (triOf s .explicit a)) := by
  unfold kkTrmmRightExplicit
  rw [kkCheckRight_ok (by omega), sched_pure_bind, KMat.view_eq hAt, KMat.view_eq hBt,
    KMat.view_eq hCt]
  refine surely_bind ((hK'.mat _ _ h b hB hC (by omega) (by omega) hu hBC).mono
    fun _ h1 b1 => ?_)
  refine (surely_trmmKK hK hs (side := .right) (hA.elsewhere b1.2 hApC) b1.1 hsq
    (by simp only [sideExt]; omega) hu hApC).mono fun _ h' b2 => ?_
  exact ⟨b2.1, fun c hc => (b2.2 c hc).trans (b1.2 c hc)⟩

/-- **C53** `triangular_matrix_right_product(exec, A, t, explicit_diagonal, B, C)`: `C = B T`,
*if* the library's `"U"` means the lower triangle. -/
theorem C53_trmm_right_partial [NonAssocSemiring α] (K : KokkosLib α)
    (hK : K.TrmmOk Uplo.reversed) (hK' : K.DeepCopyOk) (A : KMat) (t : Triangle) (B C : KMat)
    (h : Heap α) (a b : Nat → Nat → α) (hA : A.toMat.HoldsOn h (triRegion t .explicit) a)
    (hB : B.toMat.Holds h b) (hC : C.toMat.Alloc h) (hAt : A.transposed = false)
    (hBt : B.transposed = false) (hCt : C.transposed = false) (hsq : A.rows = A.cols)
    (h1 : B.cols = A.rows) (h2 : B.rows = C.rows) (h3 : A.cols = C.cols)
    (hu : C.toMat.Unique) (hApC : Apart (A.toMat.CellOn (triRegion t .explicit)) C.toMat.Cell)
    (hBC : Apart B.toMat.Cell C.toMat.Cell ∨ C.toMat = B.toMat) :
    Surely (kkTrmmRightExplicit K A t B C) h fun _ h' =>
      C.toMat.Becomes h h' (mulMat A.cols b (triOf t .explicit a)) :=
  kkTrmmRightExplicit_of hK hK' (reversed_flag t) hA hB hC hAt hBt hCt hsq h1 h2 h3 hu hApC hBC

example : Surely (kkTrmmRightExplicit (refLib Uplo.reversed abs) kA .lower kB kC) (heap ℝ) fun _ h' =>
    kC.toMat.Becomes (heap ℝ) h' (mulMat 3 (mvals ℝ B) (triOf .lower .explicit (mvals ℝ A))) :=
  C53_trmm_right_partial _ (refLib_trmm _ _) (refLib_deepCopy ..) kA .lower kB kC _ _ _ (mholds bA)
    (mholds bB) (malloc bC) rfl rfl rfl rfl rfl rfl rfl (by kview_facts) (by kview_facts)
    (Or.inl (by kview_facts))

/-- **C53** with a library whose flags have the usual meaning, the same call multiplies with the
triangular matrix named by the *other* triangle of `A`. -/
theorem C53_trmm_right_standard_exact [NonAssocSemiring α] (K : KokkosLib α)
    (hK : K.TrmmOk Uplo.standard) (hK' : K.DeepCopyOk) (A : KMat) (t : Triangle) (B C : KMat)
    (h : Heap α) (a b : Nat → Nat → α) (hA : A.toMat.HoldsOn h (triRegion t.other .explicit) a)
    (hB : B.toMat.Holds h b) (hC : C.toMat.Alloc h) (hAt : A.transposed = false)
    (hBt : B.transposed = false) (hCt : C.transposed = false) (hsq : A.rows = A.cols)
    (h1 : B.cols = A.rows) (h2 : B.rows = C.rows) (h3 : A.cols = C.cols)
    (hu : C.toMat.Unique)
    (hApC : Apart (A.toMat.CellOn (triRegion t.other .explicit)) C.toMat.Cell)
    (hBC : Apart B.toMat.Cell C.toMat.Cell ∨ C.toMat = B.toMat) :
    Surely (kkTrmmRightExplicit K A t B C) h fun _ h' =>
      C.toMat.Becomes h h' (mulMat A.cols b (triOf t.other .explicit a)) :=
  kkTrmmRightExplicit_of hK hK' (standard_flag t) hA hB hC hAt hBt hCt hsq h1 h2 h3 hu hApC hBC

example : Surely (kkTrmmRightExplicit (refLib Uplo.standard abs) kA .lower kB kC) (heap ℝ) fun _ h' =>
    kC.toMat.Becomes (heap ℝ) h' (mulMat 3 (mvals ℝ B) (triOf .upper .explicit (mvals ℝ A))) :=
  C53_trmm_right_standard_exact _ (refLib_trmm _ _) (refLib_deepCopy ..) kA .lower kB kC _ _ _ (mholds bA)
    (mholds bB) (malloc bC) rfl rfl rfl rfl rfl rfl rfl (by kview_facts) (by kview_facts)
    (Or.inl (by kview_facts))

/-- **C53** is false for `triangular_matrix_right_product` with an explicit diagonal and a library
whose flags have the usual meaning: the result is not that of the native implementation. -/
theorem C53_trmm_right_standard_false (K : KokkosLib ℚ) (hK : K.TrmmOk Uplo.standard)
    (hK' : K.DeepCopyOk) :
    DifferentOutcome (trmmRight B.view A.view .lower .explicit C)
      (kkTrmmRightExplicit K kA .lower kB kC) (heap ℚ) := by
  refine differ_mat (C := C) (R := everywhere)
    (C35_trmm_right _ _ _ _ _ _ _ _ (mholdsV bA) (mholdsV bB) (malloc bC) rfl rfl rfl rfl
      (by view_facts) (by view_facts) (by view_facts))
    (C53_trmm_right_standard_exact K hK hK' kA .lower kB kC _ _ _ (mholds bA) (mholds bB)
      (malloc bC) rfl rfl rfl rfl rfl rfl rfl (by kview_facts) (by kview_facts)
      (Or.inl (by kview_facts))) (i := 0) (j := 0) (by decide) (by decide) trivial ?_
  simp [mulMat, Finset.sum_range_succ, triOf, Triangle.region, Triangle.other, mvals, kA, kB, A, B,
    Mat.view]
  norm_num

theorem kkTrmmRightInPlaceExplicit_of [NonAssocSemiring α] {K : KokkosLib α}
    {m : Uplo → Triangle} (hK : K.TrmmOk m) {A : KMat} {t s : Triangle} {C : KMat} {h : Heap α}
    (hs : m (if t = .lower then .U else .L) = s)
    {a c : Nat → Nat → α} (hA : A.toMat.HoldsOn h (triRegion s .explicit) a)
    (hC : C.toMat.Holds h c) (hAt : A.transposed = false)
    (hCt : C.transposed = false) (hsq : A.rows = A.cols) (hAC : A.cols = C.cols)
    (hu : C.toMat.Unique) (hApC : Apart (A.toMat.CellOn (triRegion s .explicit)) C.toMat.Cell) :
    Surely (kkTrmmRightInPlaceExplicit K A t C) h fun _ h' =>
      C.toMat.Becomes h h' (mulMat A.cols c (triOf s .explicit a)) := by
  unfold kkTrmmRightInPlaceExplicit
  rw [kkCheckRight_ok (by omega), sched_pure_bind, KMat.view_eq hAt, KMat.view_eq hCt]
  exact surely_trmmKK hK hs (side := .right) hA hC hsq (by simp only [sideExt]; omega) hu hApC

/-- **C53** `triangular_matrix_right_product(exec, A, t, explicit_diagonal, C)`: `C = C T`,
*if* the library's `"U"` means the lower triangle. -/
theorem C53_trmm_right_in_place_partial [NonAssocSemiring α] (K : KokkosLib α)
    (hK : K.TrmmOk Uplo.reversed) (A : KMat) (t : Triangle) (C : KMat)
    (h : Heap α) (a c : Nat → Nat → α) (hA : A.toMat.HoldsOn h (triRegion t .explicit) a)
    (hC : C.toMat.Holds h c) (hAt : A.transposed = false)
    (hCt : C.transposed = false) (hsq : A.rows = A.cols) (hAC : A.cols = C.cols)
    (hu : C.toMat.Unique) (hApC : Apart (A.toMat.CellOn (triRegion t .explicit)) C.toMat.Cell) :
    Surely (kkTrmmRightInPlaceExplicit K A t C) h fun _ h' =>
      C.toMat.Becomes h h' (mulMat A.cols c (triOf t .explicit a)) :=
  kkTrmmRightInPlaceExplicit_of hK (reversed_flag t) hA hC hAt hCt hsq hAC hu hApC

example : Surely (kkTrmmRightInPlaceExplicit (refLib Uplo.reversed abs) kA .upper kW) (heap ℝ)
    fun _ h' => kW.toMat.Becomes (heap ℝ) h' (mulMat 3 (mvals ℝ W) (triOf .upper .explicit (mvals ℝ A))) :=
  C53_trmm_right_in_place_partial _ (refLib_trmm _ _) kA .upper kW _ _ _ (mholds bA)
    (mholds bW) rfl rfl rfl rfl (by kview_facts) (by kview_facts)

/-- **C53** with a library whose flags have the usual meaning: the other triangle. -/
theorem C53_trmm_right_in_place_standard_exact [NonAssocSemiring α] (K : KokkosLib α)
    (hK : K.TrmmOk Uplo.standard) (A : KMat) (t : Triangle) (C : KMat)
    (h : Heap α) (a c : Nat → Nat → α) (hA : A.toMat.HoldsOn h (triRegion t.other .explicit) a)
    (hC : C.toMat.Holds h c) (hAt : A.transposed = false)
    (hCt : C.transposed = false) (hsq : A.rows = A.cols) (hAC : A.cols = C.cols)
    (hu : C.toMat.Unique)
    (hApC : Apart (A.toMat.CellOn (triRegion t.other .explicit)) C.toMat.Cell) :
    Surely (kkTrmmRightInPlaceExplicit K A t C) h fun _ h' =>
      C.toMat.Becomes h h' (mulMat A.cols c (triOf t.other .explicit a)) :=
  kkTrmmRightInPlaceExplicit_of hK (standard_flag t) hA hC hAt hCt hsq hAC hu hApC

example : Surely (kkTrmmRightInPlaceExplicit (refLib Uplo.standard abs) kA .upper kW) (heap ℝ)
    fun _ h' => kW.toMat.Becomes (heap ℝ) h' (mulMat 3 (mvals ℝ W) (triOf .lower .explicit (mvals ℝ A))) :=
  C53_trmm_right_in_place_standard_exact _ (refLib_trmm _ _) kA .upper kW _ _ _ (mholds bA)
    (mholds bW) rfl rfl rfl rfl (by kview_facts) (by kview_facts)

/-! ## Comparison with the native implementation (C50) -/

/-- **C50** `copy(exec, x, y)`, rank 1: the native result. -/
theorem C50_copy_vector (K : KokkosLib α) (hK : K.DeepCopyOk) (x y : KVec) (h : Heap α)
    (f : Nat → α) (hx : x.mdspan.Holds h f) (hy : y.mdspan.Alloc h) (hxs : x.stride = 1)
    (hys : y.stride = 1) (he : x.ext = y.ext)
    (hd : Apart x.mdspan.Cell y.mdspan.Cell ∨ y.mdspan = x.mdspan) :
    SameOutcome (copy1 x.mdspan.view y.mdspan) (kkCopy1 K x y) h :=
  same_vec (C09_copy_vector _ _ _ _ hx.toView hy he.ge (KVec.mdspan_unique hys)
      (Vec.aligned_of_apart (KVec.mdspan_unique hys) hd))
    (C53_copy_vector K hK x y h f hx hy hxs hys he hd) fun _ _ => rfl

example : SameOutcome (copy1 kx.mdspan.view ky.mdspan) (kkCopy1 (refLib Uplo.standard abs) kx ky)
    (heap ℝ) :=
  C50_copy_vector _ (refLib_deepCopy ..) kx ky _ _ (holds bkx) (alloc bky) rfl rfl rfl
    (Or.inl (by kview_facts))

/-- **C50** `copy(exec, x, y)`, rank 2, equal layouts: the native result. -/
theorem C50_copy_matrix_same_layout (K : KokkosLib α) (hK : K.DeepCopyOk) (x y : KMat)
    (h : Heap α) (f : Nat → Nat → α) (hx : x.toMat.Holds h f) (hy : y.toMat.Alloc h)
    (hxt : x.transposed = false) (hyt : y.transposed = false) (hr : x.rows = y.rows)
    (hc : x.cols = y.cols) (hu : y.toMat.Unique)
    (hd : Apart x.toMat.Cell y.toMat.Cell ∨ y.toMat = x.toMat) :
    SameOutcome (copy2 x.toMat.view y.toMat) (kkCopySame2 K x y) h :=
  same_mat (C09_copy_matrix _ _ _ _ (Mat.HoldsOn.toView hx) hy hr.ge hc.ge hu
      (Mat.aligned_of_apart hu hd))
    (C53_copy_matrix K hK x y h f hx hy hxt hyt hr hc hu hd) fun _ _ _ _ _ => rfl

example : SameOutcome (copy2 kA.toMat.view kE.toMat)
    (kkCopySame2 (refLib Uplo.standard abs) kA kE) (heap ℝ) :=
  C50_copy_matrix_same_layout _ (refLib_deepCopy ..) kA kE _ _ (mholds bA) (malloc bE) rfl rfl rfl
    rfl (by kview_facts) (Or.inl (by kview_facts))

/-- **C50** `add(exec, x, y, z)`, rank 1: the native result. -/
theorem C50_add_vector [NonAssocSemiring α] (K : KokkosLib α) (hK : K.UpdateOk) (x y z : KVec)
    (h : Heap α) (f g : Nat → α) (hx : x.mdspan.Holds h f) (hy : y.mdspan.Holds h g)
    (hz : z.mdspan.Alloc h) (hxs : x.stride = 1) (hys : y.stride = 1) (hzs : z.stride = 1)
    (hxy : x.ext = y.ext) (hyz : y.ext = z.ext) (hax : x.mdspan.Aligned z.mdspan)
    (hay : y.mdspan.Aligned z.mdspan) :
    SameOutcome (add1 x.mdspan.view y.mdspan.view z.mdspan) (kkAdd1 K x y z) h :=
  same_vec (C12_add_vector _ _ _ _ _ _ hx.toView hy.toView hz (hxy.trans hyz).ge hyz.ge
      (KVec.mdspan_unique hzs) hax hay)
    (C53_add_vector K hK x y z h f g hx hy hz hxs hys hzs hxy hyz hax hay) fun _ _ => rfl

example : SameOutcome (add1 kx.mdspan.view ky.mdspan.view ky.mdspan)
    (kkAdd1 (refLib Uplo.standard abs) kx ky ky) (heap ℝ) :=
  C50_add_vector _ (refLib_update ..) kx ky ky _ _ _ (holds bkx) (holds bky) (alloc bky) rfl rfl rfl
    rfl rfl (by kview_facts) (by kview_facts)

/-- **C50** `add(exec, x, y, z)`, rank 2: the native result. -/
theorem C50_add_matrix [NonAssocSemiring α] (K : KokkosLib α) (hK : K.UpdateOk) (x y z : KMat)
    (h : Heap α) (f g : Nat → Nat → α) (hx : x.toMat.Holds h f) (hy : y.toMat.Holds h g)
    (hz : z.toMat.Alloc h) (hxt : x.transposed = false) (hyt : y.transposed = false)
    (hzt : z.transposed = false) (hxyr : x.rows = y.rows) (hyzr : y.rows = z.rows)
    (hxyc : x.cols = y.cols) (hyzc : y.cols = z.cols) (hu : z.toMat.Unique)
    (hax : x.toMat.Aligned z.toMat) (hay : y.toMat.Aligned z.toMat) :
    SameOutcome (add2 x.toMat.view y.toMat.view z.toMat) (kkAdd2 K x y z) h :=
  same_mat (C12_add_matrix _ _ _ _ _ _ (Mat.HoldsOn.toView hx) (Mat.HoldsOn.toView hy) hz
      (hxyr.trans hyzr) (hxyc.trans hyzc) hyzr.ge hyzc.ge hu hax hay)
    (C53_add_matrix K hK x y z h f g hx hy hz hxt hyt hzt hxyr hyzr hxyc hyzc hu hax hay)
    fun _ _ _ _ _ => rfl

example : SameOutcome (add2 kA.toMat.view kB.toMat.view kC.toMat)
    (kkAdd2 (refLib Uplo.standard abs) kA kB kC) (heap ℝ) :=
  C50_add_matrix _ (refLib_update ..) kA kB kC _ _ _ (mholds bA) (mholds bB) (malloc bC) rfl rfl rfl
    rfl rfl rfl rfl (by kview_facts) (by kview_facts) (by kview_facts)

/-- **C50** `scale(exec, alpha, x)`, rank 1: the native result, if multiplication commutes (the
native code multiplies from the right). -/
theorem C50_scale_vector [CommMagma α] (K : KokkosLib α) (hK : K.ScalOk) (alpha : α) (x : KVec)
    (h : Heap α) (f : Nat → α) (hx : x.mdspan.Holds h f) (hxs : x.stride = 1) :
    SameOutcome (scale1 alpha x.mdspan) (kkScale1 K alpha x) h :=
  same_vec (C11_scale_vector _ _ _ _ hx (KVec.mdspan_unique hxs))
    (C53_scale_vector K hK alpha x h f hx hxs) fun _ _ => mul_comm ..

example : SameOutcome (scale1 3 kx.mdspan) (kkScale1 (refLib Uplo.standard abs) 3 kx) (heap ℝ) :=
  C50_scale_vector _ (refLib_scal ..) 3 kx _ _ (holds bkx) rfl

/-- **C50** `scale(exec, alpha, x)`, rank 2. -/
theorem C50_scale_matrix [CommMagma α] (K : KokkosLib α) (hK : K.ScalOk) (alpha : α) (x : KMat)
    (h : Heap α) (f : Nat → Nat → α) (hx : x.toMat.Holds h f) (hxt : x.transposed = false)
    (hu : x.toMat.Unique) : SameOutcome (scale2 alpha x.toMat) (kkScale2 K alpha x) h :=
  same_mat (C11_scale_matrix _ _ _ _ hx hu) (C53_scale_matrix K hK alpha x h f hx hxt hu)
    fun _ _ _ _ _ => mul_comm ..

example : SameOutcome (scale2 3 kB.toMat) (kkScale2 (refLib Uplo.standard abs) 3 kB) (heap ℝ) :=
  C50_scale_matrix _ (refLib_scal ..) 3 kB _ _ (mholds bB) rfl (by kview_facts)

/-- **C50** `dotc(exec, x, y, init)`: the native result. -/
theorem C50_dotc [NonUnitalNonAssocSemiring α] [ConjOps α] (K : KokkosLib α) (hK : K.DotOk)
    (x y : KVec) (init : α) (h : Heap α) (f g : Nat → α) (hx : x.mdspan.Holds h f)
    (hy : y.mdspan.Holds h g) (hxs : x.stride = 1) (hys : y.stride = 1) (he : x.ext = y.ext) :
    SameOutcome (dotc x.mdspan.view y.mdspan.view init) (kkDotc K x y init) h :=
  same_value (C02_dotc _ _ _ _ _ _ hx.toView hy.toView he.le)
    (C53_dotc K hK x y init h f g hx hy hxs hys he) rfl

example : SameOutcome (dotc kx.mdspan.view ky.mdspan.view 5)
    (kkDotc (refLib Uplo.standard norm) kx ky 5) (heap ℂ) :=
  C50_dotc _ (refLib_dot _ _) kx ky 5 _ _ _ (holds bkx) (holds bky) rfl rfl rfl

/-- **C50** `vector_idx_abs_max(exec, v)`, real elements: the native result, also for the empty
vector. -/
theorem C50_idx_abs_max_real (K : KokkosLib ℝ) (hK : K.IamaxOk fun v => |v|) (sizeMax : Nat)
    (v : KVec) (h : Heap ℝ) (f : Nat → ℝ) (hv : v.mdspan.Holds h f) (hvs : v.stride = 1)
    (hle : v.ext ≤ sizeMax) :
    SameOutcome (vectorIdxAbsMax sizeMax v.mdspan.view) (kkIdxAbsMax K sizeMax v) h := by
  by_cases hne : v.ext = 0
  · exact same_value ((C06_idx_abs_max_empty sizeMax v.mdspan.view h hne).mono
      fun _ _ r => ⟨r.1, r.2.1⟩) (C53_idx_abs_max_empty K _ hK sizeMax v h hne) rfl
  · refine same_of ?_ (C06_idx_abs_max_real sizeMax v.mdspan.view h f hv.toView hne)
      (C53_idx_abs_max K _ hK sizeMax v h f hv hvs hne hle)
    rintro r h1 s h2 ⟨⟨hr, mr, fr⟩, rfl⟩ ⟨⟨hs, ms, fs⟩, rfl⟩
    refine ⟨?_, rfl⟩
    rcases Nat.lt_trichotomy r s with q | q | q
    · exact absurd (fs r q) (not_lt.2 (mr s hs))
    · exact q
    · exact absurd (fr s q) (not_lt.2 (ms r hr))

example : SameOutcome (vectorIdxAbsMax 255 kx.mdspan.view)
    (kkIdxAbsMax (refLib Uplo.standard fun v => |v|) 255 kx) (heap ℝ) :=
  C50_idx_abs_max_real _ (refLib_iamax _ _) 255 kx _ _ (holds bkx) rfl (by decide)

/-- **C50** `vector_idx_abs_max(exec, v)`, complex elements, with an `iamax` that measures by
`|re| + |im|`: the native result. -/
theorem C50_idx_abs_max_complex_partial (K : KokkosLib ℂ)
    (hK : K.IamaxOk fun v => |v.re| + |v.im|) (sizeMax : Nat)
    (v : KVec) (h : Heap ℂ) (f : Nat → ℂ) (hv : v.mdspan.Holds h f) (hvs : v.stride = 1)
    (hle : v.ext ≤ sizeMax) :
    SameOutcome (vectorIdxAbsMax sizeMax v.mdspan.view) (kkIdxAbsMax K sizeMax v) h := by
  by_cases hne : v.ext = 0
  · exact same_value ((C06_idx_abs_max_empty sizeMax v.mdspan.view h hne).mono
      fun _ _ r => ⟨r.1, r.2.1⟩) (C53_idx_abs_max_empty K _ hK sizeMax v h hne) rfl
  · refine same_of ?_ (C06_idx_abs_max_complex sizeMax v.mdspan.view h f hv.toView hne)
      (C53_idx_abs_max K _ hK sizeMax v h f hv hvs hne hle)
    rintro r h1 s h2 ⟨⟨hr, mr, fr⟩, rfl⟩ ⟨⟨hs, ms, fs⟩, rfl⟩
    refine ⟨?_, rfl⟩
    rcases Nat.lt_trichotomy r s with q | q | q
    · exact absurd (fs r q) (not_lt.2 (mr s hs))
    · exact q
    · exact absurd (fr s q) (not_lt.2 (ms r hr))

example : SameOutcome (vectorIdxAbsMax 255 kx.mdspan.view)
    (kkIdxAbsMax (refLib Uplo.standard fun v => |v.re| + |v.im|) 255 kx) (heap ℂ) :=
  C50_idx_abs_max_complex_partial _ (refLib_iamax _ _) 255 kx _ _ (holds bkx) rfl (by decide)

/-- **C50** is false for `vector_idx_abs_max` of complex elements with an `iamax` that measures by
the modulus: for `(3+3i, 5)` the native result is 0, that of the backend 1. -/
theorem C50_idx_abs_max_complex_false (K : KokkosLib ℂ) (hK : K.IamaxOk fun v => ‖v‖) :
    ∃ (v : KVec) (h : Heap ℂ), v.stride = 1 ∧ v.mdspan.Alloc h ∧
      DifferentOutcome (vectorIdxAbsMax 255 v.mdspan.view) (kkIdxAbsMax K 255 v) h := by
  let f : Nat → ℂ := fun i => if i = 0 then ⟨3, 3⟩ else ⟨5, 0⟩
  let h : Heap ℂ := fun a => if a < 2 then some (f a) else none
  let v : KVec := ⟨2, 0, 1⟩
  have hv : v.mdspan.Holds h f := by
    intro i hi
    have hi' : i < 2 := hi
    simp only [v, KVec.mdspan, h, zero_add, one_mul, if_pos hi']
  refine ⟨v, h, rfl, hv.alloc, differ_of ?_
    (C06_idx_abs_max_complex 255 v.mdspan.view h f hv.toView (by decide))
    (C53_idx_abs_max K _ hK 255 v h f hv rfl (by decide) (by decide))⟩
  rintro r h' ⟨⟨hr, mr, -⟩, -⟩ ⟨⟨-, ms, -⟩, -⟩
  have hr' : r < 2 := hr
  have : r = 0 ∨ r = 1 := by omega
  rcases this with rfl | rfl
  · have := ms 1 (by decide)
    simp only [f, one_ne_zero, if_false, if_true] at this
    rw [← sq_le_sq₀ (norm_nonneg _) (norm_nonneg _), Complex.sq_norm, Complex.sq_norm,
      Complex.normSq_apply, Complex.normSq_apply] at this
    norm_num at this
  · have := mr 0 (by decide)
    simp only [f, one_ne_zero, if_false, if_true] at this
    norm_num at this

example := C50_idx_abs_max_complex_false (refLib Uplo.standard norm) (refLib_iamax _ _)

/-- **C50** `matrix_vector_product(exec, A, x, y)`: the native result. -/
theorem C50_gemv [NonAssocSemiring α] (K : KokkosLib α) (hK : K.GemvOk) (A : KMat) (x y : KVec)
    (h : Heap α) (a : Nat → Nat → α) (f : Nat → α) (hA : A.toMat.Holds h a)
    (hx : x.mdspan.Holds h f) (hy : y.mdspan.Alloc h) (hAt : A.transposed = false)
    (hxs : x.stride = 1) (hys : y.stride = 1) (hAx : A.cols = x.ext) (hAy : A.rows = y.ext)
    (hApy : Apart A.toMat.Cell y.mdspan.Cell) (hxpy : Apart x.mdspan.Cell y.mdspan.Cell) :
    SameOutcome (gemv A.toMat.view x.mdspan.view y.mdspan) (kkGemv K A x y) h :=
  same_vec (C16_gemv _ _ _ _ _ _ (Mat.HoldsOn.toView hA) hx.toView hy hAy.symm hAx.le
      (KVec.mdspan_unique hys) hApy hxpy)
    (C53_gemv K hK A x y h a f hA hx hy hAt hxs hys hAx hAy hApy hxpy) fun _ _ => rfl

example : SameOutcome (gemv kA.toMat.view kx.mdspan.view ky.mdspan)
    (kkGemv (refLib Uplo.standard abs) kA kx ky) (heap ℝ) :=
  C50_gemv _ (refLib_gemv _ _) kA kx ky _ _ _ (mholds bA) (holds bkx) (alloc bky) rfl rfl rfl rfl
    rfl (by kview_facts) (by kview_facts)

/-- **C50** `matrix_product(exec, A, B, C)`: the native result. -/
theorem C50_gemm [NonAssocSemiring α] (K : KokkosLib α) (hK : K.GemmOk) (A B C : KMat)
    (h : Heap α) (a b : Nat → Nat → α) (hA : A.toMat.Holds h a) (hB : B.toMat.Holds h b)
    (hC : C.toMat.Alloc h) (hAt : A.transposed = false) (hBt : B.transposed = false)
    (hCt : C.transposed = false) (hAB : A.cols = B.rows) (hAC : A.rows = C.rows)
    (hBC : B.cols = C.cols) (hu : C.toMat.Unique) (hApC : Apart A.toMat.Cell C.toMat.Cell)
    (hBpC : Apart B.toMat.Cell C.toMat.Cell) :
    SameOutcome (gemm A.toMat.view B.toMat.view C.toMat) (kkGemm K A B C) h :=
  same_mat (C31_gemm _ _ _ _ _ _ (Mat.HoldsOn.toView hA) (Mat.HoldsOn.toView hB) hC hAC.symm hAB
      hBC.symm hu hApC hBpC)
    (C53_gemm K hK A B C h a b hA hB hC hAt hBt hCt hAB hAC hBC hu hApC hBpC)
    fun _ _ _ _ _ => rfl

example : SameOutcome (gemm kT.toMat.view kW.toMat.view kC.toMat)
    (kkGemm (refLib Uplo.standard abs) kT kW kC) (heap ℝ) :=
  C50_gemm _ (refLib_gemm _ _) kT kW kC _ _ _ (mholds bT) (mholds bW) (malloc bC) rfl rfl rfl rfl
    rfl rfl (by kview_facts) (by kview_facts) (by kview_facts)

/-- **C50** `matrix_product` with a transposed view as first argument: the native result. -/
theorem C50_gemm_transposed_left [NonAssocSemiring α] (K : KokkosLib α) (hK : K.GemmOk)
    (AT B C : KMat) (h : Heap α) (a b : Nat → Nat → α) (hA : AT.toMat.Holds h a)
    (hB : B.toMat.Holds h b) (hC : C.toMat.Alloc h) (hAt : AT.transposed = true)
    (hBt : B.transposed = false) (hCt : C.transposed = false) (hAB : AT.cols = B.rows)
    (hAC : AT.rows = C.rows) (hBC : B.cols = C.cols) (hu : C.toMat.Unique)
    (hApC : Apart AT.toMat.Cell C.toMat.Cell) (hBpC : Apart B.toMat.Cell C.toMat.Cell) :
    SameOutcome (gemm AT.toMat.view B.toMat.view C.toMat) (kkGemmTransA K AT B C) h :=
  same_mat (C31_gemm _ _ _ _ _ _ (Mat.HoldsOn.toView hA) (Mat.HoldsOn.toView hB) hC hAC.symm hAB
      hBC.symm hu hApC hBpC)
    (C53_gemm_transposed_left K hK AT B C h a b hA hB hC hAt hBt hCt hAB hAC hBC hu hApC hBpC)
    fun _ _ _ _ _ => rfl

example : SameOutcome (gemm T.view kW.toMat.view kC.toMat)
    (kkGemmTransA (refLib Uplo.standard abs) ⟨T, true⟩ kW kC) (heap ℝ) :=
  C50_gemm_transposed_left _ (refLib_gemm _ _) ⟨T, true⟩ kW kC _ _ _ (mholds bT) (mholds bW)
    (malloc bC) rfl rfl rfl rfl rfl rfl (by kview_facts) (by kview_facts) (by kview_facts)

/-- **C50** `matrix_product` with a transposed view as second argument: the native result. -/
theorem C50_gemm_transposed_right [NonAssocSemiring α] (K : KokkosLib α) (hK : K.GemmOk)
    (A BT C : KMat) (h : Heap α) (a b : Nat → Nat → α) (hA : A.toMat.Holds h a)
    (hB : BT.toMat.Holds h b) (hC : C.toMat.Alloc h) (hAt : A.transposed = false)
    (hBt : BT.transposed = true) (hCt : C.transposed = false) (hAB : A.cols = BT.rows)
    (hAC : A.rows = C.rows) (hBC : BT.cols = C.cols) (hu : C.toMat.Unique)
    (hApC : Apart A.toMat.Cell C.toMat.Cell) (hBpC : Apart BT.toMat.Cell C.toMat.Cell) :
    SameOutcome (gemm A.toMat.view BT.toMat.view C.toMat) (kkGemmTransB K A BT C) h :=
  same_mat (C31_gemm _ _ _ _ _ _ (Mat.HoldsOn.toView hA) (Mat.HoldsOn.toView hB) hC hAC.symm hAB
      hBC.symm hu hApC hBpC)
    (C53_gemm_transposed_right K hK A BT C h a b hA hB hC hAt hBt hCt hAB hAC hBC hu hApC hBpC)
    fun _ _ _ _ _ => rfl

example : SameOutcome (gemm kT.toMat.view W.view kC.toMat)
    (kkGemmTransB (refLib Uplo.standard abs) kT ⟨W, true⟩ kC) (heap ℝ) :=
  C50_gemm_transposed_right _ (refLib_gemm _ _) kT ⟨W, true⟩ kC _ _ _ (mholds bT) (mholds bW)
    (malloc bC) rfl rfl rfl rfl rfl rfl (by kview_facts) (by kview_facts) (by kview_facts)

/-- **C50** `triangular_matrix_vector_solve(exec, A, t, d, b, x)`: the native result. -/
theorem C50_trsv [Field α] (K : KokkosLib α) (hK : K.TrsmOk Uplo.standard)
    (hK' : K.DeepCopyOk) (A : KMat) (t : Triangle) (d : Diag) (b x : KVec) (h : Heap α)
    (a : Nat → Nat → α) (g : Nat → α) (hA : A.toMat.HoldsOn h (triRegion t d) a)
    (hb : b.mdspan.Holds h g) (hx : x.mdspan.Alloc h) (hAt : A.transposed = false)
    (hbs : b.stride = 1) (hxs : x.stride = 1) (hsq : A.rows = A.cols) (hAb : A.cols = b.ext)
    (hAx : A.rows = x.ext) (hApx : Apart (A.toMat.CellOn (triRegion t d)) x.mdspan.Cell)
    (hbx : Apart b.mdspan.Cell x.mdspan.Cell ∨ x.mdspan = b.mdspan)
    (hnz : d = .explicit → ∀ i, i < A.rows → a i i ≠ 0) :
    SameOutcome (trsv (· / ·) A.toMat.view t d b.mdspan.view x.mdspan) (kkTrsv K A t d b x) h := by
  have hn := C21_trsv_field A.toMat.view t d b.mdspan.view x.mdspan h a g (Mat.HoldsOn.toView hA)
    hb.toView hx hsq hAx (hsq.trans hAb).le (KVec.mdspan_unique hxs) hApx
    (Vec.aligned_of_apart (KVec.mdspan_unique hxs) hbx) hnz
  obtain ⟨u, h', e, v, bv, -, uniq⟩ := hn
  refine same_vec (f := v) (g := v) ⟨u, h', e, bv⟩ ((C53_trsv K hK hK' A t d b x h a g hA hb hx hAt
    hbs hxs hsq hAb hAx hApx hbx hnz).mono ?_) fun _ _ => rfl
  rintro _ h'' ⟨w, bw, ew⟩
  exact bw.congr fun i hi => uniq w ew i (lt_of_lt_of_eq hi hAx.symm)

example : SameOutcome (trsv (· / ·) kA.toMat.view .upper .explicit ky.mdspan.view ky.mdspan)
    (kkTrsv (refLib Uplo.standard abs) kA .upper .explicit ky ky) (heap ℝ) :=
  C50_trsv _ (refLib_trsm _ _) (refLib_deepCopy ..) kA _ _ ky ky _ _ _ (mholds bA) (holds bky)
    (alloc bky) rfl rfl rfl rfl rfl rfl (by kview_facts) (Or.inr rfl) fun _ => mvals_A_ne_zero

/-- **C50** `triangular_matrix_matrix_left_solve(exec, A, t, d, B, X)`: the native result. -/
theorem C50_trsm_left [Field α] (K : KokkosLib α) (hK : K.TrsmOk Uplo.standard)
    (hK' : K.DeepCopyOk) (A : KMat) (t : Triangle) (d : Diag) (B X : KMat) (h : Heap α)
    (a b : Nat → Nat → α) (hA : A.toMat.HoldsOn h (triRegion t d) a) (hB : B.toMat.Holds h b)
    (hX : X.toMat.Alloc h) (hAt : A.transposed = false) (hBt : B.transposed = false)
    (hXt : X.transposed = false) (hsq : A.rows = A.cols) (hAB : A.cols = B.rows)
    (hr : X.rows = B.rows) (hc : X.cols = B.cols) (hu : X.toMat.Unique)
    (hApX : Apart (A.toMat.CellOn (triRegion t d)) X.toMat.Cell)
    (hBX : Apart B.toMat.Cell X.toMat.Cell ∨ X.toMat = B.toMat)
    (hnz : d = .explicit → ∀ i, i < A.rows → a i i ≠ 0) :
    SameOutcome (trsm A.toMat.view t d .left B.toMat.view X.toMat) (kkTrsmLeft K A t d B X) h := by
  have hn := C37_trsm_field A.toMat.view t d .left B.toMat.view X.toMat h a b
    (Mat.HoldsOn.toView hA) (Mat.HoldsOn.toView hB) hX hsq
    (hr.trans (hAB.symm.trans hsq.symm)) hr hc hu hApX (Mat.aligned_of_apart hu hBX) hnz
  obtain ⟨u, h', e, v, bv, -, uniq⟩ := hn
  refine same_mat (R := everywhere) (f := v) (g := v) ⟨u, h', e, bv⟩ ((C53_trsm_left K hK hK' A t d
    B X h a b hA hB hX hAt hBt hXt hsq hAB hr hc hu hApX hBX hnz).mono ?_) fun _ _ _ _ _ => rfl
  rintro _ h'' ⟨w, bw, ew⟩
  exact bw.congr fun i j hi hj _ => uniq w ew i j hi hj

example : SameOutcome (trsm kA.toMat.view .lower .explicit .left kT.toMat.view kT.toMat)
    (kkTrsmLeft (refLib Uplo.standard abs) kA .lower .explicit kT kT) (heap ℝ) :=
  C50_trsm_left _ (refLib_trsm _ _) (refLib_deepCopy ..) kA _ _ kT kT _ _ _ (mholds bA)
    (mholds bT) (malloc bT) rfl rfl rfl rfl rfl rfl rfl (by kview_facts) (by kview_facts)
    (Or.inr rfl) fun _ => mvals_A_ne_zero

/-- **C50** `triangular_matrix_matrix_right_solve(exec, A, t, d, B, X)`: the native result. -/
theorem C50_trsm_right [Field α] (K : KokkosLib α) (hK : K.TrsmOk Uplo.standard)
    (hK' : K.DeepCopyOk) (A : KMat) (t : Triangle) (d : Diag) (B X : KMat) (h : Heap α)
    (a b : Nat → Nat → α) (hA : A.toMat.HoldsOn h (triRegion t d) a) (hB : B.toMat.Holds h b)
    (hX : X.toMat.Alloc h) (hAt : A.transposed = false) (hBt : B.transposed = false)
    (hXt : X.transposed = false) (hsq : A.rows = A.cols) (hAB : A.cols = B.cols)
    (hr : X.rows = B.rows) (hc : X.cols = B.cols) (hu : X.toMat.Unique)
    (hApX : Apart (A.toMat.CellOn (triRegion t d)) X.toMat.Cell)
    (hBX : Apart B.toMat.Cell X.toMat.Cell ∨ X.toMat = B.toMat)
    (hnz : d = .explicit → ∀ i, i < A.rows → a i i ≠ 0) :
    SameOutcome (trsm A.toMat.view t d .right B.toMat.view X.toMat) (kkTrsmRight K A t d B X) h := by
  have hn := C37_trsm_field A.toMat.view t d .right B.toMat.view X.toMat h a b
    (Mat.HoldsOn.toView hA) (Mat.HoldsOn.toView hB) hX hsq
    (hc.trans (hAB.symm.trans hsq.symm)) hr hc hu hApX (Mat.aligned_of_apart hu hBX) hnz
  obtain ⟨u, h', e, v, bv, -, uniq⟩ := hn
  refine same_mat (R := everywhere) (f := v) (g := v) ⟨u, h', e, bv⟩ ((C53_trsm_right K hK hK' A t d
    B X h a b hA hB hX hAt hBt hXt hsq hAB hr hc hu hApX hBX hnz).mono ?_) fun _ _ _ _ _ => rfl
  rintro _ h'' ⟨w, bw, ew⟩
  exact bw.congr fun i j hi hj _ => uniq w ew i j hi hj

example : SameOutcome (trsm kA.toMat.view .lower .explicit .right kW.toMat.view kW.toMat)
    (kkTrsmRight (refLib Uplo.standard abs) kA .lower .explicit kW kW) (heap ℝ) :=
  C50_trsm_right _ (refLib_trsm _ _) (refLib_deepCopy ..) kA _ _ kW kW _ _ _ (mholds bA)
    (mholds bW) (malloc bW) rfl rfl rfl rfl rfl rfl rfl (by kview_facts) (by kview_facts)
    (Or.inr rfl) fun _ => mvals_A_ne_zero

/-! ## Arguments of wrong sizes (C52)

Whatever the library does, and whatever memory holds, the calls throw. -/

theorem throws_require {β : Type} {c bad : Prop} [Decidable c] {k : Unit → Sched α β}
    (hk : bad → Throws (k ())) : (¬ c ∨ bad) → Throws (require c >>= k) := by
  intro hb h
  by_cases hc : c
  · have := hk (hb.resolve_left (not_not.2 hc)) h
    simpa only [require, if_pos hc, sched_pure_bind] using this
  · exact fails_require_bind hc k

theorem throws_last {c : Prop} [Decidable c] : ¬ c → Throws (require c : Sched α Unit) := by
  intro hc h
  simp only [require, if_neg hc]
  exact surelyFails_throw

theorem throws_bind {β γ : Type} {p : Sched α β} {k : β → Sched α γ} (hp : Throws p) :
    Throws (p >>= k) := fun h => (hp h).bind k

theorem kkCheckGemm_throws {A B C : Mat}
    (bad : A.cols ≠ B.rows ∨ A.rows ≠ C.rows ∨ B.cols ≠ C.cols) :
    Throws (kkCheckGemm A B C : Sched α Unit) :=
  throws_require (throws_require throws_last) bad

/-- **C52** `add(exec, x, y, z)`, rank 1 -/
theorem C52_add_vector [One α] [Zero α] (K : KokkosLib α) (x y z : KVec)
    (bad : x.ext ≠ y.ext ∨ y.ext ≠ z.ext) :
    Throws (kkAdd1 K x y z) :=
  throws_require (throws_require False.elim) (by simpa only [or_false] using bad)

example : Throws (kkAdd1 (refLib Uplo.standard abs) kx ky ⟨2, 0, 1⟩ : Sched ℝ Unit) := C52_add_vector _ _ _ _ (by decide)

/-- **C52** `add(exec, x, y, z)`, rank 2 -/
theorem C52_add_matrix [One α] [Zero α] (K : KokkosLib α) (x y z : KMat)
    (bad : x.rows ≠ y.rows ∨ y.rows ≠ z.rows ∨ x.cols ≠ y.cols ∨ y.cols ≠ z.cols) :
    Throws (kkAdd2 K x y z) :=
  throws_require (throws_require (throws_require (throws_require False.elim)))
    (by simpa only [or_false] using bad)

example : Throws (kkAdd2 (refLib Uplo.standard abs) kA kB kT : Sched ℝ Unit) := C52_add_matrix _ _ _ _ (by decide)

/-- **C52** `dotc(exec, x, y, init)` -/
theorem C52_dotc [Add α] (K : KokkosLib α) (x y : KVec) (init : α)
    (bad : x.ext ≠ y.ext) :
    Throws (kkDotc K x y init) :=
  throws_require False.elim (Or.inl bad)

example : Throws (kkDotc (refLib Uplo.standard abs) kx ⟨2, 0, 1⟩ 5 : Sched ℝ ℝ) := C52_dotc _ _ _ _ (by decide)

/-- **C52** `matrix_vector_product(exec, A, x, y)` -/
theorem C52_gemv [One α] [Zero α] (K : KokkosLib α) (A : KMat) (x y : KVec)
    (bad : A.cols ≠ x.ext ∨ A.rows ≠ y.ext) :
    Throws (kkGemv K A x y) :=
  throws_require (throws_require False.elim) (by simpa only [or_false] using bad)

example : Throws (kkGemv (refLib Uplo.standard abs) kT kx ky : Sched ℝ Unit) := C52_gemv _ _ _ _ (by decide)

/-- **C52** `matrix_product(exec, A, B, C)` -/
theorem C52_gemm [One α] [Zero α] (K : KokkosLib α) (A B C : KMat)
    (bad : A.cols ≠ B.rows ∨ A.rows ≠ C.rows ∨ B.cols ≠ C.cols) :
    Throws (kkGemm K A B C) :=
  throws_bind (kkCheckGemm_throws bad)

example : Throws (kkGemm (refLib Uplo.standard abs) kT kW kT : Sched ℝ Unit) := C52_gemm _ _ _ _ (by decide)

/-- **C52** `matrix_product(exec, transposed(A), B, C)` -/
theorem C52_gemm_transposed_left [One α] [Zero α] (K : KokkosLib α) (A B C : KMat)
    (bad : A.cols ≠ B.rows ∨ A.rows ≠ C.rows ∨ B.cols ≠ C.cols) :
    Throws (kkGemmTransA K A B C) :=
  throws_bind (kkCheckGemm_throws bad)

example : Throws (kkGemmTransA (refLib Uplo.standard abs) kT kW kT : Sched ℝ Unit) := C52_gemm_transposed_left _ _ _ _ (by decide)

/-- **C52** `matrix_product(exec, A, transposed(B), C)` -/
theorem C52_gemm_transposed_right [One α] [Zero α] (K : KokkosLib α) (A B C : KMat)
    (bad : A.cols ≠ B.rows ∨ A.rows ≠ C.rows ∨ B.cols ≠ C.cols) :
    Throws (kkGemmTransB K A B C) :=
  throws_bind (kkCheckGemm_throws bad)

example : Throws (kkGemmTransB (refLib Uplo.standard abs) kT kW kT : Sched ℝ Unit) := C52_gemm_transposed_right _ _ _ _ (by decide)

/-- **C52** `matrix_product(exec, A, B, C)` with other accessors -/
theorem C52_gemm_fallback [Add α] [Mul α] [Zero α] (A B : MatV α) (C : Mat)
    (bad : A.cols ≠ B.rows ∨ A.rows ≠ C.rows ∨ B.cols ≠ C.cols) :
    Throws (kkGemmFallback A B C) :=
  throws_bind (kkCheckGemm_throws bad)

example : Throws (kkGemmFallback (T.view.scaled 2) W.view T : Sched ℝ Unit) :=
  C52_gemm_fallback _ _ _ (by decide)

/-- **C52** `triangular_matrix_left_product(exec, A, t, explicit_diagonal, B, C)` -/
theorem C52_trmm_left_explicit [One α] (K : KokkosLib α) (A : KMat) (t : Triangle) (B C : KMat)
    (bad : A.rows ≠ A.cols ∨ A.cols ≠ B.rows ∨ A.rows ≠ C.rows ∨ B.cols ≠ C.cols) :
    Throws (kkTrmmLeftExplicit K A t B C) :=
  throws_bind ((kkCheckLeft_throws A B C).1 bad)

example : Throws (kkTrmmLeftExplicit (refLib Uplo.standard abs) kA .lower kT kC : Sched ℝ Unit) :=
  C52_trmm_left_explicit _ _ _ _ _ (by decide)

/-- **C52** `triangular_matrix_left_product(exec, A, t, explicit_diagonal, C)` -/
theorem C52_trmm_left_in_place_explicit [One α] (K : KokkosLib α) (A : KMat) (t : Triangle)
    (C : KMat) (bad : A.rows ≠ A.cols ∨ A.cols ≠ C.rows) :
    Throws (kkTrmmLeftInPlaceExplicit K A t C) :=
  throws_bind ((kkCheckLeft_throws A C C).1 (by omega))

example : Throws (kkTrmmLeftInPlaceExplicit (refLib Uplo.standard abs) kA .lower kW : Sched ℝ Unit) :=
  C52_trmm_left_in_place_explicit _ _ _ _ (by decide)

/-- **C52** `triangular_matrix_right_product(exec, A, t, explicit_diagonal, B, C)` -/
theorem C52_trmm_right_explicit [One α] (K : KokkosLib α) (A : KMat) (t : Triangle) (B C : KMat)
    (bad : A.rows ≠ A.cols ∨ B.cols ≠ A.rows ∨ B.rows ≠ C.rows ∨ A.cols ≠ C.cols) :
    Throws (kkTrmmRightExplicit K A t B C) :=
  throws_bind ((kkCheckRight_throws A B C).1 bad)

example : Throws (kkTrmmRightExplicit (refLib Uplo.standard abs) kA .lower kT kC : Sched ℝ Unit) :=
  C52_trmm_right_explicit _ _ _ _ _ (by decide)

/-- **C52** `triangular_matrix_right_product(exec, A, t, explicit_diagonal, C)` -/
theorem C52_trmm_right_in_place_explicit [One α] (K : KokkosLib α) (A : KMat) (t : Triangle)
    (C : KMat) (bad : A.rows ≠ A.cols ∨ C.cols ≠ A.rows) :
    Throws (kkTrmmRightInPlaceExplicit K A t C) :=
  throws_bind ((kkCheckRight_throws A C C).1 (by omega))

example : Throws (kkTrmmRightInPlaceExplicit (refLib Uplo.standard abs) kA .lower kT : Sched ℝ Unit) :=
  C52_trmm_right_in_place_explicit _ _ _ _ (by decide)

/-- **C52** `triangular_matrix_vector_solve(exec, A, t, d, b, x)` -/
theorem C52_trsv [One α] (K : KokkosLib α) (A : KMat) (t : Triangle) (d : Diag) (b x : KVec)
    (bad : A.rows ≠ A.cols ∨ A.cols ≠ b.ext ∨ A.rows ≠ x.ext) :
    Throws (kkTrsv K A t d b x) :=
  throws_require (throws_require (throws_require False.elim)) (by simpa only [or_false] using bad)

example : Throws (kkTrsv (refLib Uplo.standard abs) kA .lower .explicit ⟨2, 0, 1⟩ ky : Sched ℝ Unit) :=
  C52_trsv _ _ _ _ _ _ (by decide)

/-- **C52** `triangular_matrix_matrix_left_solve(exec, A, t, d, B, X)` -/
theorem C52_trsm_left [One α] (K : KokkosLib α) (A : KMat) (t : Triangle) (d : Diag) (B X : KMat)
    (bad : A.rows ≠ A.cols ∨ A.cols ≠ B.rows ∨ X.rows ≠ B.rows ∨ X.cols ≠ B.cols) :
    Throws (kkTrsmLeft K A t d B X) :=
  throws_require (throws_require (throws_require (throws_require False.elim)))
    (by simpa only [or_false] using bad)

example : Throws (kkTrsmLeft (refLib Uplo.standard abs) kA .lower .explicit kW kW : Sched ℝ Unit) :=
  C52_trsm_left _ _ _ _ _ _ (by decide)

/-- **C52** `triangular_matrix_matrix_right_solve(exec, A, t, d, B, X)` -/
theorem C52_trsm_right [One α] (K : KokkosLib α) (A : KMat) (t : Triangle) (d : Diag) (B X : KMat)
    (bad : A.rows ≠ A.cols ∨ A.cols ≠ B.cols ∨ X.rows ≠ B.rows ∨ X.cols ≠ B.cols) :
    Throws (kkTrsmRight K A t d B X) :=
  throws_require (throws_require (throws_require (throws_require False.elim)))
    (by simpa only [or_false] using bad)

example : Throws (kkTrsmRight (refLib Uplo.standard abs) kA .lower .explicit kT kT : Sched ℝ Unit) :=
  C52_trsm_right _ _ _ _ _ _ (by decide)

/-- **C52** `copy(exec, x, y)`, rank 1: `deep_copy` refuses -/
theorem C52_copy_vector (K : KokkosLib α) (hK : K.DeepCopyOk) (x y : KVec) (bad : y.ext ≠ x.ext) :
    Throws (kkCopy1 K x y) :=
  hK.vec_ext _ _ bad

example : Throws (kkCopy1 (refLib Uplo.standard abs) kx ⟨2, 0, 1⟩ : Sched ℝ Unit) :=
  C52_copy_vector _ (refLib_deepCopy ..) _ _ (by decide)

/-- **C52** `copy(exec, x, y)`, rank 2, equal layouts: `deep_copy` refuses -/
theorem C52_copy_matrix_same_layout (K : KokkosLib α) (hK : K.DeepCopyOk) (x y : KMat)
    (hxt : x.transposed = false) (hyt : y.transposed = false) (bad : y.rows ≠ x.rows ∨ y.cols ≠ x.cols) :
    Throws (kkCopySame2 K x y) :=
  by
  unfold kkCopySame2
  rw [KMat.view_eq hxt, KMat.view_eq hyt]
  exact hK.mat_ext _ _ bad

example : Throws (kkCopySame2 (refLib Uplo.standard abs) kA kT : Sched ℝ Unit) :=
  C52_copy_matrix_same_layout _ (refLib_deepCopy ..) _ _ rfl rfl (by decide)

end StdBLAS

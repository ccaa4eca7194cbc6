import Verif.Lemmas.Kokkos
import Verif.Props.KokkosWitness

/-!
# Property C48: the parallel loops of the Kokkos backend, rank updates

`Surely p h Q`: under every interleaving of the memory accesses of the iterations, `p` ends
without error and without data race, and `Q` holds.  `Q` here fixes all of memory, so all
interleavings end in the same memory.

The vectors must be contiguous (`stride = 1`) and the matrices not of `layout_transpose`; for
others see `C50_strided_vector_false` and `C50_transposed_matrix_false`.
-/

namespace StdBLAS
open Finset Witness
variable {α : Type}

/-! ## Rank-1 updates -/

/-- **C48** `matrix_rank_1_update(exec, x, y, A)` -/
theorem C48_ger [Add α] [Mul α] (x y : KVec) (A : KMat) (h : Heap α) (f g : Nat → α)
    (a : Nat → Nat → α) (hx : x.mdspan.Holds h f) (hy : y.mdspan.Holds h g)
    (hA : A.toMat.Holds h a) (hxs : x.stride = 1) (hys : y.stride = 1)
    (hAt : A.transposed = false) (hxe : A.rows = x.ext) (hye : A.cols = y.ext)
    (hu : A.toMat.Unique) (hxA : Apart x.mdspan.Cell A.toMat.Cell)
    (hyA : Apart y.mdspan.Cell A.toMat.Cell) :
    Surely (kkGer x y A) h fun _ h' => A.toMat.Becomes h h' fun i j => a i j + f i * g j := by
  unfold kkGer
  rw [KVec.view_eq hxs, KVec.view_eq hys, KMat.view_eq hAt]
  refine surely_require_bind hxe (surely_require_bind hye (visit_full _ hu fun i j hi hj => ?_))
  have hi' : i < x.ext := by omega
  have hj' : j < y.ext := by omega
  rw [Task.safe_bind, hx.safe_rd hxA (fun _ _ => rfl) hi', Task.safe_bind,
    hy.safe_rd hyA (fun _ _ => rfl) hj',
    Mat.safe_incr hi hj (hA i j hi hj trivial)]
  simp

example : Surely (kkGer kx ky kA) (heap ℤ) fun _ h' =>
    A.Becomes (heap ℤ) h' fun i j =>
      mvals ℤ A i j + vals ℤ kx.mdspan i * vals ℤ ky.mdspan j :=
  C48_ger _ _ _ _ _ _ _ (holds bkx) (holds bky) (mholds bA) rfl rfl rfl rfl rfl
    (by kview_facts) (by kview_facts) (by kview_facts)

/-- **C48** `matrix_rank_1_update_c(exec, x, y, A)` -/
theorem C48_gerc [Add α] [Mul α] [ConjOps α] (x y : KVec) (A : KMat) (h : Heap α)
    (f g : Nat → α) (a : Nat → Nat → α) (hx : x.mdspan.Holds h f) (hy : y.mdspan.Holds h g)
    (hA : A.toMat.Holds h a) (hxs : x.stride = 1) (hys : y.stride = 1)
    (hAt : A.transposed = false) (hxe : A.rows = x.ext) (hye : A.cols = y.ext)
    (hu : A.toMat.Unique) (hxA : Apart x.mdspan.Cell A.toMat.Cell)
    (hyA : Apart y.mdspan.Cell A.toMat.Cell) :
    Surely (kkGerc x y A) h fun _ h' =>
      A.toMat.Becomes h h' fun i j => a i j + f i * ConjOps.conj (g j) := by
  unfold kkGerc
  rw [KVec.view_eq hxs, KVec.view_eq hys, KMat.view_eq hAt]
  refine surely_require_bind hxe (surely_require_bind hye (visit_full _ hu fun i j hi hj => ?_))
  have hi' : i < x.ext := by omega
  have hj' : j < y.ext := by omega
  rw [Task.safe_bind, hx.safe_rd hxA (fun _ _ => rfl) hi', Task.safe_bind,
    hy.safe_rd hyA (fun _ _ => rfl) hj',
    Mat.safe_incr hi hj (hA i j hi hj trivial)]
  simp

example : Surely (kkGerc kx ky kA) (heap ℂ) fun _ h' =>
    A.Becomes (heap ℂ) h' fun i j =>
      mvals ℂ A i j + vals ℂ kx.mdspan i * (starRingEnd ℂ) (vals ℂ ky.mdspan j) :=
  C48_gerc _ _ _ _ _ _ _ (holds bkx) (holds bky) (mholds bA) rfl rfl rfl rfl rfl
    (by kview_facts) (by kview_facts) (by kview_facts)

/-- **C48** `symmetric_matrix_rank_1_update(exec, x, A, t)` -/
theorem C48_syr [Add α] [Mul α] (x : KVec) (A : KMat) (t : Triangle) (h : Heap α)
    (f : Nat → α) (a : Nat → Nat → α) (hx : x.mdspan.Holds h f)
    (hA : A.toMat.HoldsOn h t.region a) (hxs : x.stride = 1) (hAt : A.transposed = false)
    (hsq : A.rows = A.cols) (hxe : A.rows = x.ext) (hu : A.toMat.UniqueOn t.region)
    (hxA : Apart x.mdspan.Cell (A.toMat.CellOn t.region)) :
    Surely (kkSyr x A t) h fun _ h' =>
      A.toMat.BecomesOn h h' t.region fun i j => a i j + f i * f j := by
  unfold kkSyr
  rw [KVec.view_eq hxs, KMat.view_eq hAt]
  refine surely_require_bind hsq (surely_require_bind hxe
    (visit_triangle _ hu hsq fun i j hi hj hr => ?_))
  have hi' : i < x.ext := by omega
  have hj' : j < x.ext := by omega
  rw [Task.safe_bind, hx.safe_rd hxA (fun _ _ => rfl) hi', Task.safe_bind,
    hx.safe_rd hxA (fun _ _ => rfl) hj',
    Mat.safe_incr hi hj (hA i j hi hj hr)]
  simp

/-- only the upper triangle of the matrix is accessible memory here -/
example : Surely (kkSyr kx ⟨⟨3, 3, fun i j => if i ≤ j then 30 + i + 3 * j else 1000⟩, false⟩
    .upper) (heap ℤ) fun _ h' =>
    (⟨3, 3, fun i j => if i ≤ j then 30 + i + 3 * j else 1000⟩ : Mat).BecomesOn (heap ℤ) h'
      (fun i j => i ≤ j) fun i j =>
      mvals ℤ A i j + vals ℤ kx.mdspan i * vals ℤ kx.mdspan j := by
  refine C48_syr _ _ _ _ _ (mvals ℤ A) (holds bkx) ?_ rfl rfl rfl rfl ?_ ?_
  · intro i j hi hj hr
    simp only [Triangle.region] at hr
    simp only [if_pos hr]
    exact heap_lt (by simp only at hi hj; omega)
  · intro i j k l hi hj hr hk hl hr' e
    simp only [Triangle.region] at *
    simp only [if_pos hr, if_pos hr'] at e
    omega
  · rintro a ⟨k, hk, e'⟩ ⟨i, j, hi, hj, hr, e⟩
    simp only [Triangle.region, KVec.mdspan, kx] at *
    simp only [if_pos hr] at e
    omega

/-- **C48** `hermitian_matrix_rank_1_update(exec, x, A, t)`: what it computes under every
schedule.  The diagonal is not made real: `C50_her_keeps_imaginary_diagonal`. -/
theorem C48_her [Add α] [Mul α] [ConjOps α] (x : KVec) (A : KMat) (t : Triangle) (h : Heap α)
    (f : Nat → α) (a : Nat → Nat → α) (hx : x.mdspan.Holds h f)
    (hA : A.toMat.HoldsOn h t.region a) (hxs : x.stride = 1) (hAt : A.transposed = false)
    (hsq : A.rows = A.cols) (hxe : A.rows = x.ext) (hu : A.toMat.UniqueOn t.region)
    (hxA : Apart x.mdspan.Cell (A.toMat.CellOn t.region)) :
    Surely (kkHer x A t) h fun _ h' =>
      A.toMat.BecomesOn h h' t.region fun i j => a i j + f i * ConjOps.conj (f j) := by
  unfold kkHer
  rw [KVec.view_eq hxs, KMat.view_eq hAt]
  refine surely_require_bind hsq (surely_require_bind hxe
    (visit_triangle _ hu hsq fun i j hi hj hr => ?_))
  have hi' : i < x.ext := by omega
  have hj' : j < x.ext := by omega
  rw [Task.safe_bind, hx.safe_rd hxA (fun _ _ => rfl) hi', Task.safe_bind,
    hx.safe_rd hxA (fun _ _ => rfl) hj',
    Mat.safe_incr hi hj (hA i j hi hj hr)]
  simp

example (t : Triangle) : Surely (kkHer kx kA t) (heap ℂ) fun _ h' =>
    A.BecomesOn (heap ℂ) h' t.region fun i j =>
      mvals ℂ A i j + vals ℂ kx.mdspan i * (starRingEnd ℂ) (vals ℂ kx.mdspan j) :=
  C48_her _ _ _ _ _ _ (holds bkx) (mholds bA) rfl rfl rfl rfl
    (by kview_facts) (by kview_facts)

/-! ## Rank-2 updates -/

/-- **C48** `symmetric_matrix_rank_2_update(exec, x, y, A, t)` -/
theorem C48_syr2 [Add α] [Mul α] (x y : KVec) (A : KMat) (t : Triangle) (h : Heap α)
    (f g : Nat → α) (a : Nat → Nat → α) (hx : x.mdspan.Holds h f) (hy : y.mdspan.Holds h g)
    (hA : A.toMat.HoldsOn h t.region a) (hxs : x.stride = 1) (hys : y.stride = 1)
    (hAt : A.transposed = false)
    (hsq : A.rows = A.cols) (hxe : A.rows = x.ext) (hye : A.rows = y.ext)
    (hu : A.toMat.UniqueOn t.region)
    (hxA : Apart x.mdspan.Cell (A.toMat.CellOn t.region))
    (hyA : Apart y.mdspan.Cell (A.toMat.CellOn t.region)) :
    Surely (kkSyr2 x y A t) h fun _ h' =>
      A.toMat.BecomesOn h h' t.region fun i j => a i j + (f i * g j + g i * f j) := by
  unfold kkSyr2
  rw [KVec.view_eq hxs, KVec.view_eq hys, KMat.view_eq hAt]
  refine surely_require_bind hsq (surely_require_bind hxe (surely_require_bind hye
    (visit_triangle _ hu hsq fun i j hi hj hr => ?_)))
  have hi' : i < x.ext := by omega
  have hj' : j < x.ext := by omega
  have hi'' : i < y.ext := by omega
  have hj'' : j < y.ext := by omega
  rw [Task.safe_bind, hx.safe_rd hxA (fun _ _ => rfl) hi', Task.safe_bind,
    hy.safe_rd hyA (fun _ _ => rfl) hj'', Task.safe_bind,
    hy.safe_rd hyA (fun _ _ => rfl) hi'', Task.safe_bind,
    hx.safe_rd hxA (fun _ _ => rfl) hj',
    Mat.safe_incr hi hj (hA i j hi hj hr)]
  simp

example (t : Triangle) : Surely (kkSyr2 kx ky kA t) (heap ℤ) fun _ h' =>
    A.BecomesOn (heap ℤ) h' t.region fun i j => mvals ℤ A i j +
      (vals ℤ kx.mdspan i * vals ℤ ky.mdspan j + vals ℤ ky.mdspan i * vals ℤ kx.mdspan j) :=
  C48_syr2 _ _ _ _ _ _ _ _ (holds bkx) (holds bky) (mholds bA) rfl rfl rfl rfl rfl rfl
    (by kview_facts) (by kview_facts) (by kview_facts)

/-- **C48** `hermitian_matrix_rank_2_update(exec, x, y, A, t)` -/
theorem C48_her2 [Add α] [Mul α] [ConjOps α] (x y : KVec) (A : KMat) (t : Triangle) (h : Heap α)
    (f g : Nat → α) (a : Nat → Nat → α) (hx : x.mdspan.Holds h f) (hy : y.mdspan.Holds h g)
    (hA : A.toMat.HoldsOn h t.region a) (hxs : x.stride = 1) (hys : y.stride = 1)
    (hAt : A.transposed = false)
    (hsq : A.rows = A.cols) (hxe : A.rows = x.ext) (hye : A.rows = y.ext)
    (hu : A.toMat.UniqueOn t.region)
    (hxA : Apart x.mdspan.Cell (A.toMat.CellOn t.region))
    (hyA : Apart y.mdspan.Cell (A.toMat.CellOn t.region)) :
    Surely (kkHer2 x y A t) h fun _ h' =>
      A.toMat.BecomesOn h h' t.region fun i j =>
        a i j + (f i * ConjOps.conj (g j) + g i * ConjOps.conj (f j)) := by
  unfold kkHer2
  rw [KVec.view_eq hxs, KVec.view_eq hys, KMat.view_eq hAt]
  refine surely_require_bind hsq (surely_require_bind hxe (surely_require_bind hye
    (visit_triangle _ hu hsq fun i j hi hj hr => ?_)))
  have hi' : i < x.ext := by omega
  have hj' : j < x.ext := by omega
  have hi'' : i < y.ext := by omega
  have hj'' : j < y.ext := by omega
  rw [Task.safe_bind, hx.safe_rd hxA (fun _ _ => rfl) hi', Task.safe_bind,
    hy.safe_rd hyA (fun _ _ => rfl) hj'', Task.safe_bind,
    hy.safe_rd hyA (fun _ _ => rfl) hi'', Task.safe_bind,
    hx.safe_rd hxA (fun _ _ => rfl) hj',
    Mat.safe_incr hi hj (hA i j hi hj hr)]
  simp

example (t : Triangle) : Surely (kkHer2 kx ky kA t) (heap ℂ) fun _ h' =>
    A.BecomesOn (heap ℂ) h' t.region fun i j => mvals ℂ A i j +
      (vals ℂ kx.mdspan i * (starRingEnd ℂ) (vals ℂ ky.mdspan j) +
        vals ℂ ky.mdspan i * (starRingEnd ℂ) (vals ℂ kx.mdspan j)) :=
  C48_her2 _ _ _ _ _ _ _ _ (holds bkx) (holds bky) (mholds bA) rfl rfl rfl rfl rfl rfl
    (by kview_facts) (by kview_facts) (by kview_facts)

/-! ## Rank-k updates -/

/-- **C48** `symmetric_matrix_rank_k_update(exec, alpha, A, C, t)` -/
theorem C48_syrk [AddCommMonoid α] [Mul α] (alpha : α) (A C : KMat) (t : Triangle) (h : Heap α)
    (a c : Nat → Nat → α) (hA : A.toMat.Holds h a) (hC : C.toMat.HoldsOn h t.region c)
    (hAt : A.transposed = false) (hCt : C.transposed = false)
    (he : A.rows = C.rows) (hsq : C.rows = C.cols) (hu : C.toMat.UniqueOn t.region)
    (hAC : Apart A.toMat.Cell (C.toMat.CellOn t.region)) :
    Surely (kkSyrk alpha A C t) h fun _ h' =>
      C.toMat.BecomesOn h h' t.region fun i j =>
        c i j + ∑ k ∈ range A.cols, alpha * a i k * a j k := by
  unfold kkSyrk
  rw [KMat.view_eq hAt, KMat.view_eq hCt]
  refine surely_require_bind he (surely_require_bind hsq
    (visit_triangle _ hu hsq fun i j hi hj hr => ?_))
  rw [← Function.update_eq_self (C.addr i j) h, hC i j hi hj hr]
  refine (Task.safe_forEach_acc (C.addr i j) (fun s k => s + alpha * a i k * a j k)
    fun k hk s => ?_).post ?_
  · have hk := (mem_up.1 hk).2
    have hoc : OnlyChanges (C.toMat.CellOn t.region) h (Function.update h (C.addr i j) (some s)) :=
      onlyChanges_update ⟨i, j, hi, hj, hr, rfl⟩
    rw [Task.safe_bind, hA.safe_rd hAC hoc (by omega) hk trivial, Task.safe_bind,
      hA.safe_rd hAC hoc (by omega) hk trivial,
      Mat.safe_incr hi hj (Function.update_self ..)]
    simp
  · rintro _ g rfl
    rw [Function.update_self, Nat.sub_zero, foldl_range'_sum, Nat.zero_add, ← range_eq_Ico]

example (t : Triangle) : Surely (kkSyrk 5 kT kA t) (heap ℤ) fun _ h' =>
    A.BecomesOn (heap ℤ) h' t.region fun i j =>
      mvals ℤ A i j + ∑ k ∈ range 2, 5 * mvals ℤ T i k * mvals ℤ T j k :=
  C48_syrk _ _ _ _ _ _ _ (mholds bT) (mholds bA) rfl rfl rfl rfl
    (by kview_facts) (by kview_facts)

/-- **C48** `hermitian_matrix_rank_k_update(exec, alpha, A, C, t)` -/
theorem C48_herk [AddCommMonoid α] [Mul α] [ConjOps α] (alpha : α) (A C : KMat) (t : Triangle)
    (h : Heap α)
    (a c : Nat → Nat → α) (hA : A.toMat.Holds h a) (hC : C.toMat.HoldsOn h t.region c)
    (hAt : A.transposed = false) (hCt : C.transposed = false)
    (he : A.rows = C.rows) (hsq : C.rows = C.cols) (hu : C.toMat.UniqueOn t.region)
    (hAC : Apart A.toMat.Cell (C.toMat.CellOn t.region)) :
    Surely (kkHerk alpha A C t) h fun _ h' =>
      C.toMat.BecomesOn h h' t.region fun i j =>
        c i j + ∑ k ∈ range A.cols, alpha * a i k * ConjOps.conj (a j k) := by
  unfold kkHerk
  rw [KMat.view_eq hAt, KMat.view_eq hCt]
  refine surely_require_bind he (surely_require_bind hsq
    (visit_triangle _ hu hsq fun i j hi hj hr => ?_))
  rw [← Function.update_eq_self (C.addr i j) h, hC i j hi hj hr]
  refine (Task.safe_forEach_acc (C.addr i j)
    (fun s k => s + alpha * a i k * ConjOps.conj (a j k)) fun k hk s => ?_).post ?_
  · have hk := (mem_up.1 hk).2
    have hoc : OnlyChanges (C.toMat.CellOn t.region) h (Function.update h (C.addr i j) (some s)) :=
      onlyChanges_update ⟨i, j, hi, hj, hr, rfl⟩
    rw [Task.safe_bind, hA.safe_rd hAC hoc (by omega) hk trivial, Task.safe_bind,
      hA.safe_rd hAC hoc (by omega) hk trivial,
      Mat.safe_incr hi hj (Function.update_self ..)]
    simp
  · rintro _ g rfl
    rw [Function.update_self, Nat.sub_zero, foldl_range'_sum, Nat.zero_add, ← range_eq_Ico]

example (t : Triangle) : Surely (kkHerk 5 kT kA t) (heap ℂ) fun _ h' =>
    A.BecomesOn (heap ℂ) h' t.region fun i j =>
      mvals ℂ A i j + ∑ k ∈ range 2, 5 * mvals ℂ T i k * (starRingEnd ℂ) (mvals ℂ T j k) :=
  C48_herk _ _ _ _ _ _ _ (mholds bT) (mholds bA) rfl rfl rfl rfl
    (by kview_facts) (by kview_facts)

/-! ## Rank-2k updates -/

/-- **C48** `symmetric_matrix_rank_2k_update(exec, A, B, C, t)` -/
theorem C48_syr2k [AddCommMonoid α] [Mul α] (A B C : KMat) (t : Triangle) (h : Heap α)
    (a b c : Nat → Nat → α) (hA : A.toMat.Holds h a) (hB : B.toMat.Holds h b)
    (hC : C.toMat.HoldsOn h t.region c)
    (hAt : A.transposed = false) (hBt : B.transposed = false) (hCt : C.transposed = false)
    (he : A.rows = C.rows) (he' : B.rows = C.rows) (hsq : C.rows = C.cols)
    (hK : A.cols = B.cols) (hu : C.toMat.UniqueOn t.region)
    (hAC : Apart A.toMat.Cell (C.toMat.CellOn t.region))
    (hBC : Apart B.toMat.Cell (C.toMat.CellOn t.region)) :
    Surely (kkSyr2k A B C t) h fun _ h' =>
      C.toMat.BecomesOn h h' t.region fun i j =>
        c i j + ∑ k ∈ range A.cols, (a i k * b j k + b i k * a j k) := by
  unfold kkSyr2k
  rw [KMat.view_eq hAt, KMat.view_eq hBt, KMat.view_eq hCt]
  refine surely_require_bind he (surely_require_bind he' (surely_require_bind hsq
    (surely_require_bind hK (visit_triangle _ hu hsq fun i j hi hj hr => ?_))))
  rw [← Function.update_eq_self (C.addr i j) h, hC i j hi hj hr]
  refine (Task.safe_forEach_acc (C.addr i j) (fun s k => s + (a i k * b j k + b i k * a j k))
    fun k hk s => ?_).post ?_
  · have hk := (mem_up.1 hk).2
    have hoc : OnlyChanges (C.toMat.CellOn t.region) h (Function.update h (C.addr i j) (some s)) :=
      onlyChanges_update ⟨i, j, hi, hj, hr, rfl⟩
    rw [Task.safe_bind, hA.safe_rd hAC hoc (by omega) (by omega) trivial, Task.safe_bind,
      hB.safe_rd hBC hoc (by omega) (by omega) trivial, Task.safe_bind,
      hB.safe_rd hBC hoc (by omega) (by omega) trivial, Task.safe_bind,
      hA.safe_rd hAC hoc (by omega) (by omega) trivial,
      Mat.safe_incr hi hj (Function.update_self ..)]
    simp
  · rintro _ g rfl
    rw [Function.update_self, Nat.sub_zero, foldl_range'_sum, Nat.zero_add, ← range_eq_Ico]

example (t : Triangle) : Surely (kkSyr2k kB kC kA t) (heap ℤ) fun _ h' =>
    A.BecomesOn (heap ℤ) h' t.region fun i j => mvals ℤ A i j +
      ∑ k ∈ range 3, (mvals ℤ B i k * mvals ℤ C j k + mvals ℤ C i k * mvals ℤ B j k) :=
  C48_syr2k _ _ _ _ _ _ _ _ (mholds bB) (mholds bC) (mholds bA) rfl rfl rfl rfl rfl rfl rfl
    (by kview_facts) (by kview_facts) (by kview_facts)

/-- **C48** `hermitian_matrix_rank_2k_update(exec, A, B, C, t)` -/
theorem C48_her2k [AddCommMonoid α] [Mul α] [ConjOps α] (A B C : KMat) (t : Triangle)
    (h : Heap α)
    (a b c : Nat → Nat → α) (hA : A.toMat.Holds h a) (hB : B.toMat.Holds h b)
    (hC : C.toMat.HoldsOn h t.region c)
    (hAt : A.transposed = false) (hBt : B.transposed = false) (hCt : C.transposed = false)
    (he : A.rows = C.rows) (he' : B.rows = C.rows) (hsq : C.rows = C.cols)
    (hK : A.cols = B.cols) (hu : C.toMat.UniqueOn t.region)
    (hAC : Apart A.toMat.Cell (C.toMat.CellOn t.region))
    (hBC : Apart B.toMat.Cell (C.toMat.CellOn t.region)) :
    Surely (kkHer2k A B C t) h fun _ h' =>
      C.toMat.BecomesOn h h' t.region fun i j =>
        c i j + ∑ k ∈ range A.cols,
          (a i k * ConjOps.conj (b j k) + b i k * ConjOps.conj (a j k)) := by
  unfold kkHer2k
  rw [KMat.view_eq hAt, KMat.view_eq hBt, KMat.view_eq hCt]
  refine surely_require_bind he (surely_require_bind he' (surely_require_bind hsq
    (surely_require_bind hK (visit_triangle _ hu hsq fun i j hi hj hr => ?_))))
  rw [← Function.update_eq_self (C.addr i j) h, hC i j hi hj hr]
  refine (Task.safe_forEach_acc (C.addr i j)
    (fun s k => s + (a i k * ConjOps.conj (b j k) + b i k * ConjOps.conj (a j k)))
    fun k hk s => ?_).post ?_
  · have hk := (mem_up.1 hk).2
    have hoc : OnlyChanges (C.toMat.CellOn t.region) h (Function.update h (C.addr i j) (some s)) :=
      onlyChanges_update ⟨i, j, hi, hj, hr, rfl⟩
    rw [Task.safe_bind, hA.safe_rd hAC hoc (by omega) (by omega) trivial, Task.safe_bind,
      hB.safe_rd hBC hoc (by omega) (by omega) trivial, Task.safe_bind,
      hB.safe_rd hBC hoc (by omega) (by omega) trivial, Task.safe_bind,
      hA.safe_rd hAC hoc (by omega) (by omega) trivial,
      Mat.safe_incr hi hj (Function.update_self ..)]
    simp
  · rintro _ g rfl
    rw [Function.update_self, Nat.sub_zero, foldl_range'_sum, Nat.zero_add, ← range_eq_Ico]

example (t : Triangle) : Surely (kkHer2k kB kC kA t) (heap ℂ) fun _ h' =>
    A.BecomesOn (heap ℂ) h' t.region fun i j => mvals ℂ A i j +
      ∑ k ∈ range 3, (mvals ℂ B i k * (starRingEnd ℂ) (mvals ℂ C j k) +
        mvals ℂ C i k * (starRingEnd ℂ) (mvals ℂ B j k)) :=
  C48_her2k _ _ _ _ _ _ _ _ (mholds bB) (mholds bC) (mholds bA) rfl rfl rfl rfl rfl rfl rfl
    (by kview_facts) (by kview_facts) (by kview_facts)

end StdBLAS

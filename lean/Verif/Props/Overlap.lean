import Verif.Lemmas.Overlap
import Verif.Lemmas.Blas1
import Verif.Model.Views
import Verif.Model.Blas2
import Verif.Model.Blas3
import Verif.Spec.LinAlg
import Verif.Props.Witness
import Mathlib.Algebra.BigOperators.Fin

/-!
# Overlapping arguments (C81)

The loops run in a fixed order, so it is fixed what a call does whose output overlaps its inputs.  If no
element of the output is written before the last read of the input element in the same cell, the result is the
one for separate arguments.  Otherwise it is another one, given here for the cases that users run into:
moving a range within an array, transposing or reversing in place.
-/

namespace StdBLAS
variable {α : Type}
open Witness Finset

/-! ## Elements that are read before they are overwritten -/

/-- **C81** `copy(x, y)` is right if no `y(k)` lies in the cell of a later `x(i)`. -/
theorem C81_copy_vector (x : VecV α) (y : Vec) (h : Heap α) (f : Nat → α) (hx : x.Holds h f)
    (hy : y.Alloc h) (hext : y.ext ≤ x.ext) (hu : y.Unique)
    (later : ∀ i k, i < y.ext → k < i → y.addr k ≠ x.addr i) :
    Ends (copy1 x y) h fun _ h' => y.Becomes h h' f := by
  refine ends_vec_order f h hu fun i hi g _ fr => ?_
  obtain ⟨v, hv, ev⟩ := hx i (by omega)
  obtain ⟨w, hw⟩ := hy i hi
  simp only [ends_bind, ends_vecV_get, ends_vec_set]
  refine ⟨by omega, v, (fr _ fun k hk => later i k hi hk).trans hv, hi,
    ⟨w, (fr _ fun k hk e => ?_).trans hw⟩, by simp [ev], fun a ha => by simp [ha]⟩
  have := hu k i (by omega) hi e
  omega

/-- Cells 4, 5, 6 to cells 2, 4, 6. -/
example : Ends (copy1 ((⟨3, fun i => 4 + i⟩ : Vec).view : VecV ℤ) ⟨3, fun i => 2 + 2 * i⟩) (heap ℤ) fun _ h' =>
    Vec.Becomes ⟨3, fun i => 2 + 2 * i⟩ (heap ℤ) h' (vals ℤ ⟨3, fun i => 4 + i⟩) :=
  C81_copy_vector _ _ _ _ (holdsV fun i hi => by simp only at *; omega)
    (alloc fun i hi => by simp only at *; omega) le_rfl
    (fun i k hi hk e => by simp only at *; omega) (fun i k hi hk e => by simp only [Vec.view] at *; omega)

/-- **C81** `add(x, y, z)` is right if no `z(k)` lies in the cell of a later `x(i)` or `y(i)`. -/
theorem C81_add_vector [Add α] (x y : VecV α) (z : Vec) (h : Heap α) (f g : Nat → α) (hx : x.Holds h f)
    (hy : y.Holds h g) (hz : z.Alloc h) (hxe : z.ext ≤ x.ext) (hye : z.ext ≤ y.ext) (hu : z.Unique)
    (laterx : ∀ i k, i < z.ext → k < i → z.addr k ≠ x.addr i)
    (latery : ∀ i k, i < z.ext → k < i → z.addr k ≠ y.addr i) :
    Ends (add1 x y z) h fun _ h' => z.Becomes h h' fun i => f i + g i := by
  refine ends_vec_order _ h hu fun i hi h1 _ fr => ?_
  obtain ⟨v, hv, ev⟩ := hx i (by omega)
  obtain ⟨u, hw, ew⟩ := hy i (by omega)
  obtain ⟨w, hw'⟩ := hz i hi
  simp only [ends_bind, ends_vecV_get, ends_vec_set]
  refine ⟨by omega, v, (fr _ fun k hk => laterx i k hi hk).trans hv, by omega, u,
    (fr _ fun k hk => latery i k hi hk).trans hw, hi, ⟨w, (fr _ fun k hk e => ?_).trans hw'⟩,
    by simp [ev, ew], fun a ha => by simp [ha]⟩
  have := hu k i (by omega) hi e
  omega

/-- Sums of neighbours, in place: `z(i) = x(i) + x(i+1)` with `z` = `x`. -/
example : Ends (add1 ((⟨3, fun i => i⟩ : Vec).view : VecV ℤ) (⟨3, fun i => i + 1⟩ : Vec).view ⟨3, fun i => i⟩)
    (heap ℤ) fun _ h' => Vec.Becomes ⟨3, fun i => i⟩ (heap ℤ) h'
      fun i => vals ℤ ⟨3, fun i => i⟩ i + vals ℤ ⟨3, fun i => i + 1⟩ i :=
  C81_add_vector _ _ _ _ _ _ (holdsV fun i hi => by simp only at *; omega)
    (holdsV fun i hi => by simp only at *; omega) (alloc fun i hi => by simp only at *; omega) le_rfl le_rfl
    (fun i k hi hk e => by simp only at *; omega) (fun i k hi hk e => by simp only [Vec.view] at *; omega)
    (fun i k hi hk e => by simp only [Vec.view] at *; omega)

/-- **C81** `copy(x, y)` of matrices, column by column. -/
theorem C81_copy_matrix (x : MatV α) (y : Mat) (h : Heap α) (f : Nat → Nat → α) (hx : x.Holds h f)
    (hy : y.Alloc h) (hr : y.rows ≤ x.rows) (hc : y.cols ≤ x.cols) (hu : y.Unique)
    (later : ∀ i j k l, i < y.rows → j < y.cols → k < y.rows → l < y.cols → (l < j ∨ l = j ∧ k < i) →
      y.addr k l ≠ x.addr i j) :
    Ends (copy2 x y) h fun _ h' => y.Becomes h h' f := by
  refine ends_mat_cols_order f h hu fun i j hi hj g _ fr => ?_
  obtain ⟨v, hv, ev⟩ := hx i j (by omega) (by omega) trivial
  obtain ⟨w, hw⟩ := hy i j hi hj trivial
  simp only [ends_bind, ends_matV_get, ends_mat_set]
  refine ⟨⟨by omega, by omega⟩, v, (fr _ fun k l hk hl q => later i j k l hi hj hk hl q).trans hv, ⟨hi, hj⟩,
    ⟨w, (fr _ fun k l hk hl q e => ?_).trans hw⟩, by simp [ev], fun a ha => by simp [ha]⟩
  have := hu k l i j hk hl trivial hi hj trivial e
  omega

/-- Removing the padding of a column-major matrix in place: leading dimension 5 to leading dimension 3. -/
example : Ends (copy2 ((⟨3, 3, fun i j => i + 5 * j⟩ : Mat).view : MatV ℤ) ⟨3, 3, fun i j => i + 3 * j⟩)
    (heap ℤ) fun _ h' => Mat.Becomes ⟨3, 3, fun i j => i + 3 * j⟩ (heap ℤ) h'
      (mvals ℤ ⟨3, 3, fun i j => i + 5 * j⟩) :=
  C81_copy_matrix _ _ _ _ (mholdsV fun i j hi hj => by simp only at *; omega)
    (malloc fun i j hi hj => by simp only at *; omega) le_rfl le_rfl
    (fun i j k l hi hj _ hk hl _ e => by simp only at *; omega)
    (fun i j k l hi hj hk hl q e => by simp only [Mat.view] at *; omega)

/-- **C81** `matrix_vector_product(A, x, y)` is right if `x` is apart from `y` and no `y(k)` lies in row `k` or
a later row of `A`. -/
theorem C81_gemv [NonUnitalNonAssocSemiring α] (A : MatV α) (x : VecV α) (y : Vec) (h : Heap α)
    (a : Nat → Nat → α) (f : Nat → α) (hA : A.Holds h a) (hx : x.Holds h f) (hy : y.Alloc h)
    (hrows : y.ext = A.rows) (hcols : A.cols ≤ x.ext) (hu : y.Unique)
    (later : ∀ i j k, i < A.rows → j < A.cols → k ≤ i → y.addr k ≠ A.addr i j)
    (hxy : Apart x.toVec.Cell y.Cell) :
    Ends (gemv A x y) h fun _ h' => y.Becomes h h' fun i => ∑ j ∈ range A.cols, a i j * f j := by
  unfold gemv
  rw [← hrows]
  refine ends_vec_order _ h hu fun i hi g _ fr => ?_
  obtain ⟨w, hw⟩ := hy i hi
  rw [ends_bind, ends_vec_set]
  refine ⟨hi, ⟨w, (fr _ fun k hk e => by have := hu k i (by omega) hi e; omega).trans hw⟩, ?_⟩
  have key := ends_acc (p := y.addr i) (n := A.cols) (fun j => a i j * f j)
    (h1 := Function.update g (y.addr i) (some (0 : α))) (s := 0) (by simp) (body := fun j => do
      let a ← A.get i j
      let b ← x.get j
      y.addTo i (a * b)) ?_
  · refine key.mono ?_
    rintro _ h' ⟨r1, r2⟩
    refine ⟨?_, fun b hb => (r2 b hb).trans (by simp [hb])⟩
    rw [r1, foldl_add_eq_sum, zero_add]
  · intro j hj h2 v hv hfr
    obtain ⟨u, hu1, eu⟩ := hA i j (by omega) hj trivial
    obtain ⟨t, ht, et⟩ := hx j (by omega)
    have cell : ∀ p, (∀ k, k ≤ i → y.addr k ≠ p) → h2 p = h p := fun p hp => by
      rw [hfr p (Ne.symm (hp i le_rfl)), Function.update_of_ne (Ne.symm (hp i le_rfl))]
      exact fr p fun k hk => hp k hk.le
    unfold Vec.addTo
    simp only [ends_bind, ends_matV_get, ends_vecV_get, ends_vec_get, ends_vec_set]
    exact ⟨⟨by omega, hj⟩, u, (cell _ fun k hk => later i j k (by omega) hj hk).trans hu1, by omega, t,
      (cell _ fun k hk e => hxy _ ⟨j, by omega, rfl⟩ ⟨k, by omega, e⟩).trans ht, hi, v, hv, hi, ⟨v, hv⟩,
      by simp [eu, et], fun b hb => by simp [hb]⟩

/-- The result takes the place of the first column, of a row-major matrix that ends one row later. -/
example : Ends (gemv ((⟨3, 3, fun i j => 73 + 3 * i + j⟩ : Mat).view : MatV ℤ) x.view ⟨3, fun i => 70 + 3 * i⟩)
    (heap ℤ) fun _ h' => Vec.Becomes ⟨3, fun i => 70 + 3 * i⟩ (heap ℤ) h' fun i =>
      ∑ j ∈ range 3, mvals ℤ ⟨3, 3, fun i j => 73 + 3 * i + j⟩ i j * vals ℤ x j :=
  C81_gemv _ _ _ _ _ _ (mholdsV fun i j hi hj => by simp only at *; omega) (holdsV bx)
    (alloc fun i hi => by simp only at *; omega) rfl le_rfl (fun i k hi hk e => by simp only at *; omega)
    (fun i j k hi hj hk e => by simp only [Mat.view] at *; omega)
    (by rintro a ⟨i, hi, e⟩ ⟨k, hk, e'⟩; simp only [x, Vec.view] at *; omega)

/-- **C81** `matrix_product(A, B, C)` is right if `B` is apart from `C` and no element of row `k` of `C` lies in
row `k` or a later row of `A`. -/
theorem C81_gemm [NonUnitalNonAssocSemiring α] (A B : MatV α) (C : Mat) (h : Heap α) (a b : Nat → Nat → α)
    (hA : A.Holds h a) (hB : B.Holds h b) (hC : C.Alloc h) (hr : C.rows = A.rows) (hk : A.cols = B.rows)
    (hc : C.cols = B.cols) (hu : C.Unique)
    (later : ∀ i j k l, i < A.rows → j < A.cols → k ≤ i → l < C.cols → C.addr k l ≠ A.addr i j)
    (hBC : Apart B.toMat.Cell C.Cell) :
    Ends (gemm A B C) h fun _ h' => C.Becomes h h' (mulMat A.cols a b) := by
  unfold gemm
  refine ends_mat_rows_order _ h hu fun i j hi hj g _ fr => ?_
  obtain ⟨w, hw⟩ := hC i j hi hj trivial
  rw [ends_bind, ends_mat_set]
  refine ⟨⟨hi, hj⟩, ⟨w, (fr _ fun k l hk' hl q e => by
    have := hu k l i j hk' hl trivial hi hj trivial e; omega).trans hw⟩, ?_⟩
  have key := ends_acc (p := C.addr i j) (n := A.cols) (fun k => a i k * b k j)
    (h1 := Function.update g (C.addr i j) (some (0 : α))) (s := 0) (by simp) (body := fun k => do
      let a ← A.get i k
      let b ← B.get k j
      C.addTo i j (a * b)) ?_
  · refine key.mono ?_
    rintro _ h' ⟨r1, r2⟩
    refine ⟨?_, fun b hb => (r2 b hb).trans (by simp [hb])⟩
    rw [r1, foldl_add_eq_sum, zero_add]
    rfl
  · intro k hkc h2 v hv hfr
    obtain ⟨u, hu1, eu⟩ := hA i k (by omega) hkc trivial
    obtain ⟨t, ht, et⟩ := hB k j (by omega) (by omega) trivial
    have cell : ∀ p, (∀ k l, k ≤ i → l < C.cols → C.addr k l ≠ p) → h2 p = h p := fun p hp => by
      rw [hfr p (Ne.symm (hp i j le_rfl hj)), Function.update_of_ne (Ne.symm (hp i j le_rfl hj))]
      exact fr p fun k l _ hl q => hp k l (by omega) hl
    unfold Mat.addTo
    simp only [ends_bind, ends_matV_get, ends_mat_get, ends_mat_set]
    exact ⟨⟨by omega, hkc⟩, u, (cell _ fun k' l hk' hl => later i k k' l (by omega) hkc hk' hl).trans hu1,
      ⟨by omega, by omega⟩, t, (cell _ fun k' l hk' hl e => hBC _ ⟨k, j, by omega, by omega, trivial, rfl⟩
        ⟨k', l, by omega, hl, trivial, e⟩).trans ht, ⟨hi, hj⟩, v, hv, ⟨hi, hj⟩, ⟨v, hv⟩,
      by simp [eu, et], fun b hb => by simp [hb]⟩

/-- A row-major matrix is multiplied by `B` and moved up by one row. -/
example : Ends (gemm ((⟨3, 3, fun i j => 73 + 3 * i + j⟩ : Mat).view : MatV ℤ) B.view C) (heap ℤ) fun _ h' =>
    C.Becomes (heap ℤ) h' (mulMat 3 (mvals ℤ ⟨3, 3, fun i j => 73 + 3 * i + j⟩) (mvals ℤ B)) :=
  C81_gemm _ _ _ _ _ _ (mholdsV fun i j hi hj => by simp only at *; omega) (mholdsV bB) (malloc bC) rfl rfl
    rfl (by view_facts) (fun i j k l hi hj hk hl e => by simp only [Mat.view, C] at *; omega) (by view_facts)

/-- **C81** `matrix_rank_1_update(x, y, A)` is right if no element of `A` is updated before the last read of the
element of `x` or `y` in the same cell: row by row, each row from left to right. -/
theorem C81_ger [Add α] [Mul α] (x y : VecV α) (A : Mat) (h : Heap α) (f g : Nat → α) (a : Nat → Nat → α)
    (hx : x.Holds h f) (hy : y.Holds h g) (hA : A.Holds h a) (hxe : A.rows ≤ x.ext) (hye : A.cols ≤ y.ext)
    (hu : A.Unique)
    (laterx : ∀ i j k l, i < A.rows → j < A.cols → k < A.rows → l < A.cols → (k < i ∨ k = i ∧ l < j) →
      A.addr k l ≠ x.addr i)
    (latery : ∀ i j k l, i < A.rows → j < A.cols → k < A.rows → l < A.cols → (k < i ∨ k = i ∧ l < j) →
      A.addr k l ≠ y.addr j) :
    Ends (ger x y A) h fun _ h' => A.Becomes h h' fun i j => a i j + f i * g j := by
  refine ends_mat_rows_order _ h hu fun i j hi hj m _ fr => ?_
  obtain ⟨u, hu1, eu⟩ := hx i (by omega)
  obtain ⟨t, ht, et⟩ := hy j (by omega)
  have own : m (A.addr i j) = some (a i j) := (fr _ fun k l hk hl q e => by
    have := hu k l i j hk hl trivial hi hj trivial e
    omega).trans (hA i j hi hj trivial)
  unfold Mat.addTo
  simp only [ends_bind, ends_vecV_get, ends_mat_get, ends_mat_set]
  exact ⟨by omega, u, (fr _ fun k l hk hl q => laterx i j k l hi hj hk hl q).trans hu1, by omega, t,
    (fr _ fun k l hk hl q => latery i j k l hi hj hk hl q).trans ht, ⟨hi, hj⟩, _, own, ⟨hi, hj⟩, ⟨_, own⟩,
    by simp [eu, et], fun b hb => by simp [hb]⟩

/-- `x` is the last column of `A` and `y` the last row. -/
example : Ends (ger ((⟨3, fun i => C.addr i 2⟩ : Vec).view : VecV ℤ) (⟨3, fun j => C.addr 2 j⟩ : Vec).view C)
    (heap ℤ) fun _ h' => C.Becomes (heap ℤ) h' fun i j => mvals ℤ C i j +
      vals ℤ ⟨3, fun i => C.addr i 2⟩ i * vals ℤ ⟨3, fun j => C.addr 2 j⟩ j :=
  C81_ger _ _ _ _ _ _ _ (holdsV fun i hi => by simp only [C] at *; omega)
    (holdsV fun i hi => by simp only [C] at *; omega) (mholds bC) le_rfl le_rfl (by view_facts)
    (fun i j k l hi hj hk hl q e => by simp only [Vec.view, C] at *; omega)
    (fun i j k l hi hj hk hl q e => by simp only [Vec.view, C] at *; omega)

/-- **C81** `matrix_rank_1_update(x, y, A)` where `x` is column `c` of `A`: to the right of that column the updated
column is used. -/
theorem C81_ger_own_column [Add α] [Mul α] (y : VecV α) (A : Mat) (c : Nat) (h : Heap α) (g : Nat → α)
    (a : Nat → Nat → α) (hy : y.Holds h g) (hA : A.Holds h a) (hc : c < A.cols) (hye : A.cols ≤ y.ext)
    (hu : A.Unique) (hyA : Apart y.toVec.Cell A.Cell) :
    Ends (ger (⟨A.rows, fun i => A.addr i c⟩ : Vec).view y A) h fun _ h' => A.Becomes h h' fun i j =>
      if j ≤ c then a i j + a i c * g j else a i j + (a i c + a i c * g c) * g j := by
  refine ends_mat_rows_order _ h hu fun i j hi hj m old fr => ?_
  obtain ⟨t, ht, et⟩ := hy j (by omega)
  have first : ∀ k l, k < A.rows → l < A.cols → ¬ (k < i ∨ k = i ∧ l < j) →
      m (A.addr k l) = some (a k l) := fun k l hk hl q => (fr _ fun k' l' hk' hl' q' e => by
    have := hu k' l' k l hk' hl' trivial hk hl trivial e
    omega).trans (hA k l hk hl trivial)
  have own := first i j hi hj (by omega)
  have hcol : m (A.addr i c) = some (if j ≤ c then a i c else a i c + a i c * g c) := by
    by_cases q : j ≤ c
    · rw [if_pos q]
      exact first i c hi hc (by omega)
    · rw [if_neg q, old i c hi hc (by omega), if_pos le_rfl]
  unfold Mat.addTo
  simp only [ends_bind, ends_vecV_get, ends_mat_get, ends_mat_set]
  refine ⟨hi, _, hcol, by omega, t, (fr _ fun k l hk hl _ e => hyA _ ⟨j, by omega, rfl⟩
    ⟨k, l, hk, hl, trivial, e⟩).trans ht, ⟨hi, hj⟩, _, own, ⟨hi, hj⟩, ⟨_, own⟩, ?_, fun b hb => by simp [hb]⟩
  rw [Function.update_self, et]
  by_cases q : j ≤ c
  · simp [q, Vec.view]
  · simp [q, Vec.view]

example : Ends (ger ((⟨3, fun i => C.addr i 0⟩ : Vec).view : VecV ℤ) y.view C) (heap ℤ) fun _ h' =>
    C.Becomes (heap ℤ) h' fun i j => if j ≤ 0 then mvals ℤ C i j + mvals ℤ C i 0 * vals ℤ y j
      else mvals ℤ C i j + (mvals ℤ C i 0 + mvals ℤ C i 0 * vals ℤ y 0) * vals ℤ y j :=
  C81_ger_own_column _ C 0 _ _ _ (holdsV by_) (mholds bC) (by decide) le_rfl (by view_facts) (by view_facts)

/-- **C81** `matrix_rank_1_update(x, y, A)` where `y` is row `r` of `A`: below that row the updated row is used. -/
theorem C81_ger_own_row [Add α] [Mul α] (x : VecV α) (A : Mat) (r : Nat) (h : Heap α) (f : Nat → α)
    (a : Nat → Nat → α) (hx : x.Holds h f) (hA : A.Holds h a) (hr : r < A.rows) (hxe : A.rows ≤ x.ext)
    (hu : A.Unique) (hxA : Apart x.toVec.Cell A.Cell) :
    Ends (ger x (⟨A.cols, fun j => A.addr r j⟩ : Vec).view A) h fun _ h' => A.Becomes h h' fun i j =>
      if i ≤ r then a i j + f i * a r j else a i j + f i * (a r j + f r * a r j) := by
  refine ends_mat_rows_order _ h hu fun i j hi hj m old fr => ?_
  obtain ⟨t, ht, et⟩ := hx i (by omega)
  have first : ∀ k l, k < A.rows → l < A.cols → ¬ (k < i ∨ k = i ∧ l < j) →
      m (A.addr k l) = some (a k l) := fun k l hk hl q => (fr _ fun k' l' hk' hl' q' e => by
    have := hu k' l' k l hk' hl' trivial hk hl trivial e
    omega).trans (hA k l hk hl trivial)
  have own := first i j hi hj (by omega)
  have hrow : m (A.addr r j) = some (if i ≤ r then a r j else a r j + f r * a r j) := by
    by_cases q : i ≤ r
    · rw [if_pos q]
      exact first r j hr hj (by omega)
    · rw [if_neg q, old r j hr hj (by omega), if_pos le_rfl]
  unfold Mat.addTo
  simp only [ends_bind, ends_vecV_get, ends_mat_get, ends_mat_set]
  refine ⟨by omega, t, (fr _ fun k l hk hl _ e => hxA _ ⟨i, by omega, rfl⟩
    ⟨k, l, hk, hl, trivial, e⟩).trans ht, hj, _, hrow, ⟨hi, hj⟩, _, own, ⟨hi, hj⟩, ⟨_, own⟩, ?_,
    fun b hb => by simp [hb]⟩
  rw [Function.update_self, et]
  by_cases q : i ≤ r
  · simp [q, Vec.view]
  · simp [q, Vec.view]

example : Ends (ger (x.view : VecV ℤ) (⟨3, fun j => C.addr 1 j⟩ : Vec).view C) (heap ℤ) fun _ h' =>
    C.Becomes (heap ℤ) h' fun i j => if i ≤ 1 then mvals ℤ C i j + vals ℤ x i * mvals ℤ C 1 j
      else mvals ℤ C i j + vals ℤ x i * (mvals ℤ C 1 j + vals ℤ x 1 * mvals ℤ C 1 j) :=
  C81_ger_own_row _ C 1 _ _ _ (holdsV bx) (mholds bC) (by decide) le_rfl (by view_facts) (by view_facts)

/-! ## Moving a range within an array -/

/-- **C81** Moving `n` elements of an array to smaller indices by `copy` works, whatever the distance. -/
theorem C81_move_down (base k n : Nat) (h : Heap α) (f : Nat → α)
    (hf : ∀ i, i < k + n → h (base + i) = some (f i)) :
    Ends (copy1 ((⟨n, fun i => base + (k + i)⟩ : Vec).view : VecV α) ⟨n, fun i => base + i⟩) h fun _ h' =>
      Vec.Becomes ⟨n, fun i => base + i⟩ h h' fun i => f (k + i) :=
  C81_copy_vector _ _ _ _ (fun i hi => ⟨_, hf (k + i) (Nat.add_lt_add_left hi k), rfl⟩)
    (fun i hi => ⟨_, hf i (Nat.lt_of_lt_of_le hi (Nat.le_add_left n k))⟩) le_rfl
    (fun i j _ _ e => Nat.add_left_cancel e) (fun i j _ hj e => by simp only [Vec.view] at e; omega)

example : Ends (copy1 ((⟨5, fun i => 10 + (2 + i)⟩ : Vec).view : VecV ℤ) ⟨5, fun i => 10 + i⟩) (heap ℤ)
    fun _ h' => Vec.Becomes ⟨5, fun i => 10 + i⟩ (heap ℤ) h' fun i => (((10 + (2 + i) : Nat) : ℤ) - 7) :=
  C81_move_down 10 2 5 (heap ℤ) (fun i => ((10 + i : Nat) : ℤ) - 7) fun i hi => heap_lt (by omega)

/-- **C81** Moving them to larger indices by `copy` repeats the first `k` elements, where `k` is the distance. -/
theorem C81_move_up (base k n : Nat) (h : Heap α) (f : Nat → α) (hk : 0 < k)
    (hf : ∀ i, i < k + n → h (base + i) = some (f i)) :
    Ends (copy1 ((⟨n, fun i => base + i⟩ : Vec).view : VecV α) ⟨n, fun i => base + (k + i)⟩) h fun _ h' =>
      Vec.Becomes ⟨n, fun i => base + (k + i)⟩ h h' fun i => f (i % k) := by
  refine ends_vec_order (y := ⟨n, fun i => base + (k + i)⟩) _ h (fun i j _ _ e => by simp only at e; omega)
    fun i hi g old fr => ?_
  simp only at hi old fr
  have hr : g (base + i) = some (f (i % k)) := by
    by_cases hik : i < k
    · rw [fr _ fun j _ e => by omega, Nat.mod_eq_of_lt hik]
      exact hf i (by omega)
    · have e := old (i - k) (by omega)
      rw [show k + (i - k) = i by omega] at e
      rw [e, ← Nat.mod_eq_sub_mod (by omega)]
  simp only [ends_bind, ends_vecV_get, ends_vec_set, Vec.view]
  refine ⟨hi, _, hr, hi, ⟨f (k + i), ?_⟩, by simp, fun a ha => by simp [ha]⟩
  rw [fr _ fun j hj e => by omega]
  exact hf _ (by omega)

example : Ends (copy1 ((⟨5, fun i => 10 + i⟩ : Vec).view : VecV ℤ) ⟨5, fun i => 10 + (2 + i)⟩) (heap ℤ)
    fun _ h' => Vec.Becomes ⟨5, fun i => 10 + (2 + i)⟩ (heap ℤ) h' fun i => (((10 + i % 2 : Nat) : ℤ) - 7) :=
  C81_move_up 10 2 5 (heap ℤ) (fun i => ((10 + i : Nat) : ℤ) - 7) (by decide) fun i hi => heap_lt (by omega)

/-- **C81** (negative) So `copy` does not move a range to larger indices. -/
theorem C81_copy_does_not_move_up :
    ¬ ∀ (base k n : Nat) (h : Heap ℤ) (f : Nat → ℤ), (∀ i, i < k + n → h (base + i) = some (f i)) →
      Ends (copy1 ((⟨n, fun i => base + i⟩ : Vec).view : VecV ℤ) ⟨n, fun i => base + (k + i)⟩) h fun _ h' =>
        Vec.Becomes ⟨n, fun i => base + (k + i)⟩ h h' f := fun q => by
  have hf : ∀ i, i < 1 + 2 → heap ℤ (0 + i) = some (((0 + i : Nat) : ℤ) - 7) := fun i hi => heap_lt (by omega)
  obtain ⟨b, g, e, r, -⟩ := q 0 1 2 (heap ℤ) _ hf
  obtain ⟨b', g', e', r', -⟩ := C81_move_up 0 1 2 (heap ℤ) _ (by decide) hf
  rw [e] at e'
  cases e'
  have h1 := r 1 (by decide)
  have h2 := r' 1 (by decide)
  rw [h1] at h2
  revert h2
  decide

/-- **C81** It does with views that run backwards. -/
theorem C81_move_up_backwards (base k n : Nat) (h : Heap α) (f : Nat → α)
    (hf : ∀ i, i < k + n → h (base + i) = some (f i)) :
    Ends (copy1 ((⟨n, fun i => base + (n - 1 - i)⟩ : Vec).view : VecV α)
      ⟨n, fun i => base + (k + (n - 1 - i))⟩) h fun _ h' =>
      Vec.Becomes ⟨n, fun i => base + (k + i)⟩ h h' f := by
  refine (C81_copy_vector (⟨n, fun i => base + (n - 1 - i)⟩ : Vec).view
    ⟨n, fun i => base + (k + (n - 1 - i))⟩ h (fun i => f (n - 1 - i)) (fun i hi => ?_) (fun i hi => ?_) le_rfl
    (fun i j hi hj e => ?_) (fun i j hi hj e => ?_)).mono ?_
  · simp only [Vec.view] at *
    exact ⟨_, hf (n - 1 - i) (by omega), rfl⟩
  · simp only at *
    exact ⟨_, hf (k + (n - 1 - i)) (by omega)⟩
  · simp only at *; omega
  · simp only [Vec.view] at *; omega
  · rintro _ h' ⟨r1, r2⟩
    refine ⟨fun i hi => ?_, fun a ha => r2 a ?_⟩
    · simp only at *
      have := r1 (n - 1 - i) (by simp only; omega)
      simp only at this
      rwa [show n - 1 - (n - 1 - i) = i by omega] at this
    · rintro ⟨i, hi, e⟩
      simp only at *
      exact ha ⟨n - 1 - i, by simp only; omega, e⟩

example : Ends (copy1 ((⟨5, fun i => 10 + (5 - 1 - i)⟩ : Vec).view : VecV ℤ)
    ⟨5, fun i => 10 + (2 + (5 - 1 - i))⟩) (heap ℤ) fun _ h' =>
    Vec.Becomes ⟨5, fun i => 10 + (2 + i)⟩ (heap ℤ) h' fun i => ((10 + i : Nat) : ℤ) - 7 :=
  C81_move_up_backwards 10 2 5 (heap ℤ) (fun i => ((10 + i : Nat) : ℤ) - 7) fun i hi => heap_lt (by omega)

/-! ## Reversing and transposing in place -/

/-- **C81** `swap_elements` of a vector and its reversal changes nothing: each pair is exchanged twice. -/
theorem C81_swap_reversed (v : Vec) (h : Heap α) (f : Nat → α) (hv : v.Holds h f) (hu : v.Unique) :
    Ends (swap1 v ⟨v.ext, fun i => v.addr (v.ext - 1 - i)⟩) h fun _ h' => h' = h := by
  unfold swap1 forUp
  refine ends_swap_all (List.nodup_range' (step := 1)) v.addr (fun i => v.ext - 1 - i) ?_ ?_ f h ?_ ?_
  · intro i hi
    have := (mem_up.1 hi).2
    simp only at this
    exact ⟨mem_up.2 ⟨by omega, by simp only; omega⟩, by omega⟩
  · exact fun i hi k hk => hu i k (mem_up.1 hi).2 (mem_up.1 hk).2
  · exact fun i hi => hv i (mem_up.1 hi).2
  · intro i hi g u w h1 h2
    have hi := (mem_up.1 hi).2
    simp only at hi
    simp only [ends_bind, ends_vec_get, ends_vec_set]
    refine ⟨hi, u, h1, hi, w, h2, hi, ⟨u, h1⟩, hi, ?_, rfl⟩
    by_cases e : v.addr (v.ext - 1 - i) = v.addr i
    · exact ⟨w, by rw [e, Function.update_self]⟩
    · exact ⟨w, by rw [Function.update_of_ne e]; exact h2⟩

example : Ends (swap1 y ⟨3, fun i => y.addr (3 - 1 - i)⟩) (heap ℤ) fun _ h' => h' = heap ℤ :=
  C81_swap_reversed y _ _ (holds by_) (by view_facts)

/-- **C81** `swap_elements` of a square matrix and its transpose changes nothing. -/
theorem C81_swap_transposed (A : Mat) (h : Heap α) (f : Nat → Nat → α) (hA : A.Holds h f) (hu : A.Unique)
    (hsq : A.rows = A.cols) : Ends (swap2 A A.transposed) h fun _ h' => h' = h := by
  unfold swap2 forUp
  rw [forEach_nest]
  have mem : ∀ p : Nat × Nat, p ∈ ((List.range' 0 (A.transposed.cols - 0)).flatMap fun i =>
      (List.range' 0 (A.transposed.rows - 0)).map (Prod.mk i)) ↔ p.1 < A.rows ∧ p.2 < A.rows := by
    rintro ⟨i, j⟩
    simp only [List.mem_flatMap, List.mem_map, Prod.mk.injEq, mem_up]
    change (∃ a, (0 ≤ a ∧ a < A.rows) ∧ ∃ b, (0 ≤ b ∧ b < A.cols) ∧ a = i ∧ b = j) ↔ _
    constructor
    · rintro ⟨a, ⟨-, ha⟩, b, ⟨-, hb⟩, rfl, rfl⟩; exact ⟨ha, by omega⟩
    · rintro ⟨ha, hb⟩; exact ⟨i, ⟨by omega, ha⟩, j, ⟨by omega, by omega⟩, rfl, rfl⟩
  refine ends_swap_all ?_ (fun p => A.addr p.2 p.1) Prod.swap ?_ ?_ (fun p => f p.2 p.1) h ?_ ?_
  · rw [List.nodup_flatMap]
    refine ⟨fun i _ => (List.nodup_range' (step := 1)).map fun a b e => (Prod.mk.inj e).2, ?_⟩
    refine (List.nodup_range' (step := 1)).imp ?_
    intro a b hab p h1 h2
    simp only [List.mem_map] at h1 h2
    obtain ⟨_, _, rfl⟩ := h1
    obtain ⟨_, _, e⟩ := h2
    exact hab (Prod.mk.inj e).1.symm
  · intro p hp
    rw [mem] at hp
    exact ⟨(mem _).2 ⟨hp.2, hp.1⟩, rfl⟩
  · rintro ⟨i, j⟩ hp ⟨k, l⟩ hq e
    rw [mem] at hp hq
    simp only at hp hq e
    obtain ⟨rfl, rfl⟩ := hu j i l k hp.2 (by omega) trivial hq.2 (by omega) trivial e
    rfl
  · rintro ⟨i, j⟩ hp
    rw [mem] at hp
    exact hA j i hp.2 (hsq ▸ hp.1) trivial
  · rintro ⟨i, j⟩ hp g u w h1 h2
    rw [mem] at hp
    simp only [Prod.swap, Mat.transposed] at *
    have hi : i < A.cols := hsq ▸ hp.1
    have hj : j < A.cols := hsq ▸ hp.2
    simp only [ends_bind, ends_mat_get, ends_mat_set]
    refine ⟨⟨hp.2, hi⟩, u, h1, ⟨hj, hp.1⟩, w, h2, ⟨hp.2, hi⟩, ⟨u, h1⟩, ⟨hj, hp.1⟩, ?_, rfl⟩
    by_cases e : A.addr i j = A.addr j i
    · exact ⟨w, by rw [e, Function.update_self]⟩
    · exact ⟨w, by rw [Function.update_of_ne e]; exact h2⟩

example : Ends (swap2 B B.transposed) (heap ℤ) fun _ h' => h' = heap ℤ :=
  C81_swap_transposed B _ _ (mholds bB) (by view_facts) rfl

/-- **C81** `copy(transposed(A), A)` copies the upper triangle to the lower one: the result is symmetric. -/
theorem C81_copy_transposed (A : Mat) (h : Heap α) (f : Nat → Nat → α) (hA : A.Holds h f) (hu : A.Unique)
    (hsq : A.rows = A.cols) :
    Ends (copy2 (A.view : MatV α).transposed A) h fun _ h' =>
      A.Becomes h h' fun i j => if i ≤ j then f i j else f j i := by
  refine ends_mat_cols_order _ h hu fun i j hi hj g old fr => ?_
  have hr : g (A.addr j i) = some (if i ≤ j then f i j else f j i) := by
    by_cases q : i < j
    · rw [old j i (by omega) (by omega) (Or.inl q), if_neg (by omega), if_pos q.le]
    · rw [fr _ fun k l hk hl q' e => by
        have := hu k l j i hk hl trivial (by omega) (by omega) trivial e
        omega]
      rw [hA j i (by omega) (by omega) trivial]
      by_cases e : i = j
      · subst e; simp
      · rw [if_neg (by omega)]
  simp only [ends_bind, ends_matV_get, ends_mat_set]
  refine ⟨⟨by rw [hsq] at hi; exact hi, by rw [← hsq] at hj; exact hj⟩, _, hr, ⟨hi, hj⟩, ⟨f i j, ?_⟩, by simp [MatV.transposed, Mat.view],
    fun a ha => by simp [ha]⟩
  rw [fr _ fun k l hk hl q' e => by
    have := hu k l i j hk hl trivial hi hj trivial e
    omega]
  exact hA i j hi hj trivial

example : Ends (copy2 (B.view : MatV ℤ).transposed B) (heap ℤ) fun _ h' =>
    B.Becomes (heap ℤ) h' fun i j => if i ≤ j then mvals ℤ B i j else mvals ℤ B j i :=
  C81_copy_transposed B _ _ (mholds bB) (by view_facts) rfl

/-- **C81** (negative) So neither `copy` nor `swap_elements` transposes a matrix in place. -/
theorem C81_no_transpose_in_place :
    (¬ Ends (copy2 (B.view : MatV ℤ).transposed B) (heap ℤ) fun _ h' =>
      B.Becomes (heap ℤ) h' fun i j => mvals ℤ B j i) ∧
    ¬ Ends (swap2 B B.transposed) (heap ℤ) fun _ h' => B.Becomes (heap ℤ) h' fun i j => mvals ℤ B j i := by
  constructor
  · rintro ⟨b, g, e, r, -⟩
    obtain ⟨b', g', e', r', -⟩ := C81_copy_transposed B (heap ℤ) _ (mholds bB) (by view_facts) rfl
    rw [e] at e'
    cases e'
    have h1 := r 0 1 (by decide) (by decide) trivial
    have h2 := r' 0 1 (by decide) (by decide) trivial
    rw [h1] at h2
    revert h2
    decide
  · rintro ⟨b, g, e, r, -⟩
    obtain ⟨b', g', e', rfl⟩ := C81_swap_transposed B (heap ℤ) _ (mholds bB) (by view_facts) rfl
    rw [e] at e'
    cases e'
    have h1 := r 0 1 (by decide) (by decide) trivial
    revert h1
    decide

/-- **C81** `add(x, y, z)` of matrices, column by column. -/
theorem C81_add_matrix [Add α] (x y : MatV α) (z : Mat) (h : Heap α) (f g : Nat → Nat → α) (hx : x.Holds h f)
    (hy : y.Holds h g) (hz : z.Alloc h) (hr : x.rows = z.rows) (hc : x.cols = z.cols) (hyr : z.rows ≤ y.rows)
    (hyc : z.cols ≤ y.cols) (hu : z.Unique)
    (laterx : ∀ i j k l, i < z.rows → j < z.cols → k < z.rows → l < z.cols → (l < j ∨ l = j ∧ k < i) →
      z.addr k l ≠ x.addr i j)
    (latery : ∀ i j k l, i < z.rows → j < z.cols → k < z.rows → l < z.cols → (l < j ∨ l = j ∧ k < i) →
      z.addr k l ≠ y.addr i j) :
    Ends (add2 x y z) h fun _ h' => z.Becomes h h' fun i j => f i j + g i j := by
  unfold add2
  rw [hr, hc]
  refine ends_mat_cols_order _ h hu fun i j hi hj h1 _ fr => ?_
  obtain ⟨v, hv, ev⟩ := hx i j (by omega) (by omega) trivial
  obtain ⟨u, hw, ew⟩ := hy i j (by omega) (by omega) trivial
  obtain ⟨w, hw'⟩ := hz i j hi hj trivial
  simp only [ends_bind, ends_matV_get, ends_mat_set]
  refine ⟨⟨by omega, by omega⟩, v, (fr _ fun k l hk hl q => laterx i j k l hi hj hk hl q).trans hv,
    ⟨by omega, by omega⟩, u, (fr _ fun k l hk hl q => latery i j k l hi hj hk hl q).trans hw, ⟨hi, hj⟩,
    ⟨w, (fr _ fun k l hk hl q e => ?_).trans hw'⟩, by simp [ev, ew], fun a ha => by simp [ha]⟩
  have := hu k l i j hk hl trivial hi hj trivial e
  omega

/-- The sum of a padded matrix and another one takes the place of the first, without the padding. -/
example : Ends (add2 ((⟨3, 3, fun i j => i + 5 * j⟩ : Mat).view : MatV ℤ) A.view ⟨3, 3, fun i j => i + 3 * j⟩)
    (heap ℤ) fun _ h' => Mat.Becomes ⟨3, 3, fun i j => i + 3 * j⟩ (heap ℤ) h'
      fun i j => mvals ℤ ⟨3, 3, fun i j => i + 5 * j⟩ i j + mvals ℤ A i j :=
  C81_add_matrix _ _ _ _ _ _ (mholdsV fun i j hi hj => by simp only at *; omega) (mholdsV bA)
    (malloc fun i j hi hj => by simp only at *; omega) rfl rfl le_rfl le_rfl
    (fun i j k l hi hj _ hk hl _ e => by simp only at *; omega)
    (fun i j k l hi hj hk hl q e => by simp only [Mat.view] at *; omega)
    (fun i j k l hi hj hk hl q e => by simp only [Mat.view, A] at *; omega)

/-- **C81** Adding a range to itself, moved by one, gives prefix sums: with `x` the elements `0 … n-1`, and
`y` and `z` the elements `1 … n`, of one array. -/
theorem C81_prefix_sums [AddCommMonoid α] (base n : Nat) (h : Heap α) (f : Nat → α)
    (hf : ∀ i, i ≤ n → h (base + i) = some (f i)) :
    Ends (add1 ((⟨n, fun i => base + i⟩ : Vec).view : VecV α) (⟨n, fun i => base + (1 + i)⟩ : Vec).view
      ⟨n, fun i => base + (1 + i)⟩) h fun _ h' =>
        Vec.Becomes ⟨n + 1, fun i => base + i⟩ h h' fun i => ∑ k ∈ range (i + 1), f k := by
  refine (ends_vec_order (y := ⟨n, fun i => base + (1 + i)⟩) (fun i => ∑ k ∈ range (i + 2), f k) h
    (fun i j _ _ e => by simp only at e; omega) fun i hi g old fr => ?_).mono ?_
  · simp only at hi old fr
    have hr : g (base + i) = some (∑ k ∈ range (i + 1), f k) := by
      rcases i with _ | i
      · rw [fr _ fun j hj e => by omega, hf 0 (by omega)]
        simp
      · have := old i (by omega)
        rwa [Nat.add_comm 1 i] at this
    have hs : g (base + (1 + i)) = some (f (i + 1)) := by
      rw [fr _ fun j hj e => by omega, hf _ (by omega), Nat.add_comm 1 i]
    simp only [ends_bind, ends_vecV_get, ends_vec_set, Vec.view]
    refine ⟨hi, _, hr, hi, _, hs, hi, ⟨_, hs⟩, ?_, fun a ha => by simp [ha]⟩
    rw [Function.update_self, id, id, ← sum_range_succ]
  · rintro _ h' ⟨r1, r2⟩
    refine ⟨fun i hi => ?_, fun a ha => r2 a ?_⟩
    · rcases i with _ | i
      · have := (r2 (base + 0) (by rintro ⟨k, hk, e⟩; simp only at e; omega)).trans (hf 0 (by omega))
        simpa using this
      · have := r1 i (Nat.lt_of_succ_lt_succ hi)
        simp only at this ⊢
        rwa [Nat.add_comm 1 i] at this
    · rintro ⟨k, hk, e⟩
      exact ha ⟨1 + k, by simp only at hk ⊢; omega, e⟩

example : Ends (add1 ((⟨4, fun i => 10 + i⟩ : Vec).view : VecV ℤ) (⟨4, fun i => 10 + (1 + i)⟩ : Vec).view
    ⟨4, fun i => 10 + (1 + i)⟩) (heap ℤ) fun _ h' => Vec.Becomes ⟨5, fun i => 10 + i⟩ (heap ℤ) h'
      fun i => ∑ k ∈ range (i + 1), (((10 + k : Nat) : ℤ) - 7) :=
  C81_prefix_sums 10 4 (heap ℤ) (fun i => ((10 + i : Nat) : ℤ) - 7) fun i hi => heap_lt (by omega)

/-- **C81** With the first argument scaled by `t` the last element becomes the value at `t` of the polynomial
whose coefficients, from the highest, the array holds (and the others the values of its leading parts). -/
theorem C81_horner [CommSemiring α] (t : α) (base n : Nat) (h : Heap α) (f : Nat → α)
    (hf : ∀ i, i ≤ n → h (base + i) = some (f i)) :
    Ends (add1 (((⟨n, fun i => base + i⟩ : Vec).view : VecV α).scaled t)
      (⟨n, fun i => base + (1 + i)⟩ : Vec).view ⟨n, fun i => base + (1 + i)⟩) h fun _ h' =>
        Vec.Becomes ⟨n + 1, fun i => base + i⟩ h h' fun i => ∑ k ∈ range (i + 1), f k * t ^ (i - k) := by
  have step : ∀ i, t * (∑ k ∈ range (i + 1), f k * t ^ (i - k)) + f (i + 1) =
      ∑ k ∈ range (i + 2), f k * t ^ (i + 1 - k) := fun i => by
    rw [sum_range_succ _ (i + 1), mul_sum, Nat.sub_self, pow_zero, mul_one]
    congr 1
    refine sum_congr rfl fun k hk => ?_
    have := mem_range.1 hk
    rw [show i + 1 - k = (i - k) + 1 by omega, pow_succ]
    ring
  refine (ends_vec_order (y := ⟨n, fun i => base + (1 + i)⟩)
    (fun i => ∑ k ∈ range (i + 2), f k * t ^ (i + 1 - k)) h
    (fun i j _ _ e => by simp only at e; omega) fun i hi g old fr => ?_).mono ?_
  · simp only at hi old fr
    have hr : g (base + i) = some (∑ k ∈ range (i + 1), f k * t ^ (i - k)) := by
      rcases i with _ | i
      · rw [fr _ fun j hj e => by omega, hf 0 (by omega)]
        simp
      · have := old i (by omega)
        rwa [Nat.add_comm 1 i] at this
    have hs : g (base + (1 + i)) = some (f (i + 1)) := by
      rw [fr _ fun j hj e => by omega, hf _ (by omega), Nat.add_comm 1 i]
    simp only [ends_bind, ends_vecV_get, ends_vec_set, Vec.view, VecV.scaled]
    refine ⟨hi, _, hr, hi, _, hs, hi, ⟨_, hs⟩, ?_, fun a ha => by simp [ha]⟩
    rw [Function.update_self, ← step i]
    rfl
  · rintro _ h' ⟨r1, r2⟩
    refine ⟨fun i hi => ?_, fun a ha => r2 a ?_⟩
    · rcases i with _ | i
      · have := (r2 (base + 0) (by rintro ⟨k, hk, e⟩; simp only at e; omega)).trans (hf 0 (by omega))
        simpa using this
      · have := r1 i (Nat.lt_of_succ_lt_succ hi)
        simp only at this ⊢
        rwa [Nat.add_comm 1 i] at this
    · rintro ⟨k, hk, e⟩
      exact ha ⟨1 + k, by simp only at hk ⊢; omega, e⟩

example : Ends (add1 (((⟨4, fun i => 10 + i⟩ : Vec).view : VecV ℤ).scaled 2)
    (⟨4, fun i => 10 + (1 + i)⟩ : Vec).view ⟨4, fun i => 10 + (1 + i)⟩) (heap ℤ) fun _ h' =>
      Vec.Becomes ⟨5, fun i => 10 + i⟩ (heap ℤ) h'
        fun i => ∑ k ∈ range (i + 1), (((10 + k : Nat) : ℤ) - 7) * 2 ^ (i - k) :=
  C81_horner 2 10 4 (heap ℤ) (fun i => ((10 + i : Nat) : ℤ) - 7) fun i hi => heap_lt (by omega)

/-- **C81** The updating `matrix_vector_product(A, x, y, z)` is right if `x` is apart from `z`, no `z(k)` lies in
row `k` or a later row of `A`, and none is a later `y(i)`. -/
theorem C81_gemv_update [NonUnitalNonAssocSemiring α] (A : MatV α) (x y : VecV α) (z : Vec) (h : Heap α)
    (a : Nat → Nat → α) (f g : Nat → α) (hA : A.Holds h a) (hx : x.Holds h f) (hy : y.Holds h g)
    (hz : z.Alloc h) (hrows : z.ext = A.rows) (hcols : A.cols ≤ x.ext) (hye : A.rows ≤ y.ext) (hu : z.Unique)
    (later : ∀ i j k, i < A.rows → j < A.cols → k ≤ i → z.addr k ≠ A.addr i j)
    (latery : ∀ i k, i < A.rows → k < i → z.addr k ≠ y.addr i) (hxz : Apart x.toVec.Cell z.Cell) :
    Ends (gemvUpdate A x y z) h fun _ h' => z.Becomes h h' fun i => g i + ∑ j ∈ range A.cols, a i j * f j := by
  unfold gemvUpdate
  rw [← hrows]
  refine ends_vec_order _ h hu fun i hi h1 _ fr => ?_
  obtain ⟨w, hw⟩ := hz i hi
  obtain ⟨c, hc, ec⟩ := hy i (by omega)
  simp only [ends_bind, ends_vecV_get, ends_vec_set]
  refine ⟨by omega, c, (fr _ fun k hk => latery i k (by omega) hk).trans hc, hi,
    ⟨w, (fr _ fun k hk e => by have := hu k i (by omega) hi e; omega).trans hw⟩, ?_⟩
  rw [ec]
  have key := ends_acc (p := z.addr i) (n := A.cols) (fun j => a i j * f j)
    (h1 := Function.update h1 (z.addr i) (some (g i))) (s := g i) (by simp) (body := fun j => do
      let a ← A.get i j
      let b ← x.get j
      z.addTo i (a * b)) ?_
  · refine key.mono ?_
    rintro _ h' ⟨r1, r2⟩
    refine ⟨?_, fun b hb => (r2 b hb).trans (by simp [hb])⟩
    rw [r1, foldl_add_eq_sum]
  · intro j hj h2 v hv hfr
    obtain ⟨u, hu1, eu⟩ := hA i j (by omega) hj trivial
    obtain ⟨t, ht, et⟩ := hx j (by omega)
    have cell : ∀ p, (∀ k, k ≤ i → z.addr k ≠ p) → h2 p = h p := fun p hp => by
      rw [hfr p (Ne.symm (hp i le_rfl)), Function.update_of_ne (Ne.symm (hp i le_rfl))]
      exact fr p fun k hk => hp k hk.le
    unfold Vec.addTo
    simp only [ends_bind, ends_matV_get, ends_vecV_get, ends_vec_get, ends_vec_set]
    exact ⟨⟨by omega, hj⟩, u, (cell _ fun k hk => later i j k (by omega) hj hk).trans hu1, by omega, t,
      (cell _ fun k hk e => hxz _ ⟨j, by omega, rfl⟩ ⟨k, by omega, e⟩).trans ht, hi, v, hv, hi, ⟨v, hv⟩,
      by simp [eu, et], fun b hb => by simp [hb]⟩

/-- `y` is the array one place after `z`. -/
example : Ends (gemvUpdate (A.view : MatV ℤ) x.view (⟨3, fun i => 81 + i⟩ : Vec).view ⟨3, fun i => 80 + i⟩)
    (heap ℤ) fun _ h' => Vec.Becomes ⟨3, fun i => 80 + i⟩ (heap ℤ) h' fun i =>
      vals ℤ ⟨3, fun i => 81 + i⟩ i + ∑ j ∈ range 3, mvals ℤ A i j * vals ℤ x j :=
  C81_gemv_update _ _ _ _ _ _ _ _ (mholdsV bA) (holdsV bx) (holdsV fun i hi => by simp only at *; omega)
    (alloc fun i hi => by simp only at *; omega) rfl le_rfl le_rfl (fun i k hi hk e => by simp only at *; omega)
    (fun i j k hi hj hk e => by simp only [Mat.view, A] at *; omega)
    (fun i k hi hk e => by simp only [Vec.view] at *; omega)
    (by rintro a ⟨i, hi, e⟩ ⟨k, hk, e'⟩; simp only [x, Vec.view] at *; omega)

/-- The vector after a sweep in which every new element is used at once. -/
def sweep [NonUnitalNonAssocSemiring α] (n : Nat) (a : Nat → Nat → α) (g f : Nat → α) (i : Nat) : α :=
  let s := g i + ∑ j : Fin i, a i j * sweep n a g f j
  s + a i i * s + ∑ j ∈ Ico (i + 1) n, a i j * f j
termination_by i
decreasing_by exact j.2

theorem sweep_eq [NonUnitalNonAssocSemiring α] (n : Nat) (a : Nat → Nat → α) (g f : Nat → α) (i : Nat) :
    sweep n a g f i = (g i + ∑ j ∈ range i, a i j * sweep n a g f j) +
      a i i * (g i + ∑ j ∈ range i, a i j * sweep n a g f j) + ∑ j ∈ Ico (i + 1) n, a i j * f j := by
  rw [sweep, ← Finset.sum_range fun j => a i j * sweep n a g f j]

/-- Row `i` of a product whose output is its input. -/
theorem ends_row_in_place [NonUnitalNonAssocSemiring α] {A : MatV α} {x : Vec} {h h1 : Heap α}
    {a : Nat → Nat → α} {f g : Nat → α} {i : Nat} (hA : A.Holds h a) (hx : x.Holds h f) (hr : A.rows = x.ext)
    (hc : A.cols = x.ext) (hu : x.Unique) (hAx : Apart A.toMat.Cell x.Cell) (hi : i < x.ext)
    (old : ∀ j, j < i → h1 (x.addr j) = some (sweep x.ext a g f j))
    (fr : ∀ b, (∀ j, j < i → x.addr j ≠ b) → h1 b = h b) :
    Ends (forUp 0 x.ext fun j => do
        let a ← A.get i j
        let b ← (x.view : VecV α).get j
        x.addTo i (a * b)) (Function.update h1 (x.addr i) (some (g i))) fun _ h' =>
      h' (x.addr i) = some (sweep x.ext a g f i) ∧ ∀ b, b ≠ x.addr i → h' b = h1 b := by
  refine (ends_acc_of (p := x.addr i) (n := x.ext) (fun j => if j ≤ i
      then g i + ∑ k ∈ range j, a i k * sweep x.ext a g f k
      else (g i + ∑ k ∈ range i, a i k * sweep x.ext a g f k) +
        a i i * (g i + ∑ k ∈ range i, a i k * sweep x.ext a g f k) + ∑ k ∈ Ico (i + 1) j, a i k * f k)
    (by simp) ?_).mono ?_
  · intro j hj h2 hv hfr
    obtain ⟨u, hu1, eu⟩ := hA i j (by omega) (by omega) trivial
    have far : ∀ p, p ≠ x.addr i → h2 p = h1 p := fun p hp => by
      rw [hfr p hp, Function.update_of_ne hp]
    have hAij : h2 (A.addr i j) = some u := by
      have ne : ∀ k, k < x.ext → x.addr k ≠ A.addr i j := fun k hk e =>
        hAx _ ⟨i, j, by rw [← hr] at hi; exact hi, by rw [← hc] at hj; exact hj, trivial, rfl⟩ ⟨k, hk, e⟩
      rw [far _ (Ne.symm (ne i hi)), fr _ fun k hk => ne k (by omega)]
      exact hu1
    unfold Vec.addTo
    simp only [ends_bind, ends_matV_get, ends_vecV_get, ends_vec_get, ends_vec_set]
    rcases Nat.lt_trichotomy j i with q | q | q
    · rw [if_pos q.le] at hv
      refine ⟨⟨by omega, by omega⟩, u, hAij, hj, _, (far _ fun e => ?_).trans (old j q), hi, _, hv, hi, ⟨_, hv⟩,
        ?_, fun c hc => by simp [hc]⟩
      · have := hu j i hj hi e
        omega
      · rw [Function.update_self, eu, if_pos (by omega), sum_range_succ, add_assoc]
        rfl
    · subst q
      rw [if_pos le_rfl] at hv
      refine ⟨⟨by omega, by omega⟩, u, hAij, hj, _, hv, hi, _, hv, hi, ⟨_, hv⟩, ?_, fun c hc => by simp [hc]⟩
      rw [Function.update_self, eu, if_neg (by omega), Ico_self, sum_empty, add_zero]
      rfl
    · rw [if_neg (by omega)] at hv
      refine ⟨⟨by omega, by omega⟩, u, hAij, hj, f j, ((far _ fun e => ?_).trans (fr _ fun k hk e => ?_)).trans
        (hx j hj), hi, _, hv, hi, ⟨_, hv⟩, ?_, fun c hc => by simp [hc]⟩
      · have := hu j i hj hi e
        omega
      · have := hu k j (by omega) hj e
        omega
      · rw [Function.update_self, eu, if_neg (by omega), sum_Ico_succ_top (by omega), ← add_assoc]
        rfl
  · rintro _ h' ⟨r1, r2⟩
    refine ⟨?_, fun b hb => (r2 b hb).trans (by simp [hb])⟩
    rw [r1, if_neg (by omega), ← sweep_eq]

/-- **C81** The overwriting product with the vector itself as output, `matrix_vector_product(A, x, x)`: row `i`
uses the new elements before `i` and the old ones after `i`, and in the place of `x(i)` the sum so far. -/
theorem C81_gemv_in_place [NonUnitalNonAssocSemiring α] (A : MatV α) (x : Vec) (h : Heap α)
    (a : Nat → Nat → α) (f : Nat → α) (hA : A.Holds h a) (hx : x.Holds h f)
    (hr : A.rows = x.ext) (hc : A.cols = x.ext) (hu : x.Unique) (hAx : Apart A.toMat.Cell x.Cell) :
    Ends (gemv A x.view x) h fun _ h' => ∃ v, x.Becomes h h' v ∧
      ∀ i, i < x.ext → v i = ∑ j ∈ range i, a i j * v j + a i i * ∑ j ∈ range i, a i j * v j +
        ∑ j ∈ Ico (i + 1) x.ext, a i j * f j := by
  have run : Ends (gemv A x.view x) h fun _ h' => x.Becomes h h' (sweep x.ext a (fun _ => 0) f) := by
    unfold gemv
    rw [hr, hc]
    refine ends_vec_order _ h hu fun i hi h1 old fr => ?_
    simp only [ends_bind, ends_vec_set]
    exact ⟨hi, ⟨f i, (fr _ fun k hk e => by have := hu k i (by omega) hi e; omega).trans (hx i hi)⟩,
      ends_row_in_place (g := fun _ => 0) hA hx hr hc hu hAx hi old fr⟩
  exact run.mono fun _ h' q => ⟨_, q, fun i _ => by rw [sweep_eq]; simp only [zero_add]⟩

example : Ends (gemv (A.view : MatV ℤ) x.view x) (heap ℤ) fun _ h' => ∃ v, x.Becomes (heap ℤ) h' v ∧
    ∀ i, i < 3 → v i = ∑ j ∈ range i, mvals ℤ A i j * v j + mvals ℤ A i i * ∑ j ∈ range i, mvals ℤ A i j * v j +
      ∑ j ∈ Ico (i + 1) 3, mvals ℤ A i j * vals ℤ x j :=
  C81_gemv_in_place _ _ _ _ _ (mholdsV bA) (holds bx) rfl rfl (by view_facts) (by view_facts)

/-- **C81** The updating product with the vector itself as output, `matrix_vector_product(A, x, y, x)`. -/
theorem C81_gemv_update_in_place [NonUnitalNonAssocSemiring α] (A : MatV α) (x : Vec) (y : VecV α) (h : Heap α)
    (a : Nat → Nat → α) (f g : Nat → α) (hA : A.Holds h a) (hx : x.Holds h f) (hy : y.Holds h g)
    (hr : A.rows = x.ext) (hc : A.cols = x.ext) (hye : x.ext ≤ y.ext) (hu : x.Unique)
    (hAx : Apart A.toMat.Cell x.Cell) (hyx : y.toVec.Aligned x) :
    Ends (gemvUpdate A x.view y x) h fun _ h' => ∃ v, x.Becomes h h' v ∧
      ∀ i, i < x.ext → v i = (g i + ∑ j ∈ range i, a i j * v j) + a i i * (g i + ∑ j ∈ range i, a i j * v j) +
        ∑ j ∈ Ico (i + 1) x.ext, a i j * f j := by
  have run : Ends (gemvUpdate A x.view y x) h fun _ h' => x.Becomes h h' (sweep x.ext a g f) := by
    unfold gemvUpdate
    rw [hr, hc]
    refine ends_vec_order _ h hu fun i hi h1 old fr => ?_
    obtain ⟨c, hc', ec⟩ := hy i (by omega)
    simp only [ends_bind, ends_vecV_get, ends_vec_set]
    refine ⟨by omega, c, (fr _ fun k hk e => ?_).trans hc', hi,
      ⟨f i, (fr _ fun k hk e => by have := hu k i (by omega) hi e; omega).trans (hx i hi)⟩, ?_⟩
    · have := hyx i k (show i < y.ext by omega) (by omega) e.symm
      omega
    rw [ec]
    exact ends_row_in_place hA hx hr hc hu hAx hi old fr
  exact run.mono fun _ h' q => ⟨_, q, fun i _ => sweep_eq ..⟩

example : Ends (gemvUpdate (A.view : MatV ℤ) x.view y.view x) (heap ℤ) fun _ h' => ∃ v, x.Becomes (heap ℤ) h' v ∧
    ∀ i, i < 3 → v i = (vals ℤ y i + ∑ j ∈ range i, mvals ℤ A i j * v j) +
      mvals ℤ A i i * (vals ℤ y i + ∑ j ∈ range i, mvals ℤ A i j * v j) +
        ∑ j ∈ Ico (i + 1) 3, mvals ℤ A i j * vals ℤ x j :=
  C81_gemv_update_in_place _ _ _ _ _ _ _ (mholdsV bA) (holds bx) (holdsV by_) rfl rfl le_rfl (by view_facts)
    (by view_facts) (by view_facts)

/-- **C81** If the diagonal of the matrix is zero this is a sweep of the method of Gauss and Seidel. -/
theorem C81_gemv_sweep [NonUnitalNonAssocSemiring α] (A : MatV α) (x : Vec) (y : VecV α) (h : Heap α)
    (a : Nat → Nat → α) (f g : Nat → α) (hA : A.Holds h a) (hx : x.Holds h f) (hy : y.Holds h g)
    (hr : A.rows = x.ext) (hc : A.cols = x.ext) (hye : x.ext ≤ y.ext) (hu : x.Unique)
    (hAx : Apart A.toMat.Cell x.Cell) (hyx : y.toVec.Aligned x) (hd : ∀ i, i < x.ext → a i i = 0) :
    Ends (gemvUpdate A x.view y x) h fun _ h' => ∃ v, x.Becomes h h' v ∧
      ∀ i, i < x.ext → v i = g i + ∑ j ∈ range i, a i j * v j + ∑ j ∈ Ico (i + 1) x.ext, a i j * f j := by
  refine (C81_gemv_update_in_place A x y h a f g hA hx hy hr hc hye hu hAx hyx).mono ?_
  rintro _ h' ⟨v, hv, e⟩
  exact ⟨v, hv, fun i hi => by rw [e i hi, hd i hi, zero_mul, add_zero]⟩

/-- With ones below the diagonal the sweep adds all earlier elements. -/
example (h : Heap ℤ) (hA : A.Holds h fun i j => if j < i then 1 else 0) (hx : x.Holds h fun _ => 5)
    (hy : y.Holds h fun i => (i : ℤ)) :
    Ends (gemvUpdate (A.view : MatV ℤ) x.view y.view x) h fun _ h' => ∃ v, x.Becomes h h' v ∧
      ∀ i, i < 3 → v i = (i : ℤ) + ∑ j ∈ range i, (if j < i then 1 else 0) * v j +
        ∑ j ∈ Ico (i + 1) 3, (if j < i then 1 else 0) * 5 :=
  C81_gemv_sweep (A.view : MatV ℤ) x y.view h _ _ _ (fun i j hi hj t => ⟨_, hA i j hi hj t, rfl⟩) hx
    (fun i hi => ⟨_, hy i hi, rfl⟩) rfl rfl le_rfl (by view_facts) (by view_facts) (by view_facts)
    (fun i _ => if_neg (Nat.lt_irrefl i))

/-- The same for any products `m i k v` of the coefficient `(i, k)` and `v`. -/
def sweepBy [AddCommMonoid α] (n : Nat) (m : Nat → Nat → α → α) (f : Nat → α) (i : Nat) : α :=
  let s := ∑ j : Fin i, m i j (sweepBy n m f j)
  s + m i i s + ∑ j ∈ Ico (i + 1) n, m i j (f j)
termination_by i
decreasing_by exact j.2

theorem sweepBy_eq [AddCommMonoid α] (n : Nat) (m : Nat → Nat → α → α) (f : Nat → α) (i : Nat) :
    sweepBy n m f i = ∑ j ∈ range i, m i j (sweepBy n m f j) + m i i (∑ j ∈ range i, m i j (sweepBy n m f j)) +
      ∑ j ∈ Ico (i + 1) n, m i j (f j) := by
  rw [sweepBy, ← Finset.sum_range fun j => m i j (sweepBy n m f j)]

/-- A sum into cell `c i` that reads the cells `c k`, also `c i`. -/
theorem ends_sum_in_place [AddCommMonoid α] {n i : Nat} (hi : i < n) (c : Nat → Nat)
    (inj : ∀ k l, k < n → l < n → c k = c l → k = l) (m : Nat → Nat → α → α) {v f : Nat → α} {h1 : Heap α}
    (old : ∀ k, k < i → h1 (c k) = some (v k)) (new : ∀ k, i < k → k < n → h1 (c k) = some (f k))
    {body : Nat → Prog α Unit} (hbody : ∀ k, k < n → ∀ h u w, h (c k) = some u → h (c i) = some w →
      (∀ a, a ≠ c i → h a = h1 a) →
      Ends (body k) h fun _ h' => h' (c i) = some (w + m i k u) ∧ ∀ a, a ≠ c i → h' a = h a) :
    Ends (forUp 0 n body) (Function.update h1 (c i) (some 0)) fun _ h' =>
      h' (c i) = some (∑ j ∈ range i, m i j (v j) + m i i (∑ j ∈ range i, m i j (v j)) +
        ∑ j ∈ Ico (i + 1) n, m i j (f j)) ∧ ∀ a, a ≠ c i → h' a = h1 a := by
  refine (ends_acc_of (p := c i) (n := n) (fun j => if j ≤ i then ∑ k ∈ range j, m i k (v k)
      else ∑ k ∈ range i, m i k (v k) + m i i (∑ k ∈ range i, m i k (v k)) + ∑ k ∈ Ico (i + 1) j, m i k (f k))
    (by simp) ?_).mono ?_
  · intro j hj h2 hv hfr
    have far : ∀ p, p ≠ c i → h2 p = h1 p := fun p hp => by rw [hfr p hp, Function.update_of_ne hp]
    have ne : j ≠ i → c j ≠ c i := fun q e => q (inj j i hj hi e)
    rcases Nat.lt_trichotomy j i with q | q | q
    · rw [if_pos q.le] at hv
      have := hbody j hj h2 _ _ ((far _ (ne (by omega))).trans (old j q)) hv far
      rwa [← sum_range_succ (fun k => m i k (v k)), ← if_pos (c := j + 1 ≤ i) (by omega)
        (t := ∑ k ∈ range (j + 1), m i k (v k)) (e := ∑ k ∈ range i, m i k (v k) +
          m i i (∑ k ∈ range i, m i k (v k)) + ∑ k ∈ Ico (i + 1) (j + 1), m i k (f k))] at this
    · subst q
      rw [if_pos le_rfl] at hv
      have := hbody j hj h2 _ _ hv hv far
      rw [if_neg (by omega), Ico_self, sum_empty, add_zero]
      exact this
    · rw [if_neg (by omega)] at hv
      have := hbody j hj h2 _ _ ((far _ (ne (by omega))).trans (new j q hj)) hv far
      rw [if_neg (by omega), sum_Ico_succ_top (by omega), ← add_assoc]
      exact this
  · rintro _ h' ⟨r1, r2⟩
    refine ⟨?_, fun b hb => (r2 b hb).trans (by simp [hb])⟩
    rw [r1, if_neg (by omega)]

/-- **C81** `matrix_product(A, B, B)`: each column of `B` changes as in C81_gemv_in_place. -/
theorem C81_gemm_in_place_right [NonUnitalNonAssocSemiring α] (A : MatV α) (B : Mat) (h : Heap α)
    (a b : Nat → Nat → α) (hA : A.Holds h a) (hB : B.Holds h b) (hr : A.rows = B.rows) (hc : A.cols = B.rows)
    (hu : B.Unique) (hAB : Apart A.toMat.Cell B.Cell) :
    Ends (gemm A B.view B) h fun _ h' => ∃ v, B.Becomes h h' v ∧ ∀ i j, i < B.rows → j < B.cols →
      v i j = ∑ k ∈ range i, a i k * v k j + a i i * ∑ k ∈ range i, a i k * v k j +
        ∑ k ∈ Ico (i + 1) B.rows, a i k * b k j := by
  have run : Ends (gemm A B.view B) h fun _ h' => B.Becomes h h' fun i j =>
      sweepBy B.rows (fun i k v => a i k * v) (fun k => b k j) i := by
    unfold gemm
    rw [hc]
    refine ends_mat_rows_order _ h hu fun i j hi hj h1 old fr => ?_
    rw [ends_bind, ends_mat_set]
    refine ⟨⟨hi, hj⟩, ⟨b i j, (fr _ fun k l hk' hl q e => by
      have := hu k l i j hk' hl trivial hi hj trivial e; omega).trans (hB i j hi hj trivial)⟩, ?_⟩
    rw [sweepBy_eq]
    refine ends_sum_in_place hi (fun k => B.addr k j)
      (fun k l hk hl e => (hu k j l j hk hj trivial hl hj trivial e).1) (fun i k v => a i k * v)
      (v := fun k => sweepBy B.rows (fun i k v => a i k * v) (fun k => b k j) k) (f := fun k => b k j)
      (fun k hk => old k j (by omega) hj (.inl hk)) (fun k hk hk' => (fr _ fun r l hr' hl q e => ?_).trans
        (hB k j hk' hj trivial)) fun k hk h2 u w hu2 hw far => ?_
    · have := hu r l k j hr' hl trivial hk' hj trivial e
      omega
    · obtain ⟨t, ht, et⟩ := hA i k (by omega) (by omega) trivial
      have ne : ∀ r l, r < B.rows → l < B.cols → B.addr r l ≠ A.addr i k := fun r l hr' hl e =>
        hAB _ ⟨i, k, hr ▸ hi, hc ▸ hk, trivial, rfl⟩ ⟨r, l, hr', hl, trivial, e⟩
      have hAik : h2 (A.addr i k) = some t := by
        rw [far _ (Ne.symm (ne i j hi hj)), fr _ fun r l hr' hl _ => ne r l hr' hl]
        exact ht
      unfold Mat.addTo
      simp only [ends_bind, ends_matV_get, ends_mat_get, ends_mat_set]
      exact ⟨⟨by omega, by omega⟩, t, hAik, ⟨hk, hj⟩, u, hu2, ⟨hi, hj⟩, w, hw, ⟨hi, hj⟩, ⟨w, hw⟩,
        by simp [et, Mat.view], fun b hb => by simp [hb]⟩
  exact run.mono fun _ h' q => ⟨_, q, fun i j _ _ => sweepBy_eq ..⟩

example : Ends (gemm (A.view : MatV ℤ) B.view B) (heap ℤ) fun _ h' => ∃ v, B.Becomes (heap ℤ) h' v ∧
    ∀ i j, i < 3 → j < 3 → v i j = ∑ k ∈ range i, mvals ℤ A i k * v k j +
      mvals ℤ A i i * ∑ k ∈ range i, mvals ℤ A i k * v k j + ∑ k ∈ Ico (i + 1) 3, mvals ℤ A i k * mvals ℤ B k j :=
  C81_gemm_in_place_right _ _ _ _ _ (mholdsV bA) (mholds bB) rfl rfl (by view_facts) (by view_facts)

/-- **C81** `matrix_product(A, B, A)`: each row of `A` changes from left to right. -/
theorem C81_gemm_in_place_left [NonUnitalNonAssocSemiring α] (A : Mat) (B : MatV α) (h : Heap α)
    (a b : Nat → Nat → α) (hA : A.Holds h a) (hB : B.Holds h b) (hr : B.rows = A.cols) (hc : B.cols = A.cols)
    (hu : A.Unique) (hBA : Apart B.toMat.Cell A.Cell) :
    Ends (gemm A.view B A) h fun _ h' => ∃ v, A.Becomes h h' v ∧ ∀ i j, i < A.rows → j < A.cols →
      v i j = ∑ k ∈ range j, v i k * b k j + (∑ k ∈ range j, v i k * b k j) * b j j +
        ∑ k ∈ Ico (j + 1) A.cols, a i k * b k j := by
  have run : Ends (gemm A.view B A) h fun _ h' => A.Becomes h h' fun i j =>
      sweepBy A.cols (fun j k v => v * b k j) (fun k => a i k) j := by
    unfold gemm
    refine ends_mat_rows_order _ h hu fun i j hi hj h1 old fr => ?_
    rw [ends_bind, ends_mat_set]
    refine ⟨⟨hi, hj⟩, ⟨a i j, (fr _ fun k l hk' hl q e => by
      have := hu k l i j hk' hl trivial hi hj trivial e; omega).trans (hA i j hi hj trivial)⟩, ?_⟩
    rw [sweepBy_eq]
    refine ends_sum_in_place hj (fun k => A.addr i k)
      (fun k l hk hl e => (hu i k i l hi hk trivial hi hl trivial e).2) (fun j k v => v * b k j)
      (v := fun k => sweepBy A.cols (fun j k v => v * b k j) (fun k => a i k) k) (f := fun k => a i k)
      (fun k hk => old i k hi (by omega) (.inr ⟨rfl, hk⟩)) (fun k hk hk' => (fr _ fun r l hr' hl q e => ?_).trans
        (hA i k hi hk' trivial)) fun k hk h2 u w hu2 hw far => ?_
    · have := hu r l i k hr' hl trivial hi hk' trivial e
      omega
    · obtain ⟨t, ht, et⟩ := hB k j (by omega) (by omega) trivial
      have ne : ∀ r l, r < A.rows → l < A.cols → A.addr r l ≠ B.addr k j := fun r l hr' hl e =>
        hBA _ ⟨k, j, hr ▸ hk, hc ▸ hj, trivial, rfl⟩ ⟨r, l, hr', hl, trivial, e⟩
      have hBkj : h2 (B.addr k j) = some t := by
        rw [far _ (Ne.symm (ne i j hi hj)), fr _ fun r l hr' hl _ => ne r l hr' hl]
        exact ht
      unfold Mat.addTo
      simp only [ends_bind, ends_matV_get, ends_mat_get, ends_mat_set]
      exact ⟨⟨hi, hk⟩, u, hu2, ⟨by omega, by omega⟩, t, hBkj, ⟨hi, hj⟩, w, hw, ⟨hi, hj⟩, ⟨w, hw⟩,
        by simp [et, Mat.view], fun b hb => by simp [hb]⟩
  exact run.mono fun _ h' q => ⟨_, q, fun i j _ _ => sweepBy_eq ..⟩

example : Ends (gemm (A.view : MatV ℤ) B.view A) (heap ℤ) fun _ h' => ∃ v, A.Becomes (heap ℤ) h' v ∧
    ∀ i j, i < 3 → j < 3 → v i j = ∑ k ∈ range j, v i k * mvals ℤ B k j +
      (∑ k ∈ range j, v i k * mvals ℤ B k j) * mvals ℤ B j j +
        ∑ k ∈ Ico (j + 1) 3, mvals ℤ A i k * mvals ℤ B k j :=
  C81_gemm_in_place_left _ _ _ _ _ (mholds bA) (mholdsV bB) rfl rfl (by view_facts) (by view_facts)

/-- **C81** So a product in place is not the product: the product of a number and a vector of one element, in
place, is zero. -/
theorem C81_no_product_in_place [NonUnitalNonAssocSemiring α] (A : MatV α) (x : Vec) (h : Heap α)
    (a : Nat → Nat → α) (f : Nat → α) (hA : A.Holds h a) (hx : x.Holds h f) (hr : A.rows = 1) (hc : A.cols = 1)
    (he : x.ext = 1) (hAx : Apart A.toMat.Cell x.Cell) :
    Ends (gemv A x.view x) h fun _ h' => h' (x.addr 0) = some 0 := by
  refine (C81_gemv_in_place A x h a f hA hx (by omega) (by omega)
    (fun i k hi hk _ => by omega) hAx).mono ?_
  rintro _ h' ⟨v, hv, e⟩
  rw [hv.1 0 (by omega), e 0 (by omega), he]
  simp

example : Ends (gemv ((⟨1, 1, fun _ _ => 4⟩ : Mat).view : MatV ℤ) (⟨1, fun _ => 5⟩ : Vec).view ⟨1, fun _ => 5⟩)
    (heap ℤ) fun _ h' => h' 5 = some 0 :=
  C81_no_product_in_place _ ⟨1, fun _ => 5⟩ _ _ _ (mholdsV fun i j hi hj => by simp only at *; omega)
    (holds fun i hi => by simp only at *; omega) rfl rfl rfl
    (by rintro a ⟨i, j, hi, hj, _, e⟩ ⟨k, hk, e'⟩; simp only [Mat.view] at *; omega)

end StdBLAS

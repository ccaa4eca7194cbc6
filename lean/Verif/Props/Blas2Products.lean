import Verif.Lemmas.Blas2
import Verif.Props.Witness

/-!
# Properties C16 - C20: matrix-vector products
-/

namespace StdBLAS
open Finset Witness
variable {α : Type}

/-! ## C16 general -/

/-- **C16** overwriting `matrix_vector_product(A, x, y)`: `y = A x`, whatever `y` held. -/
theorem C16_gemv [NonUnitalNonAssocSemiring α] (A : MatV α) (x : VecV α) (y : Vec) (h : Heap α)
    (a : Nat → Nat → α) (f : Nat → α) (hA : A.Holds h a) (hx : x.Holds h f) (hy : y.Alloc h)
    (hrows : y.ext = A.rows) (hcols : A.cols ≤ x.ext) (hu : y.Unique)
    (hAy : Apart A.toMat.Cell y.Cell) (hxy : Apart x.toVec.Cell y.Cell) :
    Ends (gemv A x y) h fun _ h' => y.Becomes h h' fun i => ∑ j ∈ range A.cols, a i j * f j := by
  refine (gemv_fold A x y h a f hA hx hy hrows hcols hu hAy hxy).mono fun _ h' hb => ?_
  refine hb.congr fun i _ => ?_
  rw [foldl_add_eq_sum _ (fun j => a i j * f j), zero_add]

example : Ends (gemv (W.view : MatV ℤ) x.view ⟨2, y.addr⟩) (heap ℤ) fun _ h' =>
    Vec.Becomes ⟨2, y.addr⟩ (heap ℤ) h' fun i => ∑ j ∈ range 3, mvals ℤ W i j * vals ℤ x j :=
  C16_gemv _ _ _ _ _ _ (mholdsV bW) (holdsV bx)
    (alloc fun i hi => by_ i (by simp only [y] at *; omega)) rfl le_rfl
    (by view_facts) (by view_facts) (by view_facts)

/-- **C16** updating `matrix_vector_product(A, x, y, z)`: `z = y + A x`; `z` may be `y`. -/
theorem C16_gemv_update [NonUnitalNonAssocSemiring α] (A : MatV α) (x y : VecV α) (z : Vec)
    (h : Heap α) (a : Nat → Nat → α) (f g : Nat → α) (hA : A.Holds h a) (hx : x.Holds h f)
    (hy : y.Holds h g) (hz : z.Alloc h) (hrows : z.ext = A.rows) (hcols : A.cols ≤ x.ext)
    (hyext : A.rows ≤ y.ext) (hu : z.Unique) (hAz : Apart A.toMat.Cell z.Cell)
    (hxz : Apart x.toVec.Cell z.Cell) (hyz : y.toVec.Aligned z) :
    Ends (gemvUpdate A x y z) h fun _ h' =>
      z.Becomes h h' fun i => g i + ∑ j ∈ range A.cols, a i j * f j := by
  refine (gemvUpdate_fold A x y z h a f g hA hx hy hz hrows hcols hyext hu hAz hxz hyz).mono
    fun _ h' hb => ?_
  exact hb.congr fun i _ => foldl_add_eq_sum _ (fun j => a i j * f j) _

/-- with `z` = `y` -/
example : Ends (gemvUpdate (A.view : MatV ℤ) x.view y.view y) (heap ℤ) fun _ h' =>
    y.Becomes (heap ℤ) h' fun i => vals ℤ y i + ∑ j ∈ range 3, mvals ℤ A i j * vals ℤ x j :=
  C16_gemv_update _ _ _ _ _ _ _ _ (mholdsV bA) (holdsV bx) (holdsV by_) (alloc by_) rfl le_rfl
    le_rfl (by view_facts) (by view_facts) (by view_facts) (by view_facts)

/-! ## C17 symmetric -/

/-- **C17** overwriting `symmetric_matrix_vector_product(A, t, x, y)`: `y = S x` where `S` is
the symmetric matrix named by triangle `t`; only that triangle need be accessible. -/
theorem C17_symv [NonUnitalNonAssocSemiring α] (A : MatV α) (t : Triangle) (x : VecV α) (y : Vec)
    (h : Heap α) (a : Nat → Nat → α) (f : Nat → α) (hA : A.HoldsOn h t.region a)
    (hx : x.Holds h f) (hy : y.Alloc h) (hsq : A.rows = A.cols) (hext : A.rows = y.ext)
    (hxe : A.cols ≤ x.ext) (hu : y.Unique) (hAy : Apart (A.toMat.CellOn t.region) y.Cell)
    (hxy : Apart x.toVec.Cell y.Cell) :
    Ends (symv A t x y) h fun _ h' => y.Becomes h h' fun i => mulVec A.cols (symOf t a) f i := by
  unfold symv
  rw [ends_bind]
  refine (fillZero_ends hext hy hu).mono fun _ h1 hb => ?_
  refine (symvAcc_ends hA hx hsq hext hxe hu hAy hxy hb).mono fun _ h' hb' => ?_
  exact hb'.congr fun i _ => zero_add _

/-- the strictly lower triangle of the matrix is unreadable memory here -/
example : Ends (symv ((⟨3, 3, fun i j => if i ≤ j then 30 + i + 3 * j else 1000⟩ : Mat).view : MatV ℤ)
    .upper x.view y) (heap ℤ) fun _ h' =>
    y.Becomes (heap ℤ) h' fun i => mulVec 3 (symOf .upper (mvals ℤ Witness.A)) (vals ℤ x) i :=
  C17_symv _ _ _ _ _ _ _
    (fun i j hi hj hr => by
      have hr' : i ≤ j := hr
      simp only [Mat.view, hr', if_true] at *
      exact ⟨_, heap_lt (by omega), rfl⟩)
    (holdsV bx) (alloc by_) rfl rfl le_rfl (by view_facts)
    (by rintro a ⟨i, j, hi, hj, hr, e⟩ ⟨k, hk, e'⟩
        have hr' : i ≤ j := hr
        simp only [y, Mat.view, hr', if_true] at *; omega) (by view_facts)

/-- **C17** updating `symmetric_matrix_vector_product(A, t, x, y, z)`: `z = y + S x`. -/
theorem C17_symv_update [NonUnitalNonAssocSemiring α] (A : MatV α) (t : Triangle) (x y : VecV α)
    (z : Vec) (h : Heap α) (a : Nat → Nat → α) (f g : Nat → α) (hA : A.HoldsOn h t.region a)
    (hx : x.Holds h f) (hy : y.Holds h g) (hz : z.Alloc h) (hsq : A.rows = A.cols)
    (hext : A.rows = z.ext) (hxe : A.cols ≤ x.ext) (hye : A.rows ≤ y.ext) (hu : z.Unique)
    (hAz : Apart (A.toMat.CellOn t.region) z.Cell) (hxz : Apart x.toVec.Cell z.Cell)
    (hyz : y.toVec.Aligned z) :
    Ends (symvUpdate A t x y z) h fun _ h' =>
      z.Becomes h h' fun i => g i + mulVec A.cols (symOf t a) f i := by
  unfold symvUpdate
  rw [ends_bind]
  refine (fillFrom_ends hext hy hye hz hu hyz).mono fun _ h1 hb => ?_
  exact symvAcc_ends hA hx hsq hext hxe hu hAz hxz hb

example : Ends (symvUpdate (A.view : MatV ℤ) .lower x.view y.view z) (heap ℤ) fun _ h' =>
    z.Becomes (heap ℤ) h' fun i =>
      vals ℤ y i + mulVec 3 (symOf .lower (mvals ℤ A)) (vals ℤ x) i :=
  C17_symv_update _ _ _ _ _ _ _ _ _ (mholdsV bA) (holdsV bx) (holdsV by_) (alloc bz) rfl rfl
    le_rfl le_rfl (by view_facts) (by view_facts) (by view_facts) (by view_facts)

/-! ## C18 Hermitian -/

/-- **C18** overwriting `hermitian_matrix_vector_product(A, t, x, y)`: `y = H x` where `H` is
the Hermitian matrix named by triangle `t`. -/
theorem C18_hemv [NonUnitalNonAssocSemiring α] [ConjOps α] (A : MatV α) (t : Triangle)
    (x : VecV α) (y : Vec) (h : Heap α) (a : Nat → Nat → α) (f : Nat → α)
    (hA : A.HoldsOn h t.region a) (hx : x.Holds h f) (hy : y.Alloc h) (hsq : A.rows = A.cols)
    (hext : A.rows = y.ext) (hxe : A.cols ≤ x.ext) (hu : y.Unique)
    (hAy : Apart (A.toMat.CellOn t.region) y.Cell) (hxy : Apart x.toVec.Cell y.Cell) :
    Ends (hemv A t x y) h fun _ h' => y.Becomes h h' fun i => mulVec A.cols (hermOf t a) f i := by
  unfold hemv
  rw [ends_bind]
  refine (fillZero_ends hext hy hu).mono fun _ h1 hb => ?_
  refine (hemvAcc_ends hA hx hsq hext hxe hu hAy hxy hb).mono fun _ h' hb' => ?_
  exact hb'.congr fun i _ => zero_add _

example : Ends (hemv (A.view : MatV ℂ) .lower x.view y) (heap ℂ) fun _ h' =>
    y.Becomes (heap ℂ) h' fun i => mulVec 3 (hermOf .lower (mvals ℂ A)) (vals ℂ x) i :=
  C18_hemv _ _ _ _ _ _ _ (mholdsV bA) (holdsV bx) (alloc by_) rfl rfl le_rfl (by view_facts)
    (by view_facts) (by view_facts)

/-- **C18** updating `hermitian_matrix_vector_product(A, t, x, y, z)`: `z = y + H x`. -/
theorem C18_hemv_update [NonUnitalNonAssocSemiring α] [ConjOps α] (A : MatV α) (t : Triangle)
    (x y : VecV α) (z : Vec) (h : Heap α) (a : Nat → Nat → α) (f g : Nat → α)
    (hA : A.HoldsOn h t.region a) (hx : x.Holds h f) (hy : y.Holds h g) (hz : z.Alloc h)
    (hsq : A.rows = A.cols) (hext : A.rows = z.ext) (hxe : A.cols ≤ x.ext) (hye : A.rows ≤ y.ext)
    (hu : z.Unique) (hAz : Apart (A.toMat.CellOn t.region) z.Cell)
    (hxz : Apart x.toVec.Cell z.Cell) (hyz : y.toVec.Aligned z) :
    Ends (hemvUpdate A t x y z) h fun _ h' =>
      z.Becomes h h' fun i => g i + mulVec A.cols (hermOf t a) f i := by
  unfold hemvUpdate
  rw [ends_bind]
  refine (fillFrom_ends hext hy hye hz hu hyz).mono fun _ h1 hb => ?_
  exact hemvAcc_ends hA hx hsq hext hxe hu hAz hxz hb

example : Ends (hemvUpdate (A.view : MatV ℂ) .upper x.view y.view y) (heap ℂ) fun _ h' =>
    y.Becomes (heap ℂ) h' fun i =>
      vals ℂ y i + mulVec 3 (hermOf .upper (mvals ℂ A)) (vals ℂ x) i :=
  C18_hemv_update _ _ _ _ _ _ _ _ _ (mholdsV bA) (holdsV bx) (holdsV by_) (alloc by_) rfl rfl
    le_rfl le_rfl (by view_facts) (by view_facts) (by view_facts) (by view_facts)

/-- **C18** the named matrix is Hermitian: this is what `hermOf` means over `ℂ`. -/
theorem C18_hermOf_isHermitian (t : Triangle) (a : Nat → Nat → ℂ) (i j : Nat) :
    hermOf t a j i = (starRingEnd ℂ) (hermOf t a i j) ∧ (hermOf t a i i).im = 0 := by
  unfold hermOf
  refine ⟨?_, by simp [re_complex]⟩
  by_cases e : i = j
  · subst e; simp [re_complex]
  · have e' : ¬ j = i := fun h => e h.symm
    rw [if_neg e, if_neg e']
    rcases lt_or_gt_of_ne e with hlt | hlt <;> cases t <;>
      simp [Triangle.region, hlt.le, not_le.2 hlt, conj_complex]

/-! ## C19 triangular, overwriting and updating -/

/-- **C19** overwriting `triangular_matrix_vector_product(A, t, d, x, y)`: `y = T x`; only
the named triangle (without its diagonal if that is implicit) need be accessible. -/
theorem C19_trmv [NonAssocSemiring α] (A : MatV α) (t : Triangle) (d : Diag) (x : VecV α)
    (y : Vec) (h : Heap α) (a : Nat → Nat → α) (f : Nat → α)
    (hA : A.HoldsOn h (triRegion t d) a) (hx : x.Holds h f) (hy : y.Alloc h)
    (hsq : A.rows = A.cols) (hext : A.rows = y.ext) (hxe : A.cols ≤ x.ext) (hu : y.Unique)
    (hAy : Apart (A.toMat.CellOn (triRegion t d)) y.Cell) (hxy : Apart x.toVec.Cell y.Cell) :
    Ends (trmv A t d x y) h fun _ h' =>
      y.Becomes h h' fun i => mulVec A.cols (triOf t d a) f i := by
  unfold trmv
  rw [ends_bind]
  refine (fillZero_ends hext hy hu).mono fun _ h1 hb => ?_
  refine (trmvAcc_ends hA hx hsq hext hxe hu hAy hxy hb).mono fun _ h' hb' => ?_
  exact hb'.congr fun i _ => zero_add _

/-- diagonal and upper triangle are unreadable memory here -/
example : Ends (trmv ((⟨3, 3, fun i j => if j < i then 30 + i + 3 * j else 1000⟩ : Mat).view : MatV ℤ)
    .lower .implicitUnit x.view y) (heap ℤ) fun _ h' =>
    y.Becomes (heap ℤ) h' fun i =>
      mulVec 3 (triOf .lower .implicitUnit (mvals ℤ Witness.A)) (vals ℤ x) i :=
  C19_trmv _ _ _ _ _ _ _ _
    (fun i j hi hj hr => by
      have hr' : j < i := lt_of_le_of_ne hr.1 (Ne.symm (hr.2 rfl))
      simp only [Mat.view, hr', if_true] at *
      exact ⟨_, heap_lt (by omega), rfl⟩)
    (holdsV bx) (alloc by_) rfl rfl le_rfl (by view_facts)
    (by rintro a ⟨i, j, hi, hj, hr, e⟩ ⟨k, hk, e'⟩
        have hr' : j < i := lt_of_le_of_ne hr.1 (Ne.symm (hr.2 rfl))
        simp only [y, Mat.view, hr', if_true] at *; omega) (by view_facts)

/-- **C19** updating `triangular_matrix_vector_product(A, t, d, x, y, z)`: `z = y + T x`. -/
theorem C19_trmv_update [NonAssocSemiring α] (A : MatV α) (t : Triangle) (d : Diag)
    (x y : VecV α) (z : Vec) (h : Heap α) (a : Nat → Nat → α) (f g : Nat → α)
    (hA : A.HoldsOn h (triRegion t d) a) (hx : x.Holds h f) (hy : y.Holds h g) (hz : z.Alloc h)
    (hsq : A.rows = A.cols) (hext : A.rows = z.ext) (hxe : A.cols ≤ x.ext) (hye : A.rows ≤ y.ext)
    (hu : z.Unique) (hAz : Apart (A.toMat.CellOn (triRegion t d)) z.Cell)
    (hxz : Apart x.toVec.Cell z.Cell) (hyz : y.toVec.Aligned z) :
    Ends (trmvUpdate A t d x y z) h fun _ h' =>
      z.Becomes h h' fun i => g i + mulVec A.cols (triOf t d a) f i := by
  unfold trmvUpdate
  rw [ends_bind]
  refine (fillFrom_ends hext hy hye hz hu hyz).mono fun _ h1 hb => ?_
  exact trmvAcc_ends hA hx hsq hext hxe hu hAz hxz hb

example : Ends (trmvUpdate (A.view : MatV ℤ) .upper .explicit x.view y.view y) (heap ℤ)
    fun _ h' => y.Becomes (heap ℤ) h' fun i =>
      vals ℤ y i + mulVec 3 (triOf .upper .explicit (mvals ℤ A)) (vals ℤ x) i :=
  C19_trmv_update _ _ _ _ _ _ _ _ _ _ (mholdsV bA) (holdsV bx) (holdsV by_) (alloc by_) rfl rfl
    le_rfl le_rfl (by view_facts) (by view_facts) (by view_facts) (by view_facts)

/-! ## C20 triangular, in place -/

/-- **C20** `triangular_matrix_vector_product(A, t, d, y)` in place: `y = T y_old`. -/
theorem C20_trmv_in_place [CommSemiring α] (A : MatV α) (t : Triangle) (d : Diag) (y : Vec)
    (h : Heap α) (a : Nat → Nat → α) (f : Nat → α) (hA : A.HoldsOn h (triRegion t d) a)
    (hy : y.Holds h f) (hsq : A.rows = A.cols) (hext : A.rows = y.ext) (hu : y.Unique)
    (hAy : Apart (A.toMat.CellOn (triRegion t d)) y.Cell) :
    Ends (trmvInPlace A t d y) h fun _ h' =>
      y.Becomes h h' fun i => mulVec A.cols (triOf t d a) f i :=
  trmvInPlace_ends hA hy hsq hext hu hAy fun _ _ _ => mul_comm _ _

example : Ends (trmvInPlace (A.view : MatV ℤ) .lower .explicit y) (heap ℤ) fun _ h' =>
    y.Becomes (heap ℤ) h' fun i =>
      mulVec 3 (triOf .lower .explicit (mvals ℤ A)) (vals ℤ y) i :=
  C20_trmv_in_place _ _ _ _ _ _ _ (mholdsV bA) (holds by_) rfl rfl (by view_facts) (by view_facts)

/-- **C20** in place and out of place agree. -/
theorem C20_in_place_eq_overwriting [CommSemiring α] (A : MatV α) (t : Triangle) (d : Diag)
    (y z : Vec) (h : Heap α) (a : Nat → Nat → α) (f : Nat → α)
    (hA : A.HoldsOn h (triRegion t d) a) (hy : y.Holds h f) (hz : z.Alloc h)
    (hsq : A.rows = A.cols) (hext : A.rows = y.ext) (hextz : A.rows = z.ext) (hu : y.Unique)
    (huz : z.Unique) (hAy : Apart (A.toMat.CellOn (triRegion t d)) y.Cell)
    (hAz : Apart (A.toMat.CellOn (triRegion t d)) z.Cell) (hyz : Apart y.Cell z.Cell) :
    Ends (trmvInPlace A t d y) h fun _ h1 => Ends (trmv A t d y.view z) h fun _ h2 =>
      ∀ i, i < y.ext → h1 (y.addr i) = h2 (z.addr i) := by
  refine (C20_trmv_in_place A t d y h a f hA hy hsq hext hu hAy).mono fun _ h1 hb1 => ?_
  refine (C19_trmv A t d y.view z h a f hA (fun i hi => ⟨_, hy i hi, rfl⟩) hz hsq hextz
    (by rw [← hsq, hext]; exact le_rfl) huz hAz hyz).mono fun _ h2 hb2 => ?_
  intro i hi
  rw [hb1.1 i hi, hb2.1 i (by omega)]

example : Ends (trmvInPlace (A.view : MatV ℤ) .upper .implicitUnit y) (heap ℤ) fun _ h1 =>
    Ends (trmv (A.view : MatV ℤ) .upper .implicitUnit y.view z) (heap ℤ) fun _ h2 =>
      ∀ i, i < 3 → h1 (y.addr i) = h2 (z.addr i) :=
  C20_in_place_eq_overwriting _ _ _ _ _ _ _ _ (mholdsV bA) (holds by_) (alloc bz) rfl rfl rfl
    (by view_facts) (by view_facts) (by view_facts) (by view_facts) (by view_facts)

end StdBLAS

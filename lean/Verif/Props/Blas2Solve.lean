import Verif.Lemmas.Trsv
import Verif.Props.Blas2Products
import Mathlib.Tactic.IntervalCases
import Mathlib.Tactic.NormNum

/-!
# Properties C21, C22 and C24 (vector part): triangular solve
-/

namespace StdBLAS
open Finset Witness
variable {α : Type}

/-! ## C21 the result solves the system -/

/-- **C21** `triangular_matrix_vector_solve(A, t, d, b, x, divide)`: `T x = b`, and `x` is the
only such vector.  With an explicit diagonal `divide` must invert multiplication by the
diagonal elements; with an implicit one nothing is asked of `divide`.  `A` need only be
accessible on the triangle (minus an implicit diagonal).  `b` may be `x`. -/
theorem C21_trsv [NonAssocRing α] (divide : α → α → α) (A : MatV α) (t : Triangle) (d : Diag)
    (b : VecV α) (x : Vec) (h : Heap α) (a : Nat → Nat → α) (g : Nat → α)
    (hA : A.HoldsOn h (triRegion t d) a) (hb : b.Holds h g) (hx : x.Alloc h)
    (hsq : A.rows = A.cols) (hext : A.rows = x.ext) (hbe : A.rows ≤ b.ext) (hu : x.Unique)
    (hAx : Apart (A.toMat.CellOn (triRegion t d)) x.Cell) (hbx : b.toVec.Aligned x)
    (hdiv : d = .explicit → ∀ i, i < A.rows → ∀ s,
      a i i * divide s (a i i) = s ∧ divide (a i i * s) (a i i) = s) :
    Ends (trsv divide A t d b x) h fun _ h' => ∃ v, x.Becomes h h' v ∧
      (∀ i, i < A.rows → mulVec A.cols (triOf t d a) v i = g i) ∧
      ∀ w, (∀ i, i < A.rows → mulVec A.cols (triOf t d a) w i = g i) →
        ∀ i, i < A.rows → w i = v i := by
  refine (trsv_fold divide hA hb hx hsq hext hbe hu hAx hbx).mono ?_
  rintro _ h' ⟨v, hv, e⟩
  rw [hsq] at hdiv e ⊢
  refine ⟨v, hv, fun i hi => (subRow_iff hdiv hi).1 (e i hi), fun w hw => ?_⟩
  exact subRow_unique (fun i hi => (subRow_iff hdiv hi).2 (hw i hi)) e

/-- **C21** over a field, with the default `divide` (`x / y`) and a diagonal without zeros. -/
theorem C21_trsv_field [Field α] (A : MatV α) (t : Triangle) (d : Diag)
    (b : VecV α) (x : Vec) (h : Heap α) (a : Nat → Nat → α) (g : Nat → α)
    (hA : A.HoldsOn h (triRegion t d) a) (hb : b.Holds h g) (hx : x.Alloc h)
    (hsq : A.rows = A.cols) (hext : A.rows = x.ext) (hbe : A.rows ≤ b.ext) (hu : x.Unique)
    (hAx : Apart (A.toMat.CellOn (triRegion t d)) x.Cell) (hbx : b.toVec.Aligned x)
    (hnz : d = .explicit → ∀ i, i < A.rows → a i i ≠ 0) :
    Ends (trsv (· / ·) A t d b x) h fun _ h' => ∃ v, x.Becomes h h' v ∧
      (∀ i, i < A.rows → mulVec A.cols (triOf t d a) v i = g i) ∧
      ∀ w, (∀ i, i < A.rows → mulVec A.cols (triOf t d a) w i = g i) →
        ∀ i, i < A.rows → w i = v i :=
  C21_trsv _ A t d b x h a g hA hb hx hsq hext hbe hu hAx hbx fun hd i hi s =>
    ⟨mul_div_cancel₀ s (hnz hd i hi), mul_div_cancel_left₀ s (hnz hd i hi)⟩

/-- explicit diagonal 30, 34, 38; upper triangle; in place -/
example : Ends (trsv (· / ·) (A.view : MatV ℚ) .upper .explicit y.view y) (heap ℚ)
    fun _ h' => ∃ v, y.Becomes (heap ℚ) h' v ∧
      (∀ i, i < 3 → mulVec 3 (triOf .upper .explicit (mvals ℚ A)) v i = vals ℚ y i) ∧
      ∀ w, (∀ i, i < 3 → mulVec 3 (triOf .upper .explicit (mvals ℚ A)) w i = vals ℚ y i) →
        ∀ i, i < 3 → w i = v i :=
  C21_trsv_field _ _ _ _ _ _ _ _ (mholdsV bA) (holdsV by_) (alloc by_) rfl rfl le_rfl
    (by view_facts) (by view_facts) (by view_facts)
    (fun _ i hi => by
      have hi' : i < 3 := hi
      interval_cases i <;> norm_num [mvals, A])

/-- **C21** with an implicit unit diagonal, over any ring, whatever `divide` does. -/
example (divide : ℤ → ℤ → ℤ) :
    Ends (trsv divide (A.view : MatV ℤ) .lower .implicitUnit x.view y) (heap ℤ)
    fun _ h' => ∃ v, y.Becomes (heap ℤ) h' v ∧
      (∀ i, i < 3 → mulVec 3 (triOf .lower .implicitUnit (mvals ℤ A)) v i = vals ℤ x i) ∧
      ∀ w, (∀ i, i < 3 → mulVec 3 (triOf .lower .implicitUnit (mvals ℤ A)) w i = vals ℤ x i) →
        ∀ i, i < 3 → w i = v i :=
  C21_trsv _ _ _ _ _ _ _ _ _ (mholdsV bA) (holdsV bx) (alloc by_) rfl rfl le_rfl
    (by view_facts) (by view_facts) (by view_facts) (by simp)

/-- **C21** with an implicit unit diagonal `divide` is never called: the program is the same
whatever `divide` is. -/
theorem C21_unit_never_divides [Sub α] [Mul α] (divide divide' : α → α → α) (A : MatV α)
    (t : Triangle) (b : VecV α) (x : Vec) :
    trsv divide A t .implicitUnit b x = trsv divide' A t .implicitUnit b x := by
  cases t <;> simp [trsv, trsvUpper, trsvLower]

example (b : VecV ℤ) : trsv (· / ·) (A.view : MatV ℤ) .lower .implicitUnit b y =
    trsv (fun _ _ => 0) (A.view : MatV ℤ) .lower .implicitUnit b y :=
  C21_unit_never_divides _ _ _ _ _ _

/-! ## C22 in place -/

/-- **C22** Solving in place gives element by element the same result as solving out of
place, for arbitrary element operations (so also for rounded arithmetic) and an arbitrary
`divide`. -/
theorem C22_in_place_eq_out_of_place [Sub α] [Mul α] (divide : α → α → α) (A : MatV α)
    (t : Triangle) (d : Diag) (x z : Vec) (h : Heap α) (a : Nat → Nat → α) (g : Nat → α)
    (hA : A.HoldsOn h (triRegion t d) a) (hx : x.Holds h g) (hz : z.Alloc h)
    (hsq : A.rows = A.cols) (hext : A.rows = x.ext) (hextz : A.rows = z.ext) (hu : x.Unique)
    (huz : z.Unique) (hAx : Apart (A.toMat.CellOn (triRegion t d)) x.Cell)
    (hAz : Apart (A.toMat.CellOn (triRegion t d)) z.Cell) (hxz : Apart x.Cell z.Cell) :
    Ends (trsv divide A t d x.view x) h fun _ h1 => Ends (trsv divide A t d x.view z) h
      fun _ h2 => (∀ i, i < x.ext → h1 (x.addr i) = h2 (z.addr i)) ∧
        OnlyChanges x.Cell h h1 ∧ OnlyChanges z.Cell h h2 := by
  have hxv : x.view.Holds h g := fun i hi => ⟨_, hx i hi, rfl⟩
  refine (trsv_fold divide hA hxv hx.alloc hsq hext (by rw [hext]; exact le_rfl) hu hAx
    (fun i k hi hk e => hu i k hi hk e)).mono ?_
  rintro _ h1 ⟨v, hv, ev⟩
  refine (trsv_fold divide hA hxv hz hsq hextz (by rw [hext]; exact le_rfl) huz hAz
    (fun i k hi hk e => absurd ⟨k, hk, e.symm⟩ (hxz _ ⟨i, hi, rfl⟩))).mono ?_
  rintro _ h2 ⟨w, hw, ew⟩
  refine ⟨fun i hi => ?_, hv.2, hw.2⟩
  rw [hsq] at ev ew
  rw [hv.1 i hi, hw.1 i (by omega), subRow_unique ev ew i (by omega)]

example : Ends (trsv (· / ·) (A.view : MatV ℤ) .upper .explicit y.view y) (heap ℤ) fun _ h1 =>
    Ends (trsv (· / ·) (A.view : MatV ℤ) .upper .explicit y.view z) (heap ℤ) fun _ h2 =>
      (∀ i, i < 3 → h1 (y.addr i) = h2 (z.addr i)) ∧
        OnlyChanges y.Cell (heap ℤ) h1 ∧ OnlyChanges z.Cell (heap ℤ) h2 :=
  C22_in_place_eq_out_of_place _ _ _ _ _ _ _ _ _ (mholdsV bA) (holds by_) (alloc bz) rfl rfl rfl
    (by view_facts) (by view_facts) (by view_facts) (by view_facts) (by view_facts)

/-! ## C24 product and solve undo each other -/

theorem Vec.Becomes.eq_self {y : Vec} {h h' : Heap α} {f : Nat → α} (hy : y.Holds h f)
    (hb : y.Becomes h h' f) : h' = h := by
  funext a
  by_cases ha : y.Cell a
  · obtain ⟨i, hi, rfl⟩ := ha
    rw [hb.1 i hi, hy i hi]
  · exact hb.2 a ha

/-- **C24** in-place product, then in-place solve: memory is exactly as before. -/
theorem C24_solve_after_product [CommRing α] (divide : α → α → α) (A : MatV α) (t : Triangle)
    (d : Diag) (y : Vec) (h : Heap α) (a : Nat → Nat → α) (f : Nat → α)
    (hA : A.HoldsOn h (triRegion t d) a) (hy : y.Holds h f) (hsq : A.rows = A.cols)
    (hext : A.rows = y.ext) (hu : y.Unique)
    (hAy : Apart (A.toMat.CellOn (triRegion t d)) y.Cell)
    (hdiv : d = .explicit → ∀ i, i < A.rows → ∀ s,
      a i i * divide s (a i i) = s ∧ divide (a i i * s) (a i i) = s) :
    Ends (do trmvInPlace A t d y; trsv divide A t d y.view y) h fun _ h' => h' = h := by
  rw [ends_bind]
  refine (C20_trmv_in_place A t d y h a f hA hy hsq hext hu hAy).mono fun _ h1 hb1 => ?_
  refine (C21_trsv divide A t d y.view y h1 a _ (hA.of_onlyChanges hAy hb1.2)
    (fun i hi => ⟨_, hb1.1 i hi, rfl⟩) hb1.1.alloc hsq hext (by rw [hext]; exact le_rfl) hu hAy
    (fun i k hi hk e => hu i k hi hk e) hdiv).mono ?_
  rintro _ h' ⟨v, hb, _, huniq⟩
  refine Vec.Becomes.eq_self hy ((hb1.trans hb).congr fun i hi => ?_)
  exact (huniq f (fun _ _ => rfl) i (by omega)).symm

example : Ends (do trmvInPlace (A.view : MatV ℚ) .upper .explicit y
                   trsv (· / ·) (A.view : MatV ℚ) .upper .explicit y.view y) (heap ℚ)
    fun _ h' => h' = heap ℚ :=
  C24_solve_after_product _ _ _ _ _ _ _ _ (mholdsV bA) (holds by_) rfl rfl
    (by view_facts) (by view_facts)
    (fun _ i hi s => by
      have hi' : i < 3 := hi
      have : mvals ℚ A i i ≠ 0 := by interval_cases i <;> norm_num [mvals, A]
      exact ⟨mul_div_cancel₀ s this, mul_div_cancel_left₀ s this⟩)

/-- **C24** in-place solve, then in-place product: memory is exactly as before. -/
theorem C24_product_after_solve [CommRing α] (divide : α → α → α) (A : MatV α) (t : Triangle)
    (d : Diag) (y : Vec) (h : Heap α) (a : Nat → Nat → α) (f : Nat → α)
    (hA : A.HoldsOn h (triRegion t d) a) (hy : y.Holds h f) (hsq : A.rows = A.cols)
    (hext : A.rows = y.ext) (hu : y.Unique)
    (hAy : Apart (A.toMat.CellOn (triRegion t d)) y.Cell)
    (hdiv : d = .explicit → ∀ i, i < A.rows → ∀ s,
      a i i * divide s (a i i) = s ∧ divide (a i i * s) (a i i) = s) :
    Ends (do trsv divide A t d y.view y; trmvInPlace A t d y) h fun _ h' => h' = h := by
  rw [ends_bind]
  refine (C21_trsv divide A t d y.view y h a f hA
    (fun i hi => ⟨_, hy i hi, rfl⟩) hy.alloc hsq hext (by rw [hext]; exact le_rfl) hu hAy
    (fun i k hi hk e => hu i k hi hk e) hdiv).mono ?_
  rintro _ h1 ⟨v, hb1, hsol, _⟩
  refine (C20_trmv_in_place A t d y h1 a v (hA.of_onlyChanges hAy hb1.2) hb1.1 hsq hext hu
    hAy).mono fun _ h' hb => ?_
  exact Vec.Becomes.eq_self hy ((hb1.trans hb).congr fun i hi => hsol i (by omega))

example (divide : ℤ → ℤ → ℤ) :
    Ends (do trsv divide (A.view : MatV ℤ) .lower .implicitUnit y.view y
             trmvInPlace (A.view : MatV ℤ) .lower .implicitUnit y) (heap ℤ)
    fun _ h' => h' = heap ℤ :=
  C24_product_after_solve _ _ _ _ _ _ _ _ (mholdsV bA) (holds by_) rfl rfl
    (by view_facts) (by view_facts) (by simp)

end StdBLAS

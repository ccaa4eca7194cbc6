import Verif.Props.Compositions
import Verif.Props.Blas2Solve
import Verif.Props.Blas3Solve
import Verif.Props.Rounding
import Verif.Lemmas.IntSolve

/-!
# Property C72: solving with a factored matrix

The way a user of the library solves `A x = b` after factoring `A`: two triangular solves, in
place.  The factors may share storage (LU: unit lower and upper triangle of one array) or be
views of one another (Cholesky: `L` and `transposed(L)` or `conjugate_transposed(L)`).
-/

namespace StdBLAS
open Finset Witness
variable {α : Type}

/-! ## Helpers -/

theorem MatV.Holds.on {A : MatV α} {h : Heap α} {a : Nat → Nat → α} (hA : A.Holds h a)
    (R : Region) : A.HoldsOn h R a := fun i j hi hj _ => hA i j hi hj trivial

theorem Apart.cellOn {A : Mat} {P : Nat → Prop} (hA : Apart A.Cell P) (R : Region) :
    Apart (A.CellOn R) P := fun p ⟨i, j, hi, hj, _, e⟩ => hA p ⟨i, j, hi, hj, trivial, e⟩

theorem MatV.HoldsOn.transposed {A : MatV α} {h : Heap α} {a : Nat → Nat → α} {t : Triangle}
    {d : Diag} (hA : A.HoldsOn h (triRegion t d) a) :
    A.transposed.HoldsOn h (triRegion t.other d) fun i j => a j i := by
  rintro i j hi hj ⟨hr, hd⟩
  exact hA j i hj hi ⟨by cases t <;> exact hr, fun e => (hd e).symm⟩

theorem transposed_apart_tri {A : MatV α} {P : Nat → Prop} {t : Triangle} {d : Diag}
    (hA : Apart (A.toMat.CellOn (triRegion t d)) P) :
    Apart (A.transposed.toMat.CellOn (triRegion t.other d)) P := by
  rintro p ⟨i, j, hi, hj, ⟨hr, hd⟩, e⟩ hp
  exact hA p ⟨j, i, hj, hi, ⟨by cases t <;> exact hr, fun e => (hd e).symm⟩, e⟩ hp

/-! ## Two triangular solves -/

/-- **C72** Two triangular solves, the second in place: the result is the only solution of
`(T₁ T₂) x = b`.  Nothing is asked of the part of `A₁` and `A₂` that their triangles do not
name. -/
theorem C72_two_solves [Ring α] (divide : α → α → α) (A1 A2 : MatV α) (t1 t2 : Triangle)
    (d1 d2 : Diag) (b : VecV α) (x : Vec) (h : Heap α) (a1 a2 : Nat → Nat → α) (g : Nat → α)
    (n : Nat) (hA1 : A1.HoldsOn h (triRegion t1 d1) a1) (hA2 : A2.HoldsOn h (triRegion t2 d2) a2)
    (hb : b.Holds h g) (hx : x.Alloc h)
    (hr1 : A1.rows = n) (hc1 : A1.cols = n) (hr2 : A2.rows = n) (hc2 : A2.cols = n)
    (hxe : x.ext = n) (hbe : n ≤ b.ext) (hu : x.Unique)
    (h1x : Apart (A1.toMat.CellOn (triRegion t1 d1)) x.Cell)
    (h2x : Apart (A2.toMat.CellOn (triRegion t2 d2)) x.Cell) (hbx : b.toVec.Aligned x)
    (hdiv1 : d1 = .explicit → ∀ i, i < n → ∀ s,
      a1 i i * divide s (a1 i i) = s ∧ divide (a1 i i * s) (a1 i i) = s)
    (hdiv2 : d2 = .explicit → ∀ i, i < n → ∀ s,
      a2 i i * divide s (a2 i i) = s ∧ divide (a2 i i * s) (a2 i i) = s) :
    Ends (do trsv divide A1 t1 d1 b x; trsv divide A2 t2 d2 x.view x) h fun _ h' =>
      ∃ v, x.Becomes h h' v ∧
        (∀ i, i < n → mulVec n (mulMat n (triOf t1 d1 a1) (triOf t2 d2 a2)) v i = g i) ∧
        ∀ w, (∀ i, i < n → mulVec n (mulMat n (triOf t1 d1 a1) (triOf t2 d2 a2)) w i = g i) →
          ∀ i, i < n → w i = v i := by
  rw [ends_bind]
  refine (C21_trsv divide A1 t1 d1 b x h a1 g hA1 hb hx (hr1.trans hc1.symm) (hr1.trans hxe.symm)
    (hr1.le.trans hbe) hu h1x hbx (hr1 ▸ hdiv1)).mono ?_
  rintro _ k ⟨p, hk, hp, hpu⟩
  refine (C21_trsv divide A2 t2 d2 x.view x k a2 p (hA2.of_onlyChanges h2x hk.2) hk.1.asView
    hk.1.alloc (hr2.trans hc2.symm) (hr2.trans hxe.symm) (by rw [hr2]; exact hxe.ge) hu h2x
    (fun i k hi hk e => hu i k hi hk e) (hr2 ▸ hdiv2)).mono ?_
  rintro _ h' ⟨v, hv, hs, hsu⟩
  rw [hr1, hc1] at hp hpu
  rw [hr2, hc2] at hs hsu
  refine ⟨v, hk.trans hv, fun i hi => ?_, fun w hw => hsu w ?_⟩
  · rw [mulVec_mulMat, ← hp i hi]
    exact sum_congr rfl fun j hj => by rw [hs j (mem_range.1 hj)]
  · refine hpu (fun i => mulVec n (triOf t2 d2 a2) w i) fun i hi => ?_
    rw [← hw i hi, mulVec_mulMat]

/-- The lower triangle of `A` with the diagonal 23, 27, 31, then the upper triangle of `B` with unit
diagonal. -/
example : Ends (do trsv (· / ·) (A.view : MatV ℚ) .lower .explicit x.view y;
                   trsv (· / ·) (B.view : MatV ℚ) .upper .implicitUnit y.view y) (heap ℚ)
      fun _ h' => ∃ v, y.Becomes (heap ℚ) h' v ∧
        (∀ i, i < 3 → mulVec 3 (mulMat 3 (triOf .lower .explicit (mvals ℚ A))
          (triOf .upper .implicitUnit (mvals ℚ B))) v i = vals ℚ x i) ∧
        ∀ w, (∀ i, i < 3 → mulVec 3 (mulMat 3 (triOf .lower .explicit (mvals ℚ A))
          (triOf .upper .implicitUnit (mvals ℚ B))) w i = vals ℚ x i) → ∀ i, i < 3 → w i = v i :=
  C72_two_solves _ (A.view : MatV ℚ) B.view .lower .upper .explicit .implicitUnit x.view y _ _ _ _ 3
    (mholdsV bA) (mholdsV bB) (holdsV bx) (alloc by_) rfl rfl rfl rfl rfl le_rfl (by view_facts)
    (by view_facts) (by view_facts) (by view_facts)
    (fun _ i hi s => by
      have : mvals ℚ A i i ≠ 0 := by interval_cases i <;> norm_num [mvals, A]
      exact ⟨mul_div_cancel₀ s this, mul_div_cancel_left₀ s this⟩) (by simp)

/-- **C72** LU (`getrs`): both factors in one array, the unit lower factor strictly below the
diagonal and the upper factor on and above it. -/
theorem C72_lu_solve [Field α] (A : MatV α) (b : VecV α) (x : Vec) (h : Heap α)
    (a : Nat → Nat → α) (g : Nat → α) (n : Nat) (hA : A.Holds h a) (hb : b.Holds h g)
    (hx : x.Alloc h) (hr : A.rows = n) (hc : A.cols = n) (hxe : x.ext = n) (hbe : n ≤ b.ext)
    (hu : x.Unique) (hAx : Apart A.toMat.Cell x.Cell) (hbx : b.toVec.Aligned x)
    (hnz : ∀ i, i < n → a i i ≠ 0) :
    Ends (do trsv (· / ·) A .lower .implicitUnit b x; trsv (· / ·) A .upper .explicit x.view x) h
      fun _ h' => ∃ v, x.Becomes h h' v ∧
        (∀ i, i < n → mulVec n
          (mulMat n (triOf .lower .implicitUnit a) (triOf .upper .explicit a)) v i = g i) ∧
        ∀ w, (∀ i, i < n → mulVec n
          (mulMat n (triOf .lower .implicitUnit a) (triOf .upper .explicit a)) w i = g i) →
          ∀ i, i < n → w i = v i :=
  C72_two_solves _ A A .lower .upper .implicitUnit .explicit b x h a a g n (hA.on _) (hA.on _) hb
    hx hr hc hr hc hxe hbe hu (hAx.cellOn _) (hAx.cellOn _) hbx (by simp) fun _ i hi s =>
      ⟨mul_div_cancel₀ s (hnz i hi), mul_div_cancel_left₀ s (hnz i hi)⟩

/-- The array 23 26 29 / 24 27 30 / 25 28 31: L has 24, 25, 28 below its unit diagonal, U is the
rest.  The right-hand side 3 5 7 is overwritten. -/
example : Ends (do trsv (· / ·) (A.view : MatV ℚ) .lower .implicitUnit y.view y;
                   trsv (· / ·) (A.view : MatV ℚ) .upper .explicit y.view y) (heap ℚ)
      fun _ h' => ∃ v, y.Becomes (heap ℚ) h' v ∧
        (∀ i, i < 3 → mulVec 3 (mulMat 3 (triOf .lower .implicitUnit (mvals ℚ A))
          (triOf .upper .explicit (mvals ℚ A))) v i = vals ℚ y i) ∧
        ∀ w, (∀ i, i < 3 → mulVec 3 (mulMat 3 (triOf .lower .implicitUnit (mvals ℚ A))
          (triOf .upper .explicit (mvals ℚ A))) w i = vals ℚ y i) → ∀ i, i < 3 → w i = v i :=
  C72_lu_solve _ _ _ _ _ _ 3 (mholdsV bA) (holdsV by_) (alloc by_) rfl rfl rfl le_rfl
    (by view_facts) (by view_facts) (by view_facts)
    (fun i hi => by interval_cases i <;> norm_num [mvals, A])

/-- **C72** LU, system with the transposed matrix: `(L U)ᵀ x = b`, by solves with `transposed(A)`:
first its lower triangle with the explicit diagonal, then its upper triangle with unit
diagonal. -/
theorem C72_lu_solve_transposed [Field α] (A : MatV α) (b : VecV α) (x : Vec) (h : Heap α)
    (a : Nat → Nat → α) (g : Nat → α) (n : Nat) (hA : A.Holds h a) (hb : b.Holds h g)
    (hx : x.Alloc h) (hr : A.rows = n) (hc : A.cols = n) (hxe : x.ext = n) (hbe : n ≤ b.ext)
    (hu : x.Unique) (hAx : Apart A.toMat.Cell x.Cell) (hbx : b.toVec.Aligned x)
    (hnz : ∀ i, i < n → a i i ≠ 0) :
    Ends (do trsv (· / ·) A.transposed .lower .explicit b x;
             trsv (· / ·) A.transposed .upper .implicitUnit x.view x) h
      fun _ h' => ∃ v, x.Becomes h h' v ∧
        (∀ i, i < n → ∑ j ∈ range n,
          mulMat n (triOf .lower .implicitUnit a) (triOf .upper .explicit a) j i * v j = g i) ∧
        ∀ w : Nat → α, (∀ i, i < n → ∑ j ∈ range n,
          mulMat n (triOf .lower .implicitUnit a) (triOf .upper .explicit a) j i * w j = g i) →
          ∀ i, i < n → w i = v i := by
  have hT : ∀ i j, mulMat n (triOf .lower .explicit fun i j => a j i)
      (triOf .upper .implicitUnit fun i j => a j i) i j =
      mulMat n (triOf .lower .implicitUnit a) (triOf .upper .explicit a) j i := by
    intro i j
    refine sum_congr rfl fun k _ => ?_
    rw [mul_comm]
    exact congrArg₂ _ (CInt.triOf_other .lower .implicitUnit a k j)
      (CInt.triOf_other .upper .explicit a i k)
  have := C72_two_solves (· / ·) A.transposed A.transposed .lower .upper .explicit .implicitUnit b x
    h _ _ g n (hA.transposed.on _) (hA.transposed.on _) hb
    hx hc hr hc hr hxe hbe hu ((transposed_apart hAx).cellOn _) ((transposed_apart hAx).cellOn _)
    hbx (fun _ i hi s => ⟨mul_div_cancel₀ s (hnz i hi), mul_div_cancel_left₀ s (hnz i hi)⟩)
    (by simp)
  simp only [mulVec, hT] at this
  exact this

example : Ends (do trsv (· / ·) (A.view : MatV ℚ).transposed .lower .explicit x.view y;
                   trsv (· / ·) (A.view : MatV ℚ).transposed .upper .implicitUnit y.view y) (heap ℚ)
      fun _ h' => ∃ v, y.Becomes (heap ℚ) h' v ∧
        (∀ i, i < 3 → ∑ j ∈ range 3, mulMat 3 (triOf .lower .implicitUnit (mvals ℚ A))
          (triOf .upper .explicit (mvals ℚ A)) j i * v j = vals ℚ x i) ∧
        ∀ w : Nat → ℚ, (∀ i, i < 3 → ∑ j ∈ range 3, mulMat 3 (triOf .lower .implicitUnit (mvals ℚ A))
          (triOf .upper .explicit (mvals ℚ A)) j i * w j = vals ℚ x i) → ∀ i, i < 3 → w i = v i :=
  C72_lu_solve_transposed _ _ _ _ _ _ 3 (mholdsV bA) (holdsV bx) (alloc by_) rfl rfl rfl le_rfl
    (by view_facts) (by view_facts) (by view_facts)
    (fun i hi => by interval_cases i <;> norm_num [mvals, A])

/-- **C72** Cholesky (`potrs`): a solve with the lower triangle of `A`, then one with the upper
triangle of `transposed(A)`, solve `(L Lᵀ) x = b`.  The strict upper triangle of `A` is not read
and need not be accessible. -/
theorem C72_cholesky_solve [Field α] (A : MatV α) (b : VecV α) (x : Vec) (h : Heap α)
    (a : Nat → Nat → α) (g : Nat → α) (n : Nat)
    (hA : A.HoldsOn h (triRegion .lower .explicit) a) (hb : b.Holds h g)
    (hx : x.Alloc h) (hr : A.rows = n) (hc : A.cols = n) (hxe : x.ext = n) (hbe : n ≤ b.ext)
    (hu : x.Unique) (hAx : Apart (A.toMat.CellOn (triRegion .lower .explicit)) x.Cell)
    (hbx : b.toVec.Aligned x) (hnz : ∀ i, i < n → a i i ≠ 0) :
    Ends (do trsv (· / ·) A .lower .explicit b x;
             trsv (· / ·) A.transposed .upper .explicit x.view x) h
      fun _ h' => ∃ v, x.Becomes h h' v ∧
        (∀ i, i < n → ∑ j ∈ range n, (∑ k ∈ range n,
          triOf .lower .explicit a i k * triOf .lower .explicit a j k) * v j = g i) ∧
        ∀ w : Nat → α, (∀ i, i < n → ∑ j ∈ range n, (∑ k ∈ range n,
          triOf .lower .explicit a i k * triOf .lower .explicit a j k) * w j = g i) →
          ∀ i, i < n → w i = v i := by
  have hT : ∀ i j, triOf .upper .explicit (fun i j => a j i) i j = triOf .lower .explicit a j i :=
    fun i j => CInt.triOf_other .lower .explicit a i j
  have := C72_two_solves (· / ·) A A.transposed .lower .upper .explicit .explicit b x
    h _ _ g n hA hA.transposed hb
    hx hr hc hc hr hxe hbe hu hAx (transposed_apart_tri hAx)
    hbx (fun _ i hi s => ⟨mul_div_cancel₀ s (hnz i hi), mul_div_cancel_left₀ s (hnz i hi)⟩)
    (fun _ i hi s => ⟨mul_div_cancel₀ s (hnz i hi), mul_div_cancel_left₀ s (hnz i hi)⟩)
  simp only [mulVec, mulMat, hT] at this
  exact this

example : Ends (do trsv (· / ·) (A.view : MatV ℚ) .lower .explicit y.view y;
                   trsv (· / ·) (A.view : MatV ℚ).transposed .upper .explicit y.view y) (heap ℚ)
      fun _ h' => ∃ v, y.Becomes (heap ℚ) h' v ∧
        (∀ i, i < 3 → ∑ j ∈ range 3, (∑ k ∈ range 3, triOf .lower .explicit (mvals ℚ A) i k *
          triOf .lower .explicit (mvals ℚ A) j k) * v j = vals ℚ y i) ∧
        ∀ w : Nat → ℚ, (∀ i, i < 3 → ∑ j ∈ range 3, (∑ k ∈ range 3, triOf .lower .explicit (mvals ℚ A) i k *
          triOf .lower .explicit (mvals ℚ A) j k) * w j = vals ℚ y i) → ∀ i, i < 3 → w i = v i :=
  C72_cholesky_solve _ _ _ _ _ _ 3 (mholdsV bA) (holdsV by_) (alloc by_) rfl rfl rfl le_rfl
    (by view_facts) (by view_facts) (by view_facts)
    (fun i hi => by interval_cases i <;> norm_num [mvals, A])

/-- **C72** Cholesky with complex elements: `(L Lᴴ) x = b`. -/
theorem C72_cholesky_solve_complex (A : MatV ℂ) (b : VecV ℂ) (x : Vec) (h : Heap ℂ)
    (a : Nat → Nat → ℂ) (g : Nat → ℂ) (n : Nat)
    (hA : A.HoldsOn h (triRegion .lower .explicit) a) (hb : b.Holds h g)
    (hx : x.Alloc h) (hr : A.rows = n) (hc : A.cols = n) (hxe : x.ext = n) (hbe : n ≤ b.ext)
    (hu : x.Unique) (hAx : Apart (A.toMat.CellOn (triRegion .lower .explicit)) x.Cell)
    (hbx : b.toVec.Aligned x) (hnz : ∀ i, i < n → a i i ≠ 0) :
    Ends (do trsv (· / ·) A .lower .explicit b x;
             trsv (· / ·) A.conjugateTransposed .upper .explicit x.view x) h
      fun _ h' => ∃ v, x.Becomes h h' v ∧
        (∀ i, i < n → ∑ j ∈ range n, (∑ k ∈ range n,
          triOf .lower .explicit a i k * (starRingEnd ℂ) (triOf .lower .explicit a j k)) * v j
            = g i) ∧
        ∀ w : Nat → ℂ, (∀ i, i < n → ∑ j ∈ range n, (∑ k ∈ range n,
          triOf .lower .explicit a i k * (starRingEnd ℂ) (triOf .lower .explicit a j k)) * w j
            = g i) → ∀ i, i < n → w i = v i := by
  have hT : ∀ i j, triOf .upper .explicit (fun i j => (starRingEnd ℂ) (a j i)) i j =
      (starRingEnd ℂ) (triOf .lower .explicit a j i) := by
    intro i j
    refine (CInt.triOf_other .lower .explicit (fun i j => (starRingEnd ℂ) (a i j)) i j).trans ?_
    unfold triOf
    by_cases e : j = i
    · rw [if_pos e, if_pos e]
    · rw [if_neg e, if_neg e]
      by_cases q : Triangle.lower.region j i
      · rw [if_pos q, if_pos q]
      · rw [if_neg q, if_neg q, map_zero]
  have hAT : A.conjugateTransposed.HoldsOn h (triRegion .upper .explicit)
      fun i j => (starRingEnd ℂ) (a j i) := by
    intro i j hi hj hr
    obtain ⟨v, hv, e⟩ := hA.transposed i j hi hj hr
    exact ⟨v, hv, congrArg (starRingEnd ℂ) e⟩
  have := C72_two_solves (· / ·) A A.conjugateTransposed .lower .upper .explicit .explicit b x
    h _ _ g n hA hAT hb
    hx hr hc hc hr hxe hbe hu hAx (transposed_apart_tri hAx)
    hbx (fun _ i hi s => ⟨mul_div_cancel₀ s (hnz i hi), mul_div_cancel_left₀ s (hnz i hi)⟩)
    (fun _ i hi s =>
      have e : (starRingEnd ℂ) (a i i) ≠ 0 := fun e => hnz i hi ((map_eq_zero _).1 e)
      ⟨mul_div_cancel₀ s e, mul_div_cancel_left₀ s e⟩)
  simp only [mulVec, mulMat, hT] at this
  exact this

example : Ends (do trsv (· / ·) (A.view : MatV ℂ) .lower .explicit y.view y;
                   trsv (· / ·) (A.view : MatV ℂ).conjugateTransposed .upper .explicit y.view y)
      (heap ℂ) fun _ h' => ∃ v, y.Becomes (heap ℂ) h' v ∧
        (∀ i, i < 3 → ∑ j ∈ range 3, (∑ k ∈ range 3, triOf .lower .explicit (mvals ℂ A) i k *
          (starRingEnd ℂ) (triOf .lower .explicit (mvals ℂ A) j k)) * v j = vals ℂ y i) ∧
        ∀ w : Nat → ℂ, (∀ i, i < 3 → ∑ j ∈ range 3, (∑ k ∈ range 3, triOf .lower .explicit (mvals ℂ A) i k *
          (starRingEnd ℂ) (triOf .lower .explicit (mvals ℂ A) j k)) * w j = vals ℂ y i) →
          ∀ i, i < 3 → w i = v i :=
  C72_cholesky_solve_complex _ _ _ _ _ _ 3 (mholdsV bA) (holdsV by_) (alloc by_) rfl rfl rfl le_rfl
    (by view_facts) (by view_facts) (by view_facts)
    (fun i hi => by interval_cases i <;> norm_num [mvals, A])

/-! ## Several right-hand sides -/

/-- **C72** LU with several right-hand sides: two left solves, the second in place, solve
`(L U) X = B`. -/
theorem C72_lu_solve_matrix [Field α] (A B : MatV α) (X : Mat) (h : Heap α)
    (a b : Nat → Nat → α) (n : Nat) (hA : A.Holds h a) (hB : B.Holds h b)
    (hX : X.Alloc h) (hr : A.rows = n) (hc : A.cols = n) (hXr : X.rows = n) (hBr : B.rows = n)
    (hXc : X.cols = B.cols) (hu : X.Unique) (hAX : Apart A.toMat.Cell X.Cell)
    (hBX : B.toMat.Aligned X) (hnz : ∀ i, i < n → a i i ≠ 0) :
    Ends (do trsmLeft A .lower .implicitUnit B X; trsmLeft A .upper .explicit X.view X) h
      fun _ h' => ∃ v, X.Becomes h h' v ∧
        (∀ i j, i < n → j < X.cols → mulMat n
          (mulMat n (triOf .lower .implicitUnit a) (triOf .upper .explicit a)) v i j = b i j) ∧
        ∀ w, (∀ i j, i < n → j < X.cols → mulMat n
          (mulMat n (triOf .lower .implicitUnit a) (triOf .upper .explicit a)) w i j = b i j) →
          ∀ i j, i < n → j < X.cols → w i j = v i j := by
  rw [ends_bind]
  refine (C37_trsm_left A .lower .implicitUnit B X h a b (hA.on _) hB hX (hr.trans hc.symm)
    (hXr.trans hr.symm) (hBr.trans hr.symm) hXc hu (hAX.cellOn _) hBX (by simp)).mono ?_
  rintro _ k ⟨p, hk, hp, hpu⟩
  refine (C37_trsm_left A .upper .explicit X.view X k a p
    ((hA.on _).of_onlyChanges (hAX.cellOn _) hk.2) hk.1.asView
    (fun i j hi hj hr => ⟨_, hk.1 i j hi hj hr⟩) (hr.trans hc.symm) (hXr.trans hr.symm)
    (hXr.trans hr.symm) rfl hu (hAX.cellOn _)
    (fun i j k l hi hj hk hl e => hu i j k l hi hj trivial hk hl trivial e)
    (fun _ i hi s => ⟨mul_div_cancel₀ s (hnz i (hr ▸ hi)),
      mul_div_cancel_left₀ s (hnz i (hr ▸ hi))⟩)).mono ?_
  rintro _ h' ⟨v, hv, hs, hsu⟩
  rw [hXr, hc] at hp hpu hs hsu
  refine ⟨v, ⟨hv.1, fun c hc => (hv.2 c hc).trans (hk.2 c hc)⟩, fun i j hi hj => ?_,
    fun w hw => hsu w ?_⟩
  · rw [mulMat_assoc, ← hp i j hi hj]
    exact sum_congr rfl fun l hl => by rw [hs l j (mem_range.1 hl) hj]
  · refine hpu (mulMat n (triOf .upper .explicit a) w) fun i j hi hj => ?_
    rw [← hw i j hi hj, mulMat_assoc]

example : Ends (do trsmLeft (A.view : MatV ℚ) .lower .implicitUnit T.view T;
                   trsmLeft (A.view : MatV ℚ) .upper .explicit T.view T) (heap ℚ)
      fun _ h' => ∃ v, T.Becomes (heap ℚ) h' v ∧
        (∀ i j, i < 3 → j < 2 → mulMat 3 (mulMat 3 (triOf .lower .implicitUnit (mvals ℚ A))
          (triOf .upper .explicit (mvals ℚ A))) v i j = mvals ℚ T i j) ∧
        ∀ w, (∀ i j, i < 3 → j < 2 → mulMat 3 (mulMat 3 (triOf .lower .implicitUnit (mvals ℚ A))
          (triOf .upper .explicit (mvals ℚ A))) w i j = mvals ℚ T i j) →
          ∀ i j, i < 3 → j < 2 → w i j = v i j :=
  C72_lu_solve_matrix _ _ _ _ _ _ 3 (mholdsV bA) (mholdsV bT) (malloc bT) rfl rfl rfl rfl rfl
    (by view_facts) (by view_facts) (by view_facts)
    (fun i hi => by interval_cases i <;> norm_num [mvals, A])

/-- **C72** LU from the right: right solves with `U` and then with `L` solve `X (L U) = B`. -/
theorem C72_lu_solve_right [Field α] (A B : MatV α) (X : Mat) (h : Heap α)
    (a b : Nat → Nat → α) (n : Nat) (hA : A.Holds h a) (hB : B.Holds h b)
    (hX : X.Alloc h) (hr : A.rows = n) (hc : A.cols = n) (hXc : X.cols = n) (hBc : B.cols = n)
    (hXr : X.rows = B.rows) (hu : X.Unique) (hAX : Apart A.toMat.Cell X.Cell)
    (hBX : B.toMat.Aligned X) (hnz : ∀ i, i < n → a i i ≠ 0) :
    Ends (do trsmRight A .upper .explicit B X; trsmRight A .lower .implicitUnit X.view X) h
      fun _ h' => ∃ v, X.Becomes h h' v ∧
        (∀ i j, i < X.rows → j < n → mulMat n v
          (mulMat n (triOf .lower .implicitUnit a) (triOf .upper .explicit a)) i j = b i j) ∧
        ∀ w, (∀ i j, i < X.rows → j < n → mulMat n w
          (mulMat n (triOf .lower .implicitUnit a) (triOf .upper .explicit a)) i j = b i j) →
          ∀ i j, i < X.rows → j < n → w i j = v i j := by
  rw [ends_bind]
  refine (C37_trsm_right A .upper .explicit B X h a b (hA.on _) hB hX (hr.trans hc.symm)
    (hXc.trans hc.symm) (hBc.trans hc.symm) hXr hu (hAX.cellOn _) hBX
    (fun _ i hi s => ⟨div_mul_cancel₀ s (hnz i (hr ▸ hi)),
      mul_div_cancel_right₀ s (hnz i (hr ▸ hi))⟩)).mono ?_
  rintro _ k ⟨p, hk, hp, hpu⟩
  refine (C37_trsm_right A .lower .implicitUnit X.view X k a p
    ((hA.on _).of_onlyChanges (hAX.cellOn _) hk.2) hk.1.asView
    (fun i j hi hj hr => ⟨_, hk.1 i j hi hj hr⟩) (hr.trans hc.symm) (hXc.trans hc.symm)
    (hXc.trans hc.symm) rfl hu (hAX.cellOn _)
    (fun i j k l hi hj hk hl e => hu i j k l hi hj trivial hk hl trivial e) (by simp)).mono ?_
  rintro _ h' ⟨v, hv, hs, hsu⟩
  rw [hXc] at hp hpu hs hsu
  refine ⟨v, ⟨hv.1, fun c hc => (hv.2 c hc).trans (hk.2 c hc)⟩, fun i j hi hj => ?_,
    fun w hw => hsu w ?_⟩
  · rw [← mulMat_assoc, ← hp i j hi hj]
    exact sum_congr rfl fun l hl => by rw [hs i l hi (mem_range.1 hl)]
  · refine hpu (mulMat n w (triOf .lower .implicitUnit a)) fun i j hi hj => ?_
    rw [← hw i j hi hj, mulMat_assoc]

example : Ends (do trsmRight (A.view : MatV ℚ) .upper .explicit W.view W;
                   trsmRight (A.view : MatV ℚ) .lower .implicitUnit W.view W) (heap ℚ)
      fun _ h' => ∃ v, W.Becomes (heap ℚ) h' v ∧
        (∀ i j, i < 2 → j < 3 → mulMat 3 v (mulMat 3 (triOf .lower .implicitUnit (mvals ℚ A))
          (triOf .upper .explicit (mvals ℚ A))) i j = mvals ℚ W i j) ∧
        ∀ w, (∀ i j, i < 2 → j < 3 → mulMat 3 w (mulMat 3 (triOf .lower .implicitUnit (mvals ℚ A))
          (triOf .upper .explicit (mvals ℚ A))) i j = mvals ℚ W i j) →
          ∀ i j, i < 2 → j < 3 → w i j = v i j :=
  C72_lu_solve_right _ _ _ _ _ _ 3 (mholdsV bA) (mholdsV bW) (malloc bW) rfl rfl rfl rfl rfl
    (by view_facts) (by view_facts) (by view_facts)
    (fun i hi => by interval_cases i <;> norm_num [mvals, A])

/-! ## The residual -/

/-- **C72** After the LU solve the residual computed by the library,
`matrix_vector_product(scaled(-1, M), x, b, r)` with `M = L U`, is zero everywhere. -/
theorem C72_lu_residual [Field α] (A M : MatV α) (b : VecV α) (x r : Vec) (h : Heap α)
    (a m : Nat → Nat → α) (g : Nat → α) (n : Nat) (hA : A.Holds h a) (hM : M.Holds h m)
    (hb : b.Holds h g) (hx : x.Alloc h) (hres : r.Alloc h)
    (hm : ∀ i j, i < n → j < n →
      m i j = mulMat n (triOf .lower .implicitUnit a) (triOf .upper .explicit a) i j)
    (hr : A.rows = n) (hc : A.cols = n) (hMr : M.rows = n) (hMc : M.cols = n) (hxe : x.ext = n)
    (hbe : b.ext = n) (hre : r.ext = n) (hu : x.Unique) (hur : r.Unique)
    (hAx : Apart A.toMat.Cell x.Cell) (hMx : Apart M.toMat.Cell x.Cell)
    (hbx : Apart b.toVec.Cell x.Cell) (hrx : Apart r.Cell x.Cell)
    (hMr' : Apart M.toMat.Cell r.Cell) (hbr : Apart b.toVec.Cell r.Cell)
    (hxr : Apart x.Cell r.Cell) (hnz : ∀ i, i < n → a i i ≠ 0) :
    Ends (do trsv (· / ·) A .lower .implicitUnit b x; trsv (· / ·) A .upper .explicit x.view x
             gemvUpdate (M.scaled (-1)) x.view b r) h
      fun _ h' => ∀ i, i < n → h' (r.addr i) = some 0 := by
  have key := C72_lu_solve A b x h a g n hA hb hx hr hc hxe hbe.ge hu hAx
    (fun i k hi hk e => absurd ⟨k, hk, e.symm⟩ (hbx _ ⟨i, hi, rfl⟩)) hnz
  rw [ends_bind] at key ⊢
  refine key.mono fun _ k hk => ?_
  rw [ends_bind]
  refine hk.mono ?_
  rintro _ k ⟨v, hv, hs, -⟩
  refine (C16_gemv_update (M.scaled (-1)) x.view b r k (fun i j => -1 * m i j) v g ?_ hv.1.asView
    (hb.of_onlyChanges hbx hv.2) (hres.of_onlyChanges hrx hv.2) (hre.trans hMr.symm)
    (by show M.cols ≤ x.ext; omega) (by show M.rows ≤ _; omega) hur hMr' hxr
    (fun i k hi hk e => absurd ⟨k, hk, e.symm⟩ (hbr _ ⟨i, hi, rfl⟩))).mono fun _ h' hb' i hi => ?_
  · intro i j hi hj hR
    obtain ⟨c, hc, e⟩ := hM.of_onlyChanges hMx hv.2 i j hi hj hR
    exact ⟨c, hc, congrArg (-1 * ·) e⟩
  · rw [hb'.1 i (by omega)]
    refine congrArg some ?_
    show g i + ∑ j ∈ range M.cols, -1 * m i j * v j = 0
    rw [← hs i hi, hMc, mulVec, ← sum_add_distrib]
    refine sum_eq_zero fun j hj => ?_
    rw [hm i j hi (mem_range.1 hj)]
    ring

/-- `A` is the LU array 23 26 29 / 24 27 30 / 25 28 31, `M` a matrix view of a memory that holds
`L U`. -/
example (h : Heap ℚ) (hA : (A.view : MatV ℚ).Holds h (mvals ℚ A))
    (hC : (C.view : MatV ℚ).Holds h (mulMat 3 (triOf .lower .implicitUnit (mvals ℚ A))
      (triOf .upper .explicit (mvals ℚ A))))
    (hx : (x.view : VecV ℚ).Holds h (vals ℚ x)) (hy : y.Alloc h) (hz : z.Alloc h) :
    Ends (do trsv (· / ·) (A.view : MatV ℚ) .lower .implicitUnit x.view y
             trsv (· / ·) (A.view : MatV ℚ) .upper .explicit y.view y
             gemvUpdate ((C.view : MatV ℚ).scaled (-1)) y.view x.view z) h
      fun _ h' => ∀ i, i < 3 → h' (z.addr i) = some 0 :=
  C72_lu_residual _ _ _ _ _ _ _ _ _ 3 hA hC hx hy hz (fun _ _ _ _ => rfl) rfl rfl rfl rfl rfl rfl
    rfl (by view_facts) (by view_facts) (by view_facts) (by view_facts) (by view_facts)
    (by view_facts) (by view_facts) (by view_facts) (by view_facts)
    (fun i hi => by interval_cases i <;> norm_num [mvals, A])

/-- Such a memory exists. -/
example : ∃ h : Heap ℚ, (A.view : MatV ℚ).Holds h (mvals ℚ A) ∧
    (C.view : MatV ℚ).Holds h (mulMat 3 (triOf .lower .implicitUnit (mvals ℚ A))
      (triOf .upper .explicit (mvals ℚ A))) ∧
    (x.view : VecV ℚ).Holds h (vals ℚ x) ∧ y.Alloc h ∧ z.Alloc h := by
  refine ⟨fun p => if 70 ≤ p ∧ p < 79 then some (mulMat 3 (triOf .lower .implicitUnit (mvals ℚ A))
      (triOf .upper .explicit (mvals ℚ A)) ((p - 70) / 3) ((p - 70) % 3)) else heap ℚ p,
    ?_, ?_, ?_, ?_, ?_⟩
  · intro i j hi hj _
    refine ⟨_, ?_, rfl⟩
    have : ¬ (70 ≤ A.addr i j ∧ A.addr i j < 79) := by simp only [A, Mat.view] at *; omega
    exact (if_neg this).trans (heap_lt (bA i j hi hj))
  · intro i j hi hj _
    refine ⟨_, ?_, rfl⟩
    have hi' : i < 3 := hi
    have hj' : j < 3 := hj
    have e1 : (C.addr i j - 70) / 3 = i := by simp only [C]; omega
    have e2 : (C.addr i j - 70) % 3 = j := by simp only [C]; omega
    have : 70 ≤ C.addr i j ∧ C.addr i j < 79 := by simp only [C]; omega
    refine (if_pos this).trans ?_
    rw [show (Mat.view C : MatV ℚ).addr i j = C.addr i j from rfl, e1, e2]
    rfl
  · intro i hi
    refine ⟨_, ?_, rfl⟩
    have : ¬ (70 ≤ x.addr i ∧ x.addr i < 79) := by simp only [x, Vec.view] at *; omega
    exact (if_neg this).trans (heap_lt (bx i hi))
  · intro i hi
    have : ¬ (70 ≤ y.addr i ∧ y.addr i < 79) := by simp only [y] at *; omega
    exact ⟨_, (if_neg this).trans (heap_lt (by_ i hi))⟩
  · intro i hi
    have : ¬ (70 ≤ z.addr i ∧ z.addr i < 79) := by simp only [z] at *; omega
    exact ⟨_, (if_neg this).trans (heap_lt (bz i hi))⟩

/-! ## In rounded arithmetic -/

section
variable {F K : Type} [Zero F] [Add F] [Sub F] [Mul F] [Div F] [NormedField K]

/-- A product of two perturbed factors is a perturbed product. -/
theorem norm_mul_sub_le {p q a b : K} {ρ : ℝ} (hρ : 1 ≤ ρ) (hp : ‖p - a‖ ≤ (ρ - 1) * ‖a‖)
    (hq : ‖q - b‖ ≤ (ρ - 1) * ‖b‖) : ‖p * q - a * b‖ ≤ (ρ ^ 2 - 1) * (‖a‖ * ‖b‖) := by
  have hpn : ‖p‖ ≤ ρ * ‖a‖ := by
    calc ‖p‖ = ‖(p - a) + a‖ := by rw [sub_add_cancel]
      _ ≤ ‖p - a‖ + ‖a‖ := norm_add_le _ _
      _ ≤ _ := by linarith
  have e : p * q - a * b = p * (q - b) + (p - a) * b := by ring
  rw [e]
  calc ‖p * (q - b) + (p - a) * b‖ ≤ ‖p‖ * ‖q - b‖ + ‖p - a‖ * ‖b‖ := by
        refine (norm_add_le _ _).trans ?_
        rw [norm_mul, norm_mul]
    _ ≤ (ρ * ‖a‖) * ((ρ - 1) * ‖b‖) + ((ρ - 1) * ‖a‖) * ‖b‖ := by
        refine add_le_add (mul_le_mul hpn hq (norm_nonneg _) ?_)
          (mul_le_mul_of_nonneg_right hp (norm_nonneg _))
        exact mul_nonneg (by linarith) (norm_nonneg _)
    _ = _ := by ring

/-- **C72** Two triangular solves in rounded arithmetic are backward stable: the computed `x` is
the exact solution of a system whose matrix differs from `T₁ T₂` by at most
`(((1+u)/(1-u))^(2n) - 1) |T₁| |T₂|`, element by element. -/
theorem C72_backward_error (val : F → K) (u : ℝ) (R : Rounded val u) (hu1 : u < 1)
    (A1 A2 : MatV F) (t1 t2 : Triangle)
    (d1 d2 : Diag) (b : VecV F) (x : Vec) (h : Heap F) (a1 a2 : Nat → Nat → F) (g : Nat → F)
    (n : Nat) (hA1 : A1.HoldsOn h (triRegion t1 d1) a1) (hA2 : A2.HoldsOn h (triRegion t2 d2) a2)
    (hb : b.Holds h g) (hx : x.Alloc h)
    (hr1 : A1.rows = n) (hc1 : A1.cols = n) (hr2 : A2.rows = n) (hc2 : A2.cols = n)
    (hxe : x.ext = n) (hbe : n ≤ b.ext) (hu : x.Unique)
    (h1x : Apart (A1.toMat.CellOn (triRegion t1 d1)) x.Cell)
    (h2x : Apart (A2.toMat.CellOn (triRegion t2 d2)) x.Cell) (hbx : b.toVec.Aligned x)
    (hd1 : d1 = .explicit → ∀ i, i < n → val (a1 i i) ≠ 0)
    (hd2 : d2 = .explicit → ∀ i, i < n → val (a2 i i) ≠ 0) :
    Ends (do trsv (· / ·) A1 t1 d1 b x; trsv (· / ·) A2 t2 d2 x.view x) h fun _ h' =>
      ∃ v, x.Becomes h h' v ∧ ∃ E : Nat → Nat → K,
        (∀ i j, i < n → j < n → ‖E i j‖ ≤ (((1 + u) / (1 - u)) ^ (2 * n) - 1) *
          ∑ k ∈ range n, ‖triOf t1 d1 (fun i j => val (a1 i j)) i k‖ *
            ‖triOf t2 d2 (fun i j => val (a2 i j)) k j‖) ∧
        ∀ i, i < n → ∑ j ∈ range n, (mulMat n (triOf t1 d1 fun i j => val (a1 i j))
          (triOf t2 d2 fun i j => val (a2 i j)) i j + E i j) * val (v j) = val (g i) := by
  rw [ends_bind]
  refine (C47_trsv val u R hu1 A1 t1 d1 b x h a1 g hA1 hb hx (hr1.trans hc1.symm)
    (hr1.trans hxe.symm) (hr1.le.trans hbe) hu h1x hbx (hr1 ▸ hd1)).mono ?_
  rintro _ k ⟨p, hk, P, hP, hPs⟩
  refine (C47_trsv val u R hu1 A2 t2 d2 x.view x k a2 p (hA2.of_onlyChanges h2x hk.2) hk.1.asView
    hk.1.alloc (hr2.trans hc2.symm) (hr2.trans hxe.symm) (by rw [hr2]; exact hxe.ge) hu h2x
    (fun i k hi hk e => hu i k hi hk e) (hr2 ▸ hd2)).mono ?_
  rintro _ h' ⟨v, hv, Q, hQ, hQs⟩
  rw [hr1, hc1] at hP hPs
  rw [hr2, hc2] at hQ hQs
  refine ⟨v, hk.trans hv, fun i j => mulMat n P Q i j - mulMat n (triOf t1 d1 fun i j =>
    val (a1 i j)) (triOf t2 d2 fun i j => val (a2 i j)) i j, fun i j hi hj => ?_, fun i hi => ?_⟩
  · have hρ : 1 ≤ (1 + u) / (1 - u) := by
      rw [le_div_iff₀ (by linarith)]; linarith [R.nonneg]
    have hρn : 1 ≤ ((1 + u) / (1 - u)) ^ n := one_le_pow₀ hρ
    simp only [mulMat, ← sum_sub_distrib]
    refine (norm_sum_le _ _).trans ?_
    rw [mul_sum, mul_comm 2 n, pow_mul]
    exact sum_le_sum fun k hk' => norm_mul_sub_le hρn (hP i k hi (mem_range.1 hk'))
      (hQ k j (mem_range.1 hk') hj)
  · have := mulVec_mulMat n n P Q (fun j => val (v j)) i
    simp only [mulVec] at this
    simp only [add_sub_cancel]
    rw [this, ← hPs i hi]
    exact sum_congr rfl fun j hj => by rw [hQs j (mem_range.1 hj)]

end

/-- LU solve in 53-bit arithmetic. -/
example : Ends (do trsv (· / ·) (A.view : MatV F53) .lower .implicitUnit x.view x
                   trsv (· / ·) (A.view : MatV F53) .upper .explicit x.view x) (heap F53)
    fun _ h' => ∃ v, x.Becomes (heap F53) h' v ∧ ∃ E : Nat → Nat → ℝ,
      (∀ i j, i < 3 → j < 3 → ‖E i j‖ ≤ (((1 + (2 : ℝ)⁻¹ ^ 53) / (1 - (2 : ℝ)⁻¹ ^ 53)) ^ (2 * 3) - 1) *
        ∑ k ∈ range 3, ‖triOf .lower .implicitUnit (fun i j => (mvals F53 A i j).val) i k‖ *
          ‖triOf .upper .explicit (fun i j => (mvals F53 A i j).val) k j‖) ∧
      ∀ i, i < 3 → ∑ j ∈ range 3, (mulMat 3 (triOf .lower .implicitUnit fun i j =>
        (mvals F53 A i j).val) (triOf .upper .explicit fun i j => (mvals F53 A i j).val) i j +
          E i j) * (v j).val = (vals F53 x i).val :=
  C72_backward_error _ _ R53 u53 _ _ _ _ _ _ _ _ _ _ _ _ 3 (mholdsV bA) (mholdsV bA) (holdsV bx)
    (alloc bx) rfl rfl rfl rfl rfl le_rfl (by view_facts) (by view_facts) (by view_facts)
    (by view_facts) (by simp) fun _ i hi => by
      show (((A.addr i i : ℤ) - 7 : ℤ) : ℝ) ≠ 0
      simp only [A]
      exact Int.cast_ne_zero.2 (by omega)

end StdBLAS

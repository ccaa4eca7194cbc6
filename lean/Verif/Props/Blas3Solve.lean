import Verif.Props.Blas3Products

/-!
# Properties C37 and C24 (matrix part): triangular solve with many right-hand sides
-/

namespace StdBLAS
open Finset Witness
variable {α : Type}

/-! ## C37 -/

/-- **C37** `triangular_matrix_matrix_left_solve(A, t, d, B, X)`: `T X = B`, and `X` is the only
such matrix.  `B` may be `X`. -/
theorem C37_trsm_left [NonAssocRing α] [Div α] (A : MatV α) (t : Triangle) (d : Diag) (B : MatV α)
    (X : Mat) (h : Heap α) (a b : Nat → Nat → α)
    (hA : A.HoldsOn h (triRegion t d) a) (hB : B.Holds h b) (hX : X.Alloc h)
    (hsq : A.rows = A.cols) (hr : X.rows = A.rows) (hBr : B.rows = A.rows) (hc : X.cols = B.cols)
    (hu : X.Unique) (hAX : Apart (A.toMat.CellOn (triRegion t d)) X.Cell)
    (hBX : B.toMat.Aligned X)
    (hdiv : d = .explicit → ∀ i, i < A.rows → ∀ s : α,
      a i i * (s / a i i) = s ∧ (a i i * s) / a i i = s) :
    Ends (trsmLeft A t d B X) h fun _ h' => ∃ x, X.Becomes h h' x ∧
      (∀ i j, i < X.rows → j < X.cols → mulMat A.cols (triOf t d a) x i j = b i j) ∧
      ∀ w, (∀ i j, i < X.rows → j < X.cols → mulMat A.cols (triOf t d a) w i j = b i j) →
        ∀ i j, i < X.rows → j < X.cols → w i j = x i j := by
  refine (trsmLeft_fold hA hB hX hsq hr.symm hBr.ge hc hu hAX hBX).mono ?_
  rintro _ h' ⟨x, hx, ex⟩
  rw [hr] at *
  rw [hsq] at hdiv ex ⊢
  refine ⟨x, hx, fun i j hi hj => (subRow_iff (v := fun i => x i j) hdiv hi).1 (ex j hj i hi),
    fun w hw i j hi hj => ?_⟩
  exact subRow_unique (fun i hi => (subRow_iff (v := fun i => w i j) hdiv hi).2 (hw i j hi hj))
    (ex j hj) i hi

/-- **C37** `triangular_matrix_matrix_right_solve(A, t, d, B, X)`: `X T = B`, and `X` is the only
such matrix.  `B` may be `X`. -/
theorem C37_trsm_right [NonAssocRing α] [Div α] (A : MatV α) (t : Triangle) (d : Diag)
    (B : MatV α) (X : Mat) (h : Heap α) (a b : Nat → Nat → α)
    (hA : A.HoldsOn h (triRegion t d) a) (hB : B.Holds h b) (hX : X.Alloc h)
    (hsq : A.rows = A.cols) (hr : X.cols = A.cols) (hBr : B.cols = A.cols) (hc : X.rows = B.rows)
    (hu : X.Unique) (hAX : Apart (A.toMat.CellOn (triRegion t d)) X.Cell)
    (hBX : B.toMat.Aligned X)
    (hdiv : d = .explicit → ∀ i, i < A.rows → ∀ s : α,
      (s / a i i) * a i i = s ∧ (s * a i i) / a i i = s) :
    Ends (trsmRight A t d B X) h fun _ h' => ∃ x, X.Becomes h h' x ∧
      (∀ i j, i < X.rows → j < X.cols → mulMat X.cols x (triOf t d a) i j = b i j) ∧
      ∀ w, (∀ i j, i < X.rows → j < X.cols → mulMat X.cols w (triOf t d a) i j = b i j) →
        ∀ i j, i < X.rows → j < X.cols → w i j = x i j := by
  refine (trsmRight_fold hA hB hX hsq hr.symm hBr.ge hc hu hAX hBX).mono ?_
  rintro _ h' ⟨x, hx, ex⟩
  rw [hr]
  rw [hsq] at hdiv ex
  refine ⟨x, hx, fun i j hi hj => (subRow_flip_iff hdiv hj).1 (ex i hi j hj),
    fun w hw i j hi hj => ?_⟩
  exact @subRow_unique α _ mulFlip _ _ _ _ _ _ _ _
    (fun j hj => (subRow_flip_iff (v := w i) hdiv hj).2 (hw i j hi hj)) (ex i hi) j hj

/-- **C37** over a field, `triangular_matrix_matrix_solve(A, t, d, side, B, X)` with a diagonal
without zeros. -/
theorem C37_trsm_field [Field α] (A : MatV α) (t : Triangle) (d : Diag) (side : Side)
    (B : MatV α) (X : Mat) (h : Heap α) (a b : Nat → Nat → α)
    (hA : A.HoldsOn h (triRegion t d) a) (hB : B.Holds h b) (hX : X.Alloc h)
    (hsq : A.rows = A.cols)
    (hext : sideExt side X = A.rows)
    (hr : X.rows = B.rows) (hc : X.cols = B.cols)
    (hu : X.Unique) (hAX : Apart (A.toMat.CellOn (triRegion t d)) X.Cell)
    (hBX : B.toMat.Aligned X) (hnz : d = .explicit → ∀ i, i < A.rows → a i i ≠ 0) :
    Ends (trsm A t d side B X) h fun _ h' => ∃ x, X.Becomes h h' x ∧
      (∀ i j, i < X.rows → j < X.cols → sideMul side A.cols (triOf t d a) x i j = b i j) ∧
      ∀ w, (∀ i j, i < X.rows → j < X.cols → sideMul side A.cols (triOf t d a) w i j = b i j) →
        ∀ i j, i < X.rows → j < X.cols → w i j = x i j := by
  cases side with
  | left =>
    simp only [sideExt] at hext
    exact C37_trsm_left A t d B X h a b hA hB hX hsq hext (by omega) hc hu hAX hBX fun hd i hi s =>
      ⟨mul_div_cancel₀ s (hnz hd i hi), mul_div_cancel_left₀ s (hnz hd i hi)⟩
  | right =>
    simp only [sideExt, hsq] at hext
    have := C37_trsm_right A t d B X h a b hA hB hX hsq hext (by omega) hr hu hAX hBX
      fun hd i hi s => ⟨div_mul_cancel₀ s (hnz hd i hi), mul_div_cancel_right₀ s (hnz hd i hi)⟩
    rw [hext] at this
    rw [hext]
    exact this

theorem mvals_A_diag {i : Nat} (hi : i < 3) : mvals ℚ A i i ≠ 0 := by
  interval_cases i <;> simp [mvals, A]

/-- explicit diagonal, in place, both sides -/
example (t : Triangle) (side : Side) :
    Ends (trsm (A.view : MatV ℚ) t .explicit side C.view C) (heap ℚ)
    fun _ h' => ∃ x, C.Becomes (heap ℚ) h' x ∧
      (∀ i j, i < 3 → j < 3 →
        sideMul side 3 (triOf t .explicit (mvals ℚ A)) x i j = mvals ℚ C i j) ∧
      ∀ w, (∀ i j, i < 3 → j < 3 →
        sideMul side 3 (triOf t .explicit (mvals ℚ A)) w i j = mvals ℚ C i j) →
        ∀ i j, i < 3 → j < 3 → w i j = x i j :=
  C37_trsm_field _ _ _ side _ _ _ _ _ (mholdsV bA) (mholdsV bC) (malloc bC) rfl
    (by cases side <;> rfl) rfl rfl (by view_facts) (by view_facts) (by view_facts)
    (fun _ i hi => mvals_A_diag hi)

/-- implicit unit diagonal, over the integers, 3×2 right-hand side -/
example (t : Triangle) :
    Ends (trsmLeft (A.view : MatV ℤ) t .implicitUnit T.view T) (heap ℤ)
    fun _ h' => ∃ x, T.Becomes (heap ℤ) h' x ∧
      (∀ i j, i < 3 → j < 2 → mulMat 3 (triOf t .implicitUnit (mvals ℤ A)) x i j =
        mvals ℤ T i j) ∧
      ∀ w, (∀ i j, i < 3 → j < 2 → mulMat 3 (triOf t .implicitUnit (mvals ℤ A)) w i j =
        mvals ℤ T i j) → ∀ i j, i < 3 → j < 2 → w i j = x i j :=
  C37_trsm_left _ _ _ _ _ _ _ _ (mholdsV bA) (mholdsV bT) (malloc bT) rfl rfl rfl rfl
    (by view_facts) (by view_facts) (by view_facts) (by simp)

example (t : Triangle) :
    Ends (trsmRight (A.view : MatV ℤ) t .implicitUnit W.view W) (heap ℤ)
    fun _ h' => ∃ x, W.Becomes (heap ℤ) h' x ∧
      (∀ i j, i < 2 → j < 3 → mulMat 3 x (triOf t .implicitUnit (mvals ℤ A)) i j =
        mvals ℤ W i j) ∧
      ∀ w, (∀ i j, i < 2 → j < 3 → mulMat 3 w (triOf t .implicitUnit (mvals ℤ A)) i j =
        mvals ℤ W i j) → ∀ i j, i < 2 → j < 3 → w i j = x i j :=
  C37_trsm_right _ _ _ _ _ _ _ _ (mholdsV bA) (mholdsV bW) (malloc bW) rfl rfl rfl rfl
    (by view_facts) (by view_facts) (by view_facts) (by simp)

/-! ## C24, matrix-matrix versions -/

theorem Mat.Becomes.eq_self {C : Mat} {h h' : Heap α} {f : Nat → Nat → α} (hC : C.Holds h f)
    (hb : C.Becomes h h' f) : h' = h := by
  funext a
  by_cases ha : C.Cell a
  · obtain ⟨i, j, hi, hj, _, rfl⟩ := ha
    rw [hb.1 i j hi hj trivial, hC i j hi hj trivial]
  · exact hb.2 a ha

theorem Mat.Becomes.trans {C : Mat} {h0 h1 h2 : Heap α} {u v : Nat → Nat → α}
    (hb : C.Becomes h0 h1 u) (hb' : C.Becomes h1 h2 v) : C.Becomes h0 h2 v :=
  ⟨hb'.1, fun a ha => (hb'.2 a ha).trans (hb.2 a ha)⟩

theorem Mat.Holds.viewHolds {C : Mat} {h : Heap α} {f : Nat → Nat → α} (hC : C.Holds h f) :
    C.view.Holds h f := fun i j hi hj hr => ⟨_, hC i j hi hj hr, rfl⟩

theorem Mat.Holds.alloc {C : Mat} {h : Heap α} {f : Nat → Nat → α} (hC : C.Holds h f) :
    C.Alloc h := fun i j hi hj hr => ⟨_, hC i j hi hj hr⟩

theorem Mat.Unique.aligned {C : Mat} (hu : C.Unique) : C.Aligned C :=
  fun i j k l hi hj hk hl e => hu i j k l hi hj trivial hk hl trivial e

/-- In-place product from side `side`. -/
def trmmInPlace [Add α] [Mul α] (A : MatV α) (t : Triangle) (d : Diag) (side : Side) (C : Mat) :
    Prog α Unit :=
  match side with
  | .left => trmmLeftInPlace A t d C
  | .right => trmmRightInPlace A t d C

/-- **C24** (matrix-matrix) in-place product, then in-place solve: memory is exactly as
before. -/
theorem C24_matrix_solve_after_product [NonAssocRing α] [Div α] (A : MatV α) (t : Triangle)
    (d : Diag) (side : Side) (C : Mat) (h : Heap α) (a c : Nat → Nat → α)
    (hA : A.HoldsOn h (triRegion t d) a) (hC : C.Holds h c) (hsq : A.rows = A.cols)
    (hext : sideExt side C = A.rows)
    (hu : C.Unique) (hAC : Apart (A.toMat.CellOn (triRegion t d)) C.Cell)
    (hdiv : d = .explicit → ∀ i, i < A.rows → ∀ s : α,
      a i i * (s / a i i) = s ∧ (a i i * s) / a i i = s ∧
      (s / a i i) * a i i = s ∧ (s * a i i) / a i i = s) :
    Ends (do trmmInPlace A t d side C; trsm A t d side C.view C) h fun _ h' => h' = h := by
  rw [ends_bind]
  cases side with
  | left =>
    simp only [sideExt] at hext
    refine (C36_trmm_left_in_place A t d C h a c hA hC hsq hext hu hAC).mono fun _ h1 hb1 => ?_
    refine (C37_trsm_left A t d C.view C h1 a _ (hA.of_onlyChanges hAC hb1.2)
      (Mat.Holds.viewHolds hb1.1) (Mat.Holds.alloc hb1.1) hsq hext hext rfl hu hAC hu.aligned
      fun hd i hi s => ⟨(hdiv hd i hi s).1, (hdiv hd i hi s).2.1⟩).mono ?_
    rintro _ h' ⟨x, hb, _, huniq⟩
    refine Mat.Becomes.eq_self hC (Mat.BecomesOn.congr (Mat.Becomes.trans hb1 hb)
      fun i j hi hj _ => ?_)
    exact (huniq c (fun _ _ _ _ => rfl) i j hi hj).symm
  | right =>
    simp only [sideExt, hsq] at hext
    refine (C36_trmm_right_in_place A t d C h a c hA hC hsq hext hu hAC).mono fun _ h1 hb1 => ?_
    refine (C37_trsm_right A t d C.view C h1 a _ (hA.of_onlyChanges hAC hb1.2)
      (Mat.Holds.viewHolds hb1.1) (Mat.Holds.alloc hb1.1) hsq hext hext rfl hu hAC hu.aligned
      fun hd i hi s => (hdiv hd i hi s).2.2).mono ?_
    rintro _ h' ⟨x, hb, _, huniq⟩
    refine Mat.Becomes.eq_self hC (Mat.BecomesOn.congr (Mat.Becomes.trans hb1 hb)
      fun i j hi hj _ => ?_)
    exact (huniq c (fun _ _ _ _ => rfl) i j hi hj).symm

/-- **C24** (matrix-matrix) in-place solve, then in-place product: memory is exactly as
before. -/
theorem C24_matrix_product_after_solve [NonAssocRing α] [Div α] (A : MatV α) (t : Triangle)
    (d : Diag) (side : Side) (C : Mat) (h : Heap α) (a c : Nat → Nat → α)
    (hA : A.HoldsOn h (triRegion t d) a) (hC : C.Holds h c) (hsq : A.rows = A.cols)
    (hext : sideExt side C = A.rows)
    (hu : C.Unique) (hAC : Apart (A.toMat.CellOn (triRegion t d)) C.Cell)
    (hdiv : d = .explicit → ∀ i, i < A.rows → ∀ s : α,
      a i i * (s / a i i) = s ∧ (a i i * s) / a i i = s ∧
      (s / a i i) * a i i = s ∧ (s * a i i) / a i i = s) :
    Ends (do trsm A t d side C.view C; trmmInPlace A t d side C) h fun _ h' => h' = h := by
  rw [ends_bind]
  cases side with
  | left =>
    simp only [sideExt] at hext
    refine (C37_trsm_left A t d C.view C h a c hA (Mat.Holds.viewHolds hC) (Mat.Holds.alloc hC) hsq
      hext hext rfl hu hAC hu.aligned
      fun hd i hi s => ⟨(hdiv hd i hi s).1, (hdiv hd i hi s).2.1⟩).mono ?_
    rintro _ h1 ⟨x, hb1, hsol, _⟩
    refine (C36_trmm_left_in_place A t d C h1 a x (hA.of_onlyChanges hAC hb1.2) hb1.1 hsq hext hu
      hAC).mono fun _ h' hb => ?_
    exact Mat.Becomes.eq_self hC (Mat.BecomesOn.congr (Mat.Becomes.trans hb1 hb)
      fun i j hi hj _ => hsol i j hi hj)
  | right =>
    simp only [sideExt, hsq] at hext
    refine (C37_trsm_right A t d C.view C h a c hA (Mat.Holds.viewHolds hC) (Mat.Holds.alloc hC) hsq
      hext hext rfl hu hAC hu.aligned fun hd i hi s => (hdiv hd i hi s).2.2).mono ?_
    rintro _ h1 ⟨x, hb1, hsol, _⟩
    refine (C36_trmm_right_in_place A t d C h1 a x (hA.of_onlyChanges hAC hb1.2) hb1.1 hsq hext hu
      hAC).mono fun _ h' hb => ?_
    exact Mat.Becomes.eq_self hC (Mat.BecomesOn.congr (Mat.Becomes.trans hb1 hb)
      fun i j hi hj _ => hsol i j hi hj)

example (t : Triangle) (d : Diag) (side : Side) :
    Ends (do trmmInPlace (A.view : MatV ℚ) t d side C
             trsm (A.view : MatV ℚ) t d side C.view C) (heap ℚ) fun _ h' => h' = heap ℚ :=
  C24_matrix_solve_after_product _ _ _ _ _ _ _ _ (mholdsV bA) (mholds bC) rfl
    (by cases side <;> rfl) (by view_facts) (by view_facts)
    (fun _ i hi s => ⟨mul_div_cancel₀ s (mvals_A_diag hi), mul_div_cancel_left₀ s (mvals_A_diag hi),
      div_mul_cancel₀ s (mvals_A_diag hi), mul_div_cancel_right₀ s (mvals_A_diag hi)⟩)

example (t : Triangle) (d : Diag) (side : Side) :
    Ends (do trsm (A.view : MatV ℚ) t d side C.view C
             trmmInPlace (A.view : MatV ℚ) t d side C) (heap ℚ) fun _ h' => h' = heap ℚ :=
  C24_matrix_product_after_solve _ _ _ _ _ _ _ _ (mholdsV bA) (mholds bC) rfl
    (by cases side <;> rfl) (by view_facts) (by view_facts)
    (fun _ i hi s => ⟨mul_div_cancel₀ s (mvals_A_diag hi), mul_div_cancel_left₀ s (mvals_A_diag hi),
      div_mul_cancel₀ s (mvals_A_diag hi), mul_div_cancel_right₀ s (mvals_A_diag hi)⟩)

end StdBLAS

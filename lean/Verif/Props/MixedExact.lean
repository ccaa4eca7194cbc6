import Verif.Lemmas.MixedExact
import Verif.Props.MixedTypes
import Verif.Props.ViewAlgorithms
import Mathlib.Tactic.NormNum

/-!
# Property C57: what mixed element types cost

`Props/MixedTypes.lean` says where conversions take place.  Here: the type of the result; no loss
at all if every operand fits into the type of the result; the rounding error for floating-point
types of different precision; and the calls in which the code loses more than it should.
-/

namespace StdBLAS
open Witness Finset

/-! ## The type of the result -/

section
variable {D Ty : Type} [MixedOps D Ty] [LawfulMixed D Ty]

/-- **C57** the result of `dot` has the type of `init`. -/
theorem C57_dot_type (v1 v2 : VecV D) (init : D) (h : Heap D) (f g : Nat → D)
    (h1 : v1.Holds h f) (h2 : v2.Holds h g) (hext : v1.ext ≤ v2.ext) :
    Ends (Mixed.dot v1 v2 init) h fun r _ => MixedOps.ty r = MixedOps.ty init :=
  (C57_dot v1 v2 init h f g h1 h2 hext).mono fun _ _ hb => by
    rw [hb.1]; exact ty_leftSumAs _ _ _ _ rfl

example : Ends (Mixed.dot (x.view : VecV Num) y.view (.complex 5)) (heap Num) fun r _ =>
    r.type = .complex :=
  C57_dot_type _ _ _ _ _ _ (holdsV bx) (holdsV by_) le_rfl

/-- **C57** the elements that `matrix_vector_product` writes have the element type of `y`. -/
theorem C57_gemv_type (A : MatV D) (x : VecV D) (y : TVec Ty) (h : Heap D)
    (a : Nat → Nat → D) (f : Nat → D) (hA : A.Holds h a) (hx : x.Holds h f) (hy : y.Alloc h)
    (hrows : y.ext = A.rows) (hcols : A.cols ≤ x.ext) (hu : y.Unique)
    (hAy : Apart A.toMat.Cell y.Cell) (hxy : Apart x.toVec.Cell y.Cell) :
    Ends (Mixed.gemv A x y) h fun _ h' => ∃ r, y.Becomes h h' r ∧ ∀ i, MixedOps.ty (r i) = y.elt :=
  (C57_gemv A x y h a f hA hx hy hrows hcols hu hAy hxy).mono fun _ _ hb =>
    ⟨_, hb, fun _ => ty_leftSumAs _ _ _ _ (LawfulMixed.ty_zero _)⟩

example : Ends (Mixed.gemv (A.view : MatV Num) x.view ⟨y, .complex⟩) (heap Num) fun _ h' =>
    ∃ r, y.Becomes (heap Num) h' r ∧ ∀ i, MixedOps.ty (r i) = .complex :=
  C57_gemv_type _ _ _ _ _ _ (mholdsV bA) (holdsV bx) (alloc by_) rfl le_rfl
    (by view_facts) (by view_facts) (by view_facts)

/-- **C57** the elements that `matrix_product` writes have the element type of `C`. -/
theorem C57_gemm_type (A B : MatV D) (C : TMat Ty) (h : Heap D)
    (a b : Nat → Nat → D) (hA : A.Holds h a) (hB : B.Holds h b) (hC : C.Alloc h)
    (hr : C.rows = A.rows) (hk : A.cols = B.rows) (hc : C.cols = B.cols) (hu : C.Unique)
    (hAC : Apart A.toMat.Cell C.Cell) (hBC : Apart B.toMat.Cell C.Cell) :
    Ends (Mixed.gemm A B C) h fun _ h' =>
      ∃ r, C.Becomes h h' r ∧ ∀ i j, MixedOps.ty (r i j) = C.elt :=
  (C57_gemm A B C h a b hA hB hC hr hk hc hu hAC hBC).mono fun _ _ hb =>
    ⟨_, hb, fun _ _ => ty_leftSumAs _ _ _ _ (LawfulMixed.ty_zero _)⟩

example : Ends (Mixed.gemm (T.view : MatV Num) W.view ⟨C, .complex⟩) (heap Num) fun _ h' =>
    ∃ r, C.Becomes (heap Num) h' r ∧ ∀ i j, MixedOps.ty (r i j) = .complex :=
  C57_gemm_type _ _ _ _ _ _ (mholdsV bT) (mholdsV bW) (malloc bC) rfl rfl rfl
    (by view_facts) (by view_facts) (by view_facts)

/-- **C57** the elements that `triangular_matrix_vector_solve` writes have the element type of
`X`. -/
theorem C57_trsv_type (tA tB : Ty) (A : MatV D) (t : Triangle) (d : Diag) (B : VecV D) (X : TVec Ty)
    (h : Heap D) (a : Nat → Nat → D) (b : Nat → D)
    (hA : A.HoldsOn h (triRegion t d) a) (hB : B.Holds h b) (hX : X.Alloc h)
    (hsq : A.rows = A.cols) (hext : A.rows = X.ext) (hBe : A.rows ≤ B.ext) (hu : X.Unique)
    (hAX : Apart (A.toMat.CellOn (triRegion t d)) X.Cell) (hBX : B.toVec.Aligned X.toVec) :
    Ends (Mixed.trsv (· / ·) tA tB A t d B X) h fun _ h' =>
      ∃ v, X.Becomes h h' v ∧ ∀ i, i < X.ext → MixedOps.ty (v i) = X.elt :=
  (C57_trsv tA tB A t d B X h a b hA hB hX hsq hext hBe hu hAX hBX).mono fun _ _ ⟨v, hb, hv⟩ =>
    ⟨v, hb, fun i hi => by rw [hv i (by omega)]; exact ty_solveRowAs ..⟩

example (t : Triangle) (d : Diag) : Ends (Mixed.trsv (· / ·) .real .int (A.view : MatV Num) t d
    x.view ⟨x, .int⟩) (heap Num) fun _ h' =>
      ∃ v, x.Becomes (heap Num) h' v ∧ ∀ i, i < 3 → MixedOps.ty (v i) = .int :=
  C57_trsv_type _ _ _ _ _ _ _ _ _ _ (mholdsV bA) (holdsV bx) (alloc bx) rfl rfl le_rfl
    (by view_facts) (by view_facts) (by view_facts)

end

/-! ## Integers, real and complex numbers: nothing is lost if the types fit -/

/-- **C57** `dot` is exact if the elements of both vectors fit into the type of `init`. -/
theorem C57_dot_exact (v1 v2 : VecV Num) (init : Num) (h : Heap Num) (f g : Nat → Num)
    (h1 : v1.Holds h f) (h2 : v2.Holds h g) (hext : v1.ext ≤ v2.ext)
    (hf : ∀ k < v1.ext, Num.Fits (f k).type init.type)
    (hg : ∀ k < v1.ext, Num.Fits (g k).type init.type) :
    Ends (Mixed.dot v1 v2 init) h fun r h' =>
      r.val = init.val + ∑ k ∈ range v1.ext, (f k).val * (g k).val ∧ h' = h :=
  (C57_dot v1 v2 init h f g h1 h2 hext).mono fun _ _ hb => by
    refine ⟨?_, hb.2⟩
    rw [hb.1]
    refine (Num.val_leftSumAs (t := init.type) rfl fun k hk => ?_).trans ?_
    rotate_left
    · simp only [Num.val_mul]
    · rw [Num.type_mul]; exact (hf k hk).common (hg k hk)

theorem vals_type_x {k : Nat} (hk : k < 3) : (vals Num x k).type = .int := by
  show (if ((x.addr k : ℤ) - 7) < 0 then Num.int ((x.addr k : ℤ) - 7)
    else if ((x.addr k : ℤ) - 7) < 60 then Num.real _ else Num.complex _).type = _
  rw [if_pos (by simp only [x]; omega)]; rfl

theorem vals_type_y {k : Nat} (hk : k < 3) : (vals Num y k).type = .real := by
  show (if ((y.addr k : ℤ) - 7) < 0 then Num.int ((y.addr k : ℤ) - 7)
    else if ((y.addr k : ℤ) - 7) < 60 then Num.real _ else Num.complex _).type = _
  rw [if_neg (by simp only [y]; omega), if_pos (by simp only [y]; omega)]; rfl

theorem mvals_type_A {i j : Nat} (hi : i < 3) (hj : j < 3) : (mvals Num A i j).type = .real := by
  show (if ((A.addr i j : ℤ) - 7) < 0 then Num.int ((A.addr i j : ℤ) - 7)
    else if ((A.addr i j : ℤ) - 7) < 60 then Num.real _ else Num.complex _).type = _
  rw [if_neg (by simp only [A]; omega), if_pos (by simp only [A]; omega)]; rfl

theorem mvals_type_B {i j : Nat} (hi : i < 3) (hj : j < 3) : (mvals Num B i j).type = .real := by
  show (if ((B.addr i j : ℤ) - 7) < 0 then Num.int ((B.addr i j : ℤ) - 7)
    else if ((B.addr i j : ℤ) - 7) < 60 then Num.real _ else Num.complex _).type = _
  rw [if_neg (by simp only [B]; omega), if_pos (by simp only [B]; omega)]; rfl

theorem mvals_type_C {i j : Nat} (hi : i < 3) (hj : j < 3) : (mvals Num C i j).type = .complex := by
  show (if ((C.addr i j : ℤ) - 7) < 0 then Num.int ((C.addr i j : ℤ) - 7)
    else if ((C.addr i j : ℤ) - 7) < 60 then Num.real _ else Num.complex _).type = _
  rw [if_neg (by simp only [C]; omega), if_neg (by simp only [C]; omega)]; rfl

theorem mvals_A_val {i : Nat} (hi : i < 3) : (mvals Num A i i).val ≠ 0 := by
  show (if ((A.addr i i : ℤ) - 7) < 0 then Num.int ((A.addr i i : ℤ) - 7)
    else if ((A.addr i i : ℤ) - 7) < 60 then Num.real (((A.addr i i : ℤ) - 7 : ℤ) : ℝ)
    else Num.complex _).val ≠ _
  rw [if_neg (by simp only [A]; omega), if_pos (by simp only [A]; omega)]
  have : ((A.addr i i : ℤ) - 7) ≠ 0 := by simp only [A]; omega
  simp only [Num.val, Complex.ofReal_intCast]
  exact_mod_cast this

example : Ends (Mixed.dot (x.view : VecV Num) y.view (.real (5/2))) (heap Num) fun r h' =>
    r.val = (Num.real (5/2)).val + ∑ k ∈ range 3, (vals Num x k).val * (vals Num y k).val ∧
      h' = heap Num :=
  C57_dot_exact _ _ _ _ _ _ (holdsV bx) (holdsV by_) le_rfl
    (fun k hk => by rw [vals_type_x hk]; rfl) (fun k hk => by rw [vals_type_y hk]; rfl)

/-- **C57** `matrix_vector_product` is exact if the elements of `A` and `x` fit into those of
`y`. -/
theorem C57_gemv_exact (A : MatV Num) (x : VecV Num) (y : TVec NumTy) (h : Heap Num)
    (a : Nat → Nat → Num) (f : Nat → Num) (hA : A.Holds h a) (hx : x.Holds h f) (hy : y.Alloc h)
    (hrows : y.ext = A.rows) (hcols : A.cols ≤ x.ext) (hu : y.Unique)
    (hAy : Apart A.toMat.Cell y.Cell) (hxy : Apart x.toVec.Cell y.Cell)
    (ha : ∀ i j, i < A.rows → j < A.cols → Num.Fits (a i j).type y.elt)
    (hf : ∀ j, j < A.cols → Num.Fits (f j).type y.elt) :
    Ends (Mixed.gemv A x y) h fun _ h' => ∃ r, y.Becomes h h' r ∧ ∀ i, i < y.ext →
      (r i).val = mulVec A.cols (fun i j => (a i j).val) (fun j => (f j).val) i :=
  (C57_gemv A x y h a f hA hx hy hrows hcols hu hAy hxy).mono fun _ _ hb => ⟨_, hb, fun i hi => by
    rw [Num.val_leftSumAs (LawfulMixed.ty_zero (D := Num) _) fun k hk => ?_, Num.val_zero, zero_add]
    · simp only [Num.val_mul]; rfl
    · rw [Num.type_mul]; exact (ha i k (by omega) hk).common (hf k hk)⟩

example : Ends (Mixed.gemv (A.view : MatV Num) x.view ⟨y, .real⟩) (heap Num) fun _ h' =>
    ∃ r, y.Becomes (heap Num) h' r ∧ ∀ i, i < 3 → (r i).val =
      mulVec 3 (fun i j => (mvals Num A i j).val) (fun j => (vals Num x j).val) i :=
  C57_gemv_exact _ _ _ _ _ _ (mholdsV bA) (holdsV bx) (alloc by_) rfl le_rfl
    (by view_facts) (by view_facts) (by view_facts)
    (fun i j hi hj => by rw [mvals_type_A hi hj]; rfl) (fun j hj => by rw [vals_type_x hj]; rfl)

/-- **C57** `matrix_product` is exact if the elements of `A` and `B` fit into those of `C`. -/
theorem C57_gemm_exact (A B : MatV Num) (C : TMat NumTy) (h : Heap Num)
    (a b : Nat → Nat → Num) (hA : A.Holds h a) (hB : B.Holds h b) (hC : C.Alloc h)
    (hr : C.rows = A.rows) (hk : A.cols = B.rows) (hc : C.cols = B.cols) (hu : C.Unique)
    (hAC : Apart A.toMat.Cell C.Cell) (hBC : Apart B.toMat.Cell C.Cell)
    (ha : ∀ i j, i < A.rows → j < A.cols → Num.Fits (a i j).type C.elt)
    (hb : ∀ i j, i < B.rows → j < B.cols → Num.Fits (b i j).type C.elt) :
    Ends (Mixed.gemm A B C) h fun _ h' => ∃ r, C.Becomes h h' r ∧ ∀ i j, i < C.rows → j < C.cols →
      (r i j).val = mulMat A.cols (fun i j => (a i j).val) (fun i j => (b i j).val) i j :=
  (C57_gemm A B C h a b hA hB hC hr hk hc hu hAC hBC).mono fun _ _ hr' => ⟨_, hr', fun i j hi hj => by
    rw [Num.val_leftSumAs (LawfulMixed.ty_zero (D := Num) _) fun k hk' => ?_, Num.val_zero, zero_add]
    · simp only [Num.val_mul]; rfl
    · rw [Num.type_mul]
      exact (ha i k (by omega) hk').common (hb k j (by omega) (by omega))⟩

example : Ends (Mixed.gemm (A.view : MatV Num) B.view ⟨C, .complex⟩) (heap Num) fun _ h' =>
    ∃ r, C.Becomes (heap Num) h' r ∧ ∀ i j, i < 3 → j < 3 → (r i j).val =
      mulMat 3 (fun i j => (mvals Num A i j).val) (fun i j => (mvals Num B i j).val) i j :=
  C57_gemm_exact _ _ _ _ _ _ (mholdsV bA) (mholdsV bB) (malloc bC) rfl rfl rfl
    (by view_facts) (by view_facts) (by view_facts)
    (fun i j hi hj => by rw [mvals_type_A hi hj]; rfl)
    (fun i j hi hj => by rw [mvals_type_B hi hj]; rfl)

/-- **C57** `triangular_matrix_vector_solve` is exact if the elements of `A` and `B` fit into those
of `X`, which are not integers. -/
theorem C57_trsv_exact (tA tB : NumTy) (A : MatV Num) (t : Triangle) (d : Diag) (B : VecV Num)
    (X : TVec NumTy) (h : Heap Num) (a : Nat → Nat → Num) (b : Nat → Num)
    (hA : A.HoldsOn h (triRegion t d) a) (hB : B.Holds h b) (hX : X.Alloc h)
    (hsq : A.rows = A.cols) (hext : A.rows = X.ext) (hBe : A.rows ≤ B.ext) (hu : X.Unique)
    (hAX : Apart (A.toMat.CellOn (triRegion t d)) X.Cell) (hBX : B.toVec.Aligned X.toVec)
    (ha : ∀ i j, i < A.rows → j < A.cols → triRegion t d i j → (a i j).type = tA)
    (hb : ∀ i, i < A.rows → (b i).type = tB)
    (hfA : Num.Fits tA X.elt) (hfB : Num.Fits tB X.elt) (hint : d = .explicit → X.elt ≠ .int)
    (hnz : d = .explicit → ∀ i, i < A.rows → (a i i).val ≠ 0) :
    Ends (Mixed.trsv (· / ·) tA tB A t d B X) h fun _ h' => ∃ v, X.Becomes h h' v ∧
      ∀ i, i < A.rows →
        mulVec A.cols (triOf t d fun i j => (a i j).val) (fun k => (v k).val) i = (b i).val :=
  (C57_trsv tA tB A t d B X h a b hA hB hX hsq hext hBe hu hAX hBX).mono fun _ _ ⟨v, hb', hv⟩ =>
    ⟨v, hb', fun i hi => by
      have e : MixedOps.subTy Num tB (MixedOps.mulTy Num tA X.elt) = X.elt := by
        show Num.common tB (Num.common tA X.elt) = _
        rw [hfA, hfB]
      rw [e, hsq] at hv
      rw [hsq] at ha hb hnz hi
      exact Num.solveRowAs_solves (Num.Fits.refl _) hint hfA (Num.Fits.refl _) ha
        (fun i hi => by rw [hb i hi]; exact hfB) hnz hv hi⟩

example (t : Triangle) (d : Diag) : Ends (Mixed.trsv (· / ·) .real .int (A.view : MatV Num) t d
    x.view ⟨x, .real⟩) (heap Num) fun _ h' => ∃ v, x.Becomes (heap Num) h' v ∧ ∀ i, i < 3 →
      mulVec 3 (triOf t d fun i j => (mvals Num A i j).val) (fun k => (v k).val) i =
        (vals Num x i).val :=
  C57_trsv_exact _ _ _ _ _ _ _ _ _ _ (mholdsV bA) (holdsV bx) (alloc bx) rfl rfl le_rfl
    (by view_facts) (by view_facts) (by view_facts) (fun i j hi hj _ => mvals_type_A hi hj)
    (fun i hi => vals_type_x hi) rfl rfl (fun _ => by decide) (fun _ i hi => mvals_A_val hi)

/-- **C57** `triangular_matrix_matrix_left_solve` is exact under the same conditions. -/
theorem C57_trsm_left_exact (tA tB : NumTy) (A : MatV Num) (t : Triangle) (d : Diag) (B : MatV Num)
    (X : TMat NumTy) (h : Heap Num) (a b : Nat → Nat → Num)
    (hA : A.HoldsOn h (triRegion t d) a) (hB : B.Holds h b) (hX : X.Alloc h)
    (hsq : A.rows = A.cols) (hr : X.rows = A.rows) (hBr : B.rows = A.rows) (hc : X.cols = B.cols)
    (hu : X.Unique) (hAX : Apart (A.toMat.CellOn (triRegion t d)) X.Cell)
    (hBX : B.toMat.Aligned X.toMat)
    (ha : ∀ i j, i < A.rows → j < A.cols → triRegion t d i j → (a i j).type = tA)
    (hb : ∀ i j, i < B.rows → j < B.cols → (b i j).type = tB)
    (hfA : Num.Fits tA X.elt) (hfB : Num.Fits tB X.elt) (hint : d = .explicit → X.elt ≠ .int)
    (hnz : d = .explicit → ∀ i, i < A.rows → (a i i).val ≠ 0) :
    Ends (Mixed.trsmLeft tA tB A t d B X) h fun _ h' => ∃ v, X.Becomes h h' v ∧
      ∀ i j, i < X.rows → j < X.cols →
        mulMat A.cols (triOf t d fun i j => (a i j).val) (fun i j => (v i j).val) i j =
          (b i j).val :=
  (C57_trsm_left tA tB A t d B X h a b hA hB hX hsq hr hBr hc hu hAX hBX).mono
    fun _ _ ⟨v, hb', hv⟩ => ⟨v, hb', fun i j hi hj => by
      have e : (if t = .upper then MixedOps.subTy Num tB (MixedOps.mulTy Num tA X.elt)
          else X.elt) = X.elt := by
        split_ifs
        · show Num.common tB (Num.common tA X.elt) = _
          rw [hfA, hfB]
        · rfl
      rw [e] at hv
      have hv' : ∀ i, i < A.cols → v i j = solveRowAs X.elt X.elt t d A.cols i
          (fun k => a i k * v k j) (b i j) (a i i) := fun i hi => hv i j (by omega) hj
      rw [hsq] at ha hnz
      exact Num.solveRowAs_solves (v := fun k => v k j) (b := fun k => b k j)
        (Num.Fits.refl _) hint hfA (Num.Fits.refl _) ha
        (fun i hi => by rw [hb i j (by omega) (by omega)]; exact hfB) hnz hv' (by omega)⟩

example (t : Triangle) (d : Diag) : Ends (Mixed.trsmLeft .real .complex (A.view : MatV Num) t d
    C.view ⟨C, .complex⟩) (heap Num) fun _ h' => ∃ v, C.Becomes (heap Num) h' v ∧
      ∀ i j, i < 3 → j < 3 →
        mulMat 3 (triOf t d fun i j => (mvals Num A i j).val) (fun i j => (v i j).val) i j =
          (mvals Num C i j).val :=
  C57_trsm_left_exact _ _ _ _ _ _ _ _ _ _ (mholdsV bA) (mholdsV bC) (malloc bC) rfl rfl rfl rfl
    (by view_facts) (by view_facts) (by view_facts) (fun i j hi hj _ => mvals_type_A hi hj)
    (fun i j hi hj => mvals_type_C hi hj) rfl rfl (fun _ => by decide) (fun _ i hi => mvals_A_val hi)

/-- **C57** `triangular_matrix_matrix_right_solve` is exact under the same conditions. -/
theorem C57_trsm_right_exact (tA tB : NumTy) (A : MatV Num) (t : Triangle) (d : Diag) (B : MatV Num)
    (X : TMat NumTy) (h : Heap Num) (a b : Nat → Nat → Num)
    (hA : A.HoldsOn h (triRegion t d) a) (hB : B.Holds h b) (hX : X.Alloc h)
    (hsq : A.rows = A.cols) (hr : X.cols = A.cols) (hBr : B.cols = A.cols) (hc : X.rows = B.rows)
    (hu : X.Unique) (hAX : Apart (A.toMat.CellOn (triRegion t d)) X.Cell)
    (hBX : B.toMat.Aligned X.toMat)
    (ha : ∀ i j, i < A.rows → j < A.cols → triRegion t d i j → (a i j).type = tA)
    (hb : ∀ i j, i < B.rows → j < B.cols → (b i j).type = tB)
    (hfA : Num.Fits tA X.elt) (hfB : Num.Fits tB X.elt) (hint : d = .explicit → X.elt ≠ .int)
    (hnz : d = .explicit → ∀ i, i < A.rows → (a i i).val ≠ 0) :
    Ends (Mixed.trsmRight tA tB A t d B X) h fun _ h' => ∃ v, X.Becomes h h' v ∧
      ∀ i j, i < X.rows → j < X.cols →
        mulMat A.cols (fun i j => (v i j).val) (triOf t d fun i j => (a i j).val) i j =
          (b i j).val :=
  (C57_trsm_right tA tB A t d B X h a b hA hB hX hsq hr hBr hc hu hAX hBX).mono
    fun _ _ ⟨v, hb', hv⟩ => ⟨v, hb', fun i j hi hj => by
      have e : MixedOps.subTy Num tB (MixedOps.mulTy Num tA X.elt) = X.elt := by
        show Num.common tB (Num.common tA X.elt) = _
        rw [hfA, hfB]
      rw [e] at hv
      rw [hsq] at ha hnz
      have hv' := fun j hj => hv i j hi hj
      have := Num.solveRowAs_solves_right (v := v i) (b := b i) (Num.Fits.refl X.elt) hint hfA
        (Num.Fits.refl _) ha (fun j hj => by rw [hb i j (by omega) (by omega)]; exact hfB) hnz hv'
        (i := j) (by omega)
      rw [← this]
      exact sum_congr rfl fun k _ => by rw [← triOf_other, mul_comm]⟩

example (t : Triangle) (d : Diag) : Ends (Mixed.trsmRight .real .complex (A.view : MatV Num) t d
    C.view ⟨C, .complex⟩) (heap Num) fun _ h' => ∃ v, C.Becomes (heap Num) h' v ∧
      ∀ i j, i < 3 → j < 3 →
        mulMat 3 (fun i j => (v i j).val) (triOf t d fun i j => (mvals Num A i j).val) i j =
          (mvals Num C i j).val :=
  C57_trsm_right_exact _ _ _ _ _ _ _ _ _ _ (mholdsV bA) (mholdsV bC) (malloc bC) rfl rfl rfl rfl
    (by view_facts) (by view_facts) (by view_facts) (fun i j hi hj _ => mvals_type_A hi hj)
    (fun i j hi hj => mvals_type_C hi hj) rfl rfl (fun _ => by decide) (fun _ i hi => mvals_A_val hi)

/-! ## Floating-point types of different precision -/

/-- **C57** `dot` of elements with `p1` and `p2` digits, summed in a variable of `q` digits: if `q`
is larger, the errors of the additions are those of `q` digits. -/
theorem C57_dot_precision (p1 p2 : ℕ) (v1 v2 : VecV MixFlt) (init : MixFlt) (h : Heap MixFlt)
    (f g : Nat → MixFlt) (h1 : v1.Holds h f) (h2 : v2.Holds h g) (hext : v1.ext ≤ v2.ext)
    (hf : ∀ k < v1.ext, (f k).prec = p1) (hg : ∀ k < v1.ext, (g k).prec = p2) :
    Ends (Mixed.dot v1 v2 init) h fun r h' => h' = h ∧
      |r.val - (init.val + ∑ k ∈ range v1.ext, (f k).val * (g k).val)| ≤
        ((1 + (2 : ℝ)⁻¹ ^ max p1 p2) * (1 + MixFlt.addError (max p1 p2) init.prec) ^ v1.ext - 1) *
          (|init.val| + ∑ k ∈ range v1.ext, |(f k).val| * |(g k).val|) :=
  (C57_dot v1 v2 init h f g h1 h2 hext).mono fun _ _ hb => by
    refine ⟨hb.2, ?_⟩
    rw [hb.1]
    exact MixFlt.products_error rfl hf hg

/-- Cells hold `float` values below address 20 and `double` values above. -/
noncomputable instance : IntCast MixFlt := ⟨fun z => ⟨if z < 13 then 24 else 53, z⟩⟩

theorem mix_prec_x {k : Nat} (hk : k < 3) : (vals MixFlt x k).prec = 24 := by
  show (if ((x.addr k : ℤ) - 7) < 13 then 24 else 53) = _
  rw [if_pos (by simp only [x]; omega)]
theorem mix_prec_y {k : Nat} (hk : k < 3) : (vals MixFlt y k).prec = 24 := by
  show (if ((y.addr k : ℤ) - 7) < 13 then 24 else 53) = _
  rw [if_pos (by simp only [y]; omega)]
theorem mix_prec_A {i k : Nat} : (mvals MixFlt A i k).prec = 53 := by
  show (if ((A.addr i k : ℤ) - 7) < 13 then 24 else 53) = _
  rw [if_neg (by simp only [A]; omega)]
theorem mix_prec_B {i k : Nat} : (mvals MixFlt B i k).prec = 53 := by
  show (if ((B.addr i k : ℤ) - 7) < 13 then 24 else 53) = _
  rw [if_neg (by simp only [B]; omega)]

/-- `float` vectors, `double` accumulator. -/
example : Ends (Mixed.dot (x.view : VecV MixFlt) y.view ⟨53, 1⟩) (heap MixFlt) fun r h' =>
    h' = heap MixFlt ∧ |r.val - (1 + ∑ k ∈ range 3, (vals MixFlt x k).val * (vals MixFlt y k).val)| ≤
      ((1 + (2 : ℝ)⁻¹ ^ 24) * (1 + (2 : ℝ)⁻¹ ^ 53) ^ 3 - 1) *
        (|1| + ∑ k ∈ range 3, |(vals MixFlt x k).val| * |(vals MixFlt y k).val|) :=
  C57_dot_precision 24 24 _ _ _ _ _ _ (holdsV bx) (holdsV by_) le_rfl (fun _ hk => mix_prec_x hk)
    (fun _ hk => mix_prec_y hk)

/-- **C57** `matrix_vector_product`: the accumulator is `y(i)`, so its precision is that of `y`. -/
theorem C57_gemv_precision (p1 p2 : ℕ) (A : MatV MixFlt) (x : VecV MixFlt) (y : TVec ℕ)
    (h : Heap MixFlt) (a : Nat → Nat → MixFlt) (f : Nat → MixFlt) (hA : A.Holds h a)
    (hx : x.Holds h f) (hy : y.Alloc h)
    (hrows : y.ext = A.rows) (hcols : A.cols ≤ x.ext) (hu : y.Unique)
    (hAy : Apart A.toMat.Cell y.Cell) (hxy : Apart x.toVec.Cell y.Cell)
    (ha : ∀ i j, i < A.rows → j < A.cols → (a i j).prec = p1)
    (hf : ∀ j, j < A.cols → (f j).prec = p2) :
    Ends (Mixed.gemv A x y) h fun _ h' => ∃ r, y.Becomes h h' r ∧ ∀ i, i < y.ext →
      |(r i).val - ∑ k ∈ range A.cols, (a i k).val * (f k).val| ≤
        ((1 + (2 : ℝ)⁻¹ ^ max p1 p2) * (1 + MixFlt.addError (max p1 p2) y.elt) ^ A.cols - 1) *
          ∑ k ∈ range A.cols, |(a i k).val| * |(f k).val| :=
  (C57_gemv A x y h a f hA hx hy hrows hcols hu hAy hxy).mono fun _ _ hb => ⟨_, hb, fun i hi => by
    have := MixFlt.products_error (q := y.elt) (s := MixedOps.zero y.elt) (n := A.cols)
      (LawfulMixed.ty_zero (D := MixFlt) _) (fun k hk => ha i k (by omega) hk) hf
    have z : (MixedOps.zero (D := MixFlt) y.elt).val = 0 := rfl
    simpa only [z, abs_zero, zero_add] using this⟩

/-- `double` matrix, `float` vector, `float` result: each partial sum is rounded to `float`. -/
example : Ends (Mixed.gemv (A.view : MatV MixFlt) x.view ⟨y, 24⟩) (heap MixFlt) fun _ h' =>
    ∃ r, y.Becomes (heap MixFlt) h' r ∧ ∀ i, i < 3 →
      |(r i).val - ∑ k ∈ range 3, (mvals MixFlt A i k).val * (vals MixFlt x k).val| ≤
        ((1 + (2 : ℝ)⁻¹ ^ 53) * (1 + MixFlt.addError 53 24) ^ 3 - 1) *
          ∑ k ∈ range 3, |(mvals MixFlt A i k).val| * |(vals MixFlt x k).val| :=
  C57_gemv_precision 53 24 _ _ _ _ _ _ (mholdsV bA) (holdsV bx) (alloc by_) rfl le_rfl
    (by view_facts) (by view_facts) (by view_facts) (fun _ _ _ _ => mix_prec_A)
    (fun _ hk => mix_prec_x hk)

/-- **C57** `matrix_product`: the accumulator is `C(i,j)`. -/
theorem C57_gemm_precision (p1 p2 : ℕ) (A B : MatV MixFlt) (C : TMat ℕ) (h : Heap MixFlt)
    (a b : Nat → Nat → MixFlt) (hA : A.Holds h a) (hB : B.Holds h b) (hC : C.Alloc h)
    (hr : C.rows = A.rows) (hk : A.cols = B.rows) (hc : C.cols = B.cols) (hu : C.Unique)
    (hAC : Apart A.toMat.Cell C.Cell) (hBC : Apart B.toMat.Cell C.Cell)
    (ha : ∀ i j, i < A.rows → j < A.cols → (a i j).prec = p1)
    (hb : ∀ i j, i < B.rows → j < B.cols → (b i j).prec = p2) :
    Ends (Mixed.gemm A B C) h fun _ h' => ∃ r, C.Becomes h h' r ∧ ∀ i j, i < C.rows → j < C.cols →
      |(r i j).val - ∑ k ∈ range A.cols, (a i k).val * (b k j).val| ≤
        ((1 + (2 : ℝ)⁻¹ ^ max p1 p2) * (1 + MixFlt.addError (max p1 p2) C.elt) ^ A.cols - 1) *
          ∑ k ∈ range A.cols, |(a i k).val| * |(b k j).val| :=
  (C57_gemm A B C h a b hA hB hC hr hk hc hu hAC hBC).mono fun _ _ hb' => ⟨_, hb', fun i j hi hj => by
    have := MixFlt.products_error (q := C.elt) (s := MixedOps.zero C.elt) (n := A.cols)
      (LawfulMixed.ty_zero (D := MixFlt) _) (fun k hk => ha i k (by omega) hk)
      (fun k hk => hb k j (by omega) (by omega))
    have z : (MixedOps.zero (D := MixFlt) C.elt).val = 0 := rfl
    simpa only [z, abs_zero, zero_add] using this⟩

example : Ends (Mixed.gemm (A.view : MatV MixFlt) B.view ⟨C, 24⟩) (heap MixFlt) fun _ h' =>
    ∃ r, C.Becomes (heap MixFlt) h' r ∧ ∀ i j, i < 3 → j < 3 →
      |(r i j).val - ∑ k ∈ range 3, (mvals MixFlt A i k).val * (mvals MixFlt B k j).val| ≤
        ((1 + (2 : ℝ)⁻¹ ^ 53) * (1 + MixFlt.addError 53 24) ^ 3 - 1) *
          ∑ k ∈ range 3, |(mvals MixFlt A i k).val| * |(mvals MixFlt B k j).val| :=
  C57_gemm_precision 53 53 _ _ _ _ _ _ (mholdsV bA) (mholdsV bB) (malloc bC) rfl rfl rfl
    (by view_facts) (by view_facts) (by view_facts) (fun _ _ _ _ => mix_prec_A)
    (fun _ _ _ _ => mix_prec_B)

/-! ## Where the code loses more than it should -/

theorem Num.cast_int_of_nat (x : ℝ) (n : ℕ) (h0 : (n : ℝ) ≤ x) (h1 : x < n + 1) :
    Num.cast .int (.real x) = .int n := by
  show Num.int (if 0 ≤ (Num.real x).toReal then ⌊x⌋ else ⌈x⌉) = _
  rw [if_pos (show 0 ≤ (Num.real x).toReal from (Nat.cast_nonneg n).trans h0)]
  congr 1
  rw [Int.floor_eq_iff]
  exact ⟨by exact_mod_cast h0, by exact_mod_cast h1⟩

/-- `dot` of `(1/2, 1/2)` and `(1, 1)` with an integer `init`: each partial sum is truncated, the
result is 0.  So the condition of `C57_dot_exact` on the type of `init` is needed. -/
theorem C57_dot_narrow_init :
    Ends (Mixed.dot (⟨⟨2, fun i => i⟩, id⟩ : VecV Num) ⟨⟨2, fun i => 2 + i⟩, id⟩ (.int 0))
      (fun a => if a < 2 then some (.real (1/2)) else some (.real 1)) fun r _ => r = .int 0 := by
  refine (C57_dot (⟨⟨2, fun i => i⟩, id⟩ : VecV Num) ⟨⟨2, fun i => 2 + i⟩, id⟩ (.int 0) _ (fun _ => Num.real (1/2)) (fun _ => Num.real 1) ?_ ?_ le_rfl).mono ?_
  · intro i hi
    exact ⟨_, if_pos hi, rfl⟩
  · intro i hi
    exact ⟨_, if_neg (show ¬ 2 + i < 2 by omega), rfl⟩
  · rintro r _ ⟨e, -⟩
    rw [e]
    have e1 : MixedOps.conv .int (Num.int 0 + Num.real (1/2) * Num.real 1) = Num.int 0 := by
      show Num.cast .int (Num.real (((0 : ℤ) : ℝ) + 1/2 * 1)) = _
      exact Num.cast_int_of_nat _ 0 (by norm_num) (by norm_num)
    show leftSumAs .int (Num.int 0) 2 _ = _
    simp only [leftSumAs, e1]

/-- A 2×2 matrix of reals `[[1, 0], [1/2, 1/2]]` in cells 0..3 and integers in all other cells:
1, 1 in cells 4 and 5. -/
noncomputable def mixHeap : Heap Num
  | 0 => some (.real 1)
  | 1 => some (.real 0)
  | 2 => some (.real (1/2))
  | 3 => some (.real (1/2))
  | 4 => some (.int 1)
  | 5 => some (.int 1)
  | _ => some (.int 0)

/-- the matrix in cells 0..3 -/
def mixA : MatV Num := ⟨⟨2, 2, fun i j => 2 * i + j⟩, id⟩
/-- the right-hand side in cells 4 and 5, one column -/
def mixB : MatV Num := ⟨⟨2, 1, fun i _ => 4 + i⟩, id⟩
/-- the right-hand side as a vector -/
def mixb : VecV Num := ⟨⟨2, fun i => 4 + i⟩, id⟩
/-- the solution as a vector -/
def mixx : Vec := ⟨2, fun i => 6 + i⟩
/-- the solution in cells 6 and 7, one column -/
def mixX : Mat := ⟨2, 1, fun i _ => 6 + i⟩

theorem mixA_holds : mixA.HoldsOn mixHeap (triRegion .lower .explicit)
    fun i j => if i = 0 then .real 1 else if j = 0 then .real (1/2) else .real (1/2) := by
  intro i j hi hj hr
  simp only [mixA] at hi hj
  have hji : j ≤ i := hr.1
  have : (i = 0 ∧ j = 0) ∨ (i = 1 ∧ j = 0) ∨ (i = 1 ∧ j = 1) := by omega
  rcases this with ⟨rfl, rfl⟩ | ⟨rfl, rfl⟩ | ⟨rfl, rfl⟩ <;> exact ⟨_, rfl, rfl⟩

theorem mixB_holds : mixB.Holds mixHeap fun _ _ => .int 1 := by
  intro i j hi hj _
  simp only [mixB] at hi hj
  have : i = 0 ∨ i = 1 := by omega
  rcases this with rfl | rfl <;> exact ⟨_, rfl, rfl⟩

theorem mixb_holds : mixb.Holds mixHeap fun _ => .int 1 := by
  intro i hi
  simp only [mixb] at hi
  have : i = 0 ∨ i = 1 := by omega
  rcases this with rfl | rfl <;> exact ⟨_, rfl, rfl⟩

theorem mixx_alloc : mixx.Alloc mixHeap := by
  intro i hi
  simp only [mixx] at hi
  have : i = 0 ∨ i = 1 := by omega
  rcases this with rfl | rfl <;> exact ⟨_, rfl⟩

theorem mixX_alloc : mixX.Alloc mixHeap := by
  intro i j hi hj _
  simp only [mixX] at hi hj
  have : i = 0 ∨ i = 1 := by omega
  rcases this with rfl | rfl <;> exact ⟨_, rfl⟩

/-- The first step of both solves: `x(0) = 1`. -/
theorem mix_first : MixedOps.conv NumTy.int (Num.real 1 / Num.real 1) = Num.int 1 := by
  show Num.cast .int (.real (1 / 1)) = _
  exact Num.cast_int_of_nat _ 1 (by norm_num) (by norm_num)

theorem mix_trsv : Ends (Mixed.trsv (· / ·) .real .int mixA .lower .explicit mixb ⟨mixx, .int⟩) mixHeap
    (fun _ h' => h' 6 = some (.int 1) ∧ h' 7 = some (.int 1)) := by
  have hu : mixx.Unique := by
    intro i k hi hk e
    simp only [mixx] at *; omega
  have hA : Apart (mixA.toMat.CellOn (triRegion .lower .explicit)) mixx.Cell := by
    rintro c ⟨i, j, hi, hj, -, e⟩ ⟨k, hk, e'⟩
    simp only [mixA, mixx] at hi hj e e' hk; omega
  have hB : mixb.toVec.Aligned mixx := by
    intro i k hi hk e
    simp only [mixb, mixx] at *; omega
  have H := C57_trsv NumTy.real NumTy.int mixA .lower .explicit mixb ⟨mixx, NumTy.int⟩ mixHeap
    _ _ mixA_holds mixb_holds mixx_alloc rfl rfl le_rfl hu hA hB
  refine H.mono ?_
  rintro _ h' ⟨v, hb, hv⟩
  have hv0 := hv 0 (by decide)
  have hv1 := hv 1 (by decide)
  simp only [solveRowAs, leftDiffAs, if_true, one_ne_zero, if_false] at hv0 hv1
  have e0 : v 0 = .int 1 := by
    rw [hv0]
    show MixedOps.conv NumTy.int (Num.real ((1 : ℤ) : ℝ) / Num.real 1) = _
    rw [Int.cast_one]; exact mix_first
  have e1 : v 1 = .int 1 := by
    rw [hv1, e0]
    show Num.cast .int (.real ((((1 : ℤ) : ℝ) - 1/2 * ((1 : ℤ) : ℝ)) / (1/2))) = _
    exact Num.cast_int_of_nat _ 1 (by norm_num) (by norm_num)
  exact ⟨by rw [← e0]; exact hb.1 0 (by decide), by rw [← e1]; exact hb.1 1 (by decide)⟩

theorem mix_trsm : Ends (Mixed.trsmLeft .real .int mixA .lower .explicit mixB ⟨mixX, .int⟩) mixHeap
    (fun _ h' => h' 6 = some (.int 1) ∧ h' 7 = some (.int 0)) := by
  have hu : mixX.Unique := by
    intro i j k l hi hj _ hk hl _ e
    simp only [mixX] at *; omega
  have hA : Apart (mixA.toMat.CellOn (triRegion .lower .explicit)) mixX.Cell := by
    rintro c ⟨i, j, hi, hj, -, e⟩ ⟨k, l, hk, hl, -, e'⟩
    simp only [mixA, mixX] at hi hj e e' hk; omega
  have hB : mixB.toMat.Aligned mixX := by
    intro i j k l hi hj hk hl e
    simp only [mixB, mixX] at *; omega
  have H := C57_trsm_left NumTy.real NumTy.int mixA .lower .explicit mixB ⟨mixX, NumTy.int⟩ mixHeap
    _ _ mixA_holds mixB_holds mixX_alloc rfl rfl rfl rfl hu hA hB
  refine H.mono ?_
  rintro _ h' ⟨v, hb, hv⟩
  have hv0 := hv 0 0 (by decide) (by decide)
  have hv1 := hv 1 0 (by decide) (by decide)
  simp only [solveRowAs, leftDiffAs, if_true, one_ne_zero, if_false, reduceCtorEq] at hv0 hv1
  have e0 : v 0 0 = .int 1 := by
    rw [hv0]
    show MixedOps.conv NumTy.int (Num.real (((1 : ℤ) : ℝ) / 1)) = _
    rw [Int.cast_one]; exact mix_first
  have e2 : MixedOps.conv NumTy.int (Num.int 1 - Num.real (1/2) * Num.int 1) = Num.int 0 := by
    show Num.cast .int (.real (((1 : ℤ) : ℝ) - 1/2 * ((1 : ℤ) : ℝ))) = _
    exact Num.cast_int_of_nat _ 0 (by norm_num) (by norm_num)
  have e1 : v 1 0 = .int 0 := by
    rw [hv1, e0]
    show MixedOps.conv NumTy.int
      (MixedOps.conv NumTy.int (Num.int 1 - Num.real (1/2) * Num.int 1) / Num.real (1/2)) = _
    rw [e2]
    show Num.cast .int (.real (((0 : ℤ) : ℝ) / (1/2))) = _
    exact Num.cast_int_of_nat _ 0 (by norm_num) (by norm_num)
  exact ⟨by rw [← e0]; exact hb.1 0 0 (by decide) (by decide) trivial,
    by rw [← e1]; exact hb.1 1 0 (by decide) (by decide) trivial⟩

/-- **C57** (negative) Solving for one column of integers with a real matrix gives `(1, 1)` with
`triangular_matrix_vector_solve` and `(1, 0)` with `triangular_matrix_matrix_left_solve`: the lower
triangular case of the latter accumulates in the element type of `X`, not in the type of
`B - A * X` as all the other solves do. -/
theorem C57_trsm_lower_left_differs :
    Ends (Mixed.trsv (· / ·) .real .int mixA .lower .explicit mixb ⟨mixx, .int⟩) mixHeap
      (fun _ h' => h' 6 = some (.int 1) ∧ h' 7 = some (.int 1)) ∧
    Ends (Mixed.trsmLeft .real .int mixA .lower .explicit mixB ⟨mixX, .int⟩) mixHeap
      (fun _ h' => h' 6 = some (.int 1) ∧ h' 7 = some (.int 0)) :=
  ⟨mix_trsv, mix_trsm⟩

/-- **C57** (negative) The two-norm of the integer vector `(3, 4)`, without `init`, is 4: the
quotients of the scaled sum of squares are integer quotients. -/
theorem C57_vector_two_norm_int :
    Ends (Mixed.vectorTwoNorm0 .int (⟨⟨2, fun i => i⟩, id⟩ : VecV Num))
      (fun a => some (if a = 0 then .int 3 else .int 4)) fun r _ => r = .int 4 := by
  have z : ∀ n : ℤ, n ≠ 0 → MixedMag.isZero (Num.int n) = false := fun n hn => by
    show decide (((n : ℤ) : ℝ) = 0) = false
    rw [decide_eq_false_iff_not]; exact_mod_cast hn
  have l : ∀ m n : ℤ, m < n → MixedMag.lt (Num.int m) (Num.int n) = true := fun m n h => by
    show decide (((m : ℤ) : ℝ) < n) = true
    rw [decide_eq_true_iff]; exact_mod_cast h
  have a : ∀ n : ℤ, 0 ≤ n → MixedMag.abs (Num.int n) = Num.int n := fun n hn => by
    show Num.int |n| = _
    rw [abs_of_nonneg hn]
  have s : MixedMag.sqrt (Num.int 1) = Num.real 1 := by
    show Num.real (Real.sqrt ((1 : ℤ) : ℝ)) = _
    rw [Int.cast_one, Real.sqrt_one]
  have q1 : Num.int 0 / Num.int 3 = Num.int 0 := rfl
  have q2 : Num.int 3 / Num.int 4 = Num.int 0 := rfl
  have c1 : MixedOps.conv NumTy.int (Num.int 1 + Num.int 1 * Num.int 0 * Num.int 0) = Num.int 1 := rfl
  have f : MixedOps.conv NumTy.int (Num.int 0 + Num.int 4 * Num.real 1) = Num.int 4 := by
    show Num.cast .int (.real (((0 : ℤ) : ℝ) + ((4 : ℤ) : ℝ) * 1)) = _
    exact Num.cast_int_of_nat _ 4 (by norm_num) (by norm_num)
  have c3 : MixedOps.conv NumTy.int (Num.int 3) = Num.int 3 := rfl
  have c4 : MixedOps.conv NumTy.int (Num.int 4) = Num.int 4 := rfl
  unfold Mixed.vectorTwoNorm0 Mixed.vectorTwoNorm Mixed.vectorSumOfSquares
  have t : MixedOps.mulTy Num NumTy.int NumTy.int = NumTy.int := rfl
  have z0 : MixedOps.zero NumTy.int = Num.int 0 := rfl
  have o1 : MixedMag.one NumTy.int = Num.int 1 := rfl
  rw [t, z0, o1]
  simp [foldEach, List.range', z, l, a, q1, q2, c1, c3, c4, s, f]

/-- **C57** (negative) "the two-norm of integers, without `init`, is the two-norm rounded towards
zero" is false. -/
theorem C57_vector_two_norm_int_false :
    ¬ ∀ (v : VecV Num) (h : Heap Num) (f : Nat → ℤ), v.Holds h (fun k => .int (f k)) →
      Ends (Mixed.vectorTwoNorm0 .int v) h fun r _ =>
        r = .int ⌊Real.sqrt (∑ k ∈ range v.ext, (f k : ℝ) ^ 2)⌋ := by
  intro H
  have h1 := H ⟨⟨2, fun i => i⟩, id⟩ (fun a => some (if a = 0 then .int 3 else .int 4))
    (fun k => if k = 0 then 3 else 4) (fun i hi => ⟨_, rfl, by
      show (if i = 0 then Num.int 3 else Num.int 4) = Num.int (if i = 0 then 3 else 4)
      split <;> rfl⟩)
  obtain ⟨_, _, _, q, q'⟩ := h1.and C57_vector_two_norm_int
  rw [q'] at q
  have e : Real.sqrt (∑ k ∈ range 2, (((if k = 0 then 3 else 4 : ℤ)) : ℝ) ^ 2) = 5 := by
    rw [sum_range_succ, sum_range_one]
    rw [show (((if (0 : ℕ) = 0 then 3 else 4 : ℤ) : ℝ) ^ 2 + ((if (1 : ℕ) = 0 then 3 else 4 : ℤ) : ℝ) ^ 2)
      = 5 ^ 2 by norm_num]
    exact Real.sqrt_sq (by norm_num)
  have q2 : (4 : ℤ) = ⌊Real.sqrt (∑ k ∈ range 2, (((if k = 0 then 3 else 4 : ℤ)) : ℝ) ^ 2)⌋ :=
    Num.int.inj q
  rw [e] at q2
  norm_num at q2

end StdBLAS

import Verif.Props.Consistency
import Verif.Props.Blas1Reductions

/-!
# Property C46, continued: vectors, rank updates and structured products between levels

`A.row i` is row `i` of `A` as a vector view, `B.col j` column `j`: same cells, same accessor.
All comparisons are between two runs from the same memory.  Where only `[Add α] [Mul α]` and the
like are assumed the equality is bit for bit in any arithmetic.
-/

namespace StdBLAS
open Finset Witness
variable {α : Type}

/-- Row `i` as a vector view. -/
def MatV.row (A : MatV α) (i : Nat) : VecV α := ⟨⟨A.cols, fun j => A.addr i j⟩, A.acc⟩

theorem MatV.Holds.row {A : MatV α} {h : Heap α} {a : Nat → Nat → α} (hA : A.Holds h a) {i : Nat}
    (hi : i < A.rows) : (A.row i).Holds h fun j => a i j :=
  fun j hj => hA i j hi hj trivial

theorem MatV.row_cell {A : MatV α} {i b : Nat} (hi : i < A.rows) (hb : (A.row i).toVec.Cell b) :
    A.toMat.Cell b := by
  obtain ⟨j, hj, e⟩ := hb
  exact ⟨i, j, hi, hj, trivial, e⟩

theorem MatV.Holds.transposed {A : MatV α} {h : Heap α} {a : Nat → Nat → α} (hA : A.Holds h a) :
    A.transposed.Holds h fun i j => a j i :=
  fun i j hi hj _ => hA j i hj hi trivial

theorem MatV.Holds.conjugateTransposed [ConjOps α] {A : MatV α} {h : Heap α} {a : Nat → Nat → α}
    (hA : A.Holds h a) : A.conjugateTransposed.Holds h fun i j => ConjOps.conj (a j i) := by
  intro i j hi hj _
  obtain ⟨v, hv, e⟩ := hA j i hj hi trivial
  exact ⟨v, hv, congrArg ConjOps.conj e⟩

theorem transposed_apart {A : MatV α} {P : Nat → Prop} (hA : Apart A.toMat.Cell P) :
    Apart A.transposed.toMat.Cell P := by
  rintro b ⟨i, j, hi, hj, _, e⟩ hb
  exact hA b ⟨j, i, hj, hi, trivial, e⟩ hb

/-! ## Matrix-vector product and dot -/

/-- **C46** every element of `matrix_vector_product(A, x, y)` is the `dot` of a row with `x`. -/
theorem C46_gemv_rows [Add α] [Mul α] [Zero α] (A : MatV α) (x : VecV α) (y : Vec) (h : Heap α)
    (a : Nat → Nat → α) (f : Nat → α) (hA : A.Holds h a) (hx : x.Holds h f) (hy : y.Alloc h)
    (hrows : y.ext = A.rows) (hcols : A.cols ≤ x.ext) (hu : y.Unique)
    (hAy : Apart A.toMat.Cell y.Cell) (hxy : Apart x.toVec.Cell y.Cell) :
    Ends (gemv A x y) h fun _ h1 => ∀ i, i < y.ext →
      Ends (dot (A.row i) x 0) h fun r _ => h1 (y.addr i) = some r := by
  refine (C54_gemv A x y h a f hA hx hy hrows hcols hu hAy hxy).mono fun _ h1 hb i hi => ?_
  refine (C54_dot (A.row i) x 0 h _ f (hA.row (by omega)) hx hcols).mono ?_
  rintro r _ ⟨rfl, _⟩
  exact hb.1 i hi

example : Ends (gemv (A.view : MatV Term) x.view y) (heap Term) fun _ h1 => ∀ i, i < 3 →
    Ends (dot ((A.view : MatV Term).row i) x.view 0) (heap Term) fun r _ =>
      h1 (y.addr i) = some r :=
  C46_gemv_rows _ _ _ _ _ _ (mholdsV bA) (holdsV bx) (alloc by_) rfl le_rfl (by view_facts)
    (by view_facts) (by view_facts)

/-- **C46** every element of `matrix_vector_product(A, x, y, z)` is the `dot` of a row with `x`
with the element of `y` as initial value. -/
theorem C46_gemv_update_rows [Add α] [Mul α] (A : MatV α) (x y : VecV α) (z : Vec) (h : Heap α)
    (a : Nat → Nat → α) (f g : Nat → α) (hA : A.Holds h a) (hx : x.Holds h f) (hy : y.Holds h g)
    (hz : z.Alloc h) (hrows : z.ext = A.rows) (hcols : A.cols ≤ x.ext) (hye : A.rows ≤ y.ext)
    (hu : z.Unique) (hAz : Apart A.toMat.Cell z.Cell) (hxz : Apart x.toVec.Cell z.Cell)
    (hyz : y.toVec.Aligned z) :
    Ends (gemvUpdate A x y z) h fun _ h1 => ∀ i, i < z.ext →
      Ends (dot (A.row i) x (g i)) h fun r _ => h1 (z.addr i) = some r := by
  refine (C54_gemv_update A x y z h a f g hA hx hy hz hrows hcols hye hu hAz hxz hyz).mono
    fun _ h1 hb i hi => ?_
  refine (C54_dot (A.row i) x (g i) h _ f (hA.row (by omega)) hx hcols).mono ?_
  rintro r _ ⟨rfl, _⟩
  exact hb.1 i hi

example : Ends (gemvUpdate (A.view : MatV Term) x.view y.view y) (heap Term) fun _ h1 =>
    ∀ i, i < 3 → Ends (dot ((A.view : MatV Term).row i) x.view (vals Term y i)) (heap Term)
      fun r _ => h1 (y.addr i) = some r :=
  C46_gemv_update_rows _ _ _ _ _ _ _ _ (mholdsV bA) (holdsV bx) (holdsV by_) (alloc by_) rfl le_rfl
    le_rfl (by view_facts) (by view_facts) (by view_facts) (by view_facts)

/-- **C46** every element of `matrix_product(A, B, C)` is the `dot` of a row of `A` with a column
of `B`. -/
theorem C46_gemm_dots [Add α] [Mul α] [Zero α] (A B : MatV α) (C : Mat) (h : Heap α)
    (a b : Nat → Nat → α) (hA : A.Holds h a) (hB : B.Holds h b) (hC : C.Alloc h)
    (hr : C.rows = A.rows) (hk : A.cols = B.rows) (hc : C.cols = B.cols) (hu : C.Unique)
    (hAC : Apart A.toMat.Cell C.Cell) (hBC : Apart B.toMat.Cell C.Cell) :
    Ends (gemm A B C) h fun _ h1 => ∀ i j, i < C.rows → j < C.cols →
      Ends (dot (A.row i) (B.col j) 0) h fun r _ => h1 (C.addr i j) = some r := by
  refine (C54_gemm A B C h a b hA hB hC hr hk hc hu hAC hBC).mono fun _ h1 hb i j hi hj => ?_
  refine (C54_dot (A.row i) (B.col j) 0 h _ _ (hA.row (by omega)) (hB.col (by omega)) hk.le).mono ?_
  rintro r _ ⟨rfl, _⟩
  exact hb.1 i j hi hj trivial

example : Ends (gemm (T.view : MatV Term) W.view C) (heap Term) fun _ h1 => ∀ i j, i < 3 → j < 3 →
    Ends (dot ((T.view : MatV Term).row i) ((W.view : MatV Term).col j) 0) (heap Term) fun r _ =>
      h1 (C.addr i j) = some r :=
  C46_gemm_dots _ _ _ _ _ _ (mholdsV bT) (mholdsV bW) (malloc bC) rfl rfl rfl
    (by view_facts) (by view_facts) (by view_facts)

/-! ## Rank-1 update and matrix product -/

/-- **C46** `matrix_rank_1_update(x, y, A)` with column `x` and row `y` is the updating
`matrix_product` of the column and the row with inner size 1. -/
theorem C46_ger_gemm [Add α] [Mul α] (X Y : MatV α) (A : Mat) (h : Heap α) (p q a : Nat → Nat → α)
    (hX : X.Holds h p) (hY : Y.Holds h q) (hA : A.Holds h a) (hXr : X.rows = A.rows)
    (hXc : X.cols = 1) (hYr : Y.rows = 1) (hYc : Y.cols = A.cols) (hu : A.Unique)
    (hXA : Apart X.toMat.Cell A.Cell) (hYA : Apart Y.toMat.Cell A.Cell) :
    Ends (ger (X.col 0) (Y.row 0) A) h fun _ h1 =>
      Ends (gemmUpdate X Y A.view A) h fun _ h2 => h1 = h2 := by
  refine (C25_ger (X.col 0) (Y.row 0) A h _ _ a (hX.col (by omega)) (hY.row (by omega)) hA hXr.ge
    hYc.ge hu (fun b hb => hXA b (MatV.col_cell (by omega) hb))
    (fun b hb => hYA b (MatV.row_cell (by omega) hb))).mono fun _ h1 hb1 => ?_
  refine (C54_gemm_update X Y A.view A h p q a hX hY (fun i j hi hj hr => ⟨_, hA i j hi hj hr, rfl⟩)
    (fun i j hi hj hr => ⟨_, hA i j hi hj hr⟩) hXr.symm (by omega) hYc.symm le_rfl le_rfl hu hXA hYA
    (fun i j k l hi hj hk hl e => hu i j k l hi hj trivial hk hl trivial e)).mono fun _ h2 hb2 => ?_
  refine hb1.unique hb2 fun i j _ _ => ?_
  rw [hXc]
  rfl

/-- 3×1 times 1×2 -/
example : Ends (ger ((⟨3, 1, A.addr⟩ : Mat).view.col 0 : VecV Term)
      ((⟨1, 2, B.addr⟩ : Mat).view.row 0) T) (heap Term) fun _ h1 =>
    Ends (gemmUpdate (⟨3, 1, A.addr⟩ : Mat).view (⟨1, 2, B.addr⟩ : Mat).view T.view T) (heap Term)
      fun _ h2 => h1 = h2 :=
  C46_ger_gemm _ _ _ _ _ _ _
    (mholdsV fun i j hi hj => bA i j hi (by simp only [A] at *; omega))
    (mholdsV fun i j hi hj => bB i j (by simp only [B] at *; omega) (by simp only [B] at *; omega))
    (mholds bT) rfl rfl rfl rfl (by view_facts) (by view_facts) (by view_facts)

/-! ## Symmetric and Hermitian rank updates: one column -/

/-- **C46** `symmetric_matrix_rank_k_update` with one column *is* the rank-1 update. -/
theorem C46_syrk_one_column [Add α] [Mul α] (A : MatV α) (C : Mat) (t : Triangle)
    (hA : A.cols = 1) : syrk A C t = syr (A.col 0) C t := by
  unfold syrk syr
  simp only [hA, forUp_one, MatV.get_col (show 0 < A.cols by omega)]

/-- **C46** the same with `alpha`. -/
theorem C46_syrk_alpha_one_column [Add α] [Mul α] (alpha : α) (A : MatV α) (C : Mat) (t : Triangle)
    (hA : A.cols = 1) : syrkAlpha alpha A C t = syrAlpha alpha (A.col 0) C t := by
  unfold syrkAlpha syrAlpha
  simp only [hA, forUp_one, MatV.get_col (show 0 < A.cols by omega)]

/-- **C46** `hermitian_matrix_rank_k_update` with one column *is* the rank-1 update. -/
theorem C46_herk_one_column [Add α] [Mul α] [ConjOps α] (A : MatV α) (C : Mat) (t : Triangle)
    (hA : A.cols = 1) : herk A C t = her (A.col 0) C t := by
  unfold herk her
  simp only [hA, forUp_one, MatV.get_col (show 0 < A.cols by omega)]

/-- **C46** the same with `alpha`. -/
theorem C46_herk_alpha_one_column [Add α] [Mul α] [ConjOps α] (alpha : α) (A : MatV α) (C : Mat)
    (t : Triangle) (hA : A.cols = 1) : herkAlpha alpha A C t = herAlpha alpha (A.col 0) C t := by
  unfold herkAlpha herAlpha
  simp only [hA, forUp_one, MatV.get_col (show 0 < A.cols by omega)]

/-- **C46** `symmetric_matrix_rank_2k_update` with one column *is* the rank-2 update. -/
theorem C46_syr2k_one_column [Add α] [Mul α] (A B : MatV α) (C : Mat) (t : Triangle)
    (hA : A.cols = 1) (hB : B.cols = 1) : syr2k A B C t = syr2 (A.col 0) (B.col 0) C t := by
  unfold syr2k syr2
  simp only [hA, forUp_one, MatV.get_col (show 0 < A.cols by omega),
    MatV.get_col (show 0 < B.cols by omega)]

/-- **C46** `hermitian_matrix_rank_2k_update` with one column *is* the rank-2 update. -/
theorem C46_her2k_one_column [Add α] [Mul α] [ConjOps α] (A B : MatV α) (C : Mat) (t : Triangle)
    (hA : A.cols = 1) (hB : B.cols = 1) : her2k A B C t = her2 (A.col 0) (B.col 0) C t := by
  unfold her2k her2
  simp only [hA, forUp_one, MatV.get_col (show 0 < A.cols by omega),
    MatV.get_col (show 0 < B.cols by omega)]

example (t : Triangle) : syrk (⟨3, 1, fun i _ => i⟩ : Mat).view C t = syr (x.view : VecV Term) C t :=
  C46_syrk_one_column _ _ _ rfl
example (t : Triangle) : syrkAlpha (.int 5) (⟨3, 1, fun i _ => i⟩ : Mat).view C t =
    syrAlpha (.int 5) (x.view : VecV Term) C t := C46_syrk_alpha_one_column _ _ _ _ rfl
example (t : Triangle) : herk (⟨3, 1, fun i _ => i⟩ : Mat).view C t = her (x.view : VecV Term) C t :=
  C46_herk_one_column _ _ _ rfl
example (t : Triangle) : herkAlpha (.int 5) (⟨3, 1, fun i _ => i⟩ : Mat).view C t =
    herAlpha (.int 5) (x.view : VecV Term) C t := C46_herk_alpha_one_column _ _ _ _ rfl
example (t : Triangle) : syr2k (⟨3, 1, fun i _ => i⟩ : Mat).view
    (⟨3, 1, fun i _ => 10 + 2 * i⟩ : Mat).view C t = syr2 (x.view : VecV Term) y.view C t :=
  C46_syr2k_one_column _ _ _ _ rfl rfl
example (t : Triangle) : her2k (⟨3, 1, fun i _ => i⟩ : Mat).view
    (⟨3, 1, fun i _ => 10 + 2 * i⟩ : Mat).view C t = her2 (x.view : VecV Term) y.view C t :=
  C46_her2k_one_column _ _ _ _ rfl rfl

/-! ## Symmetric and Hermitian rank updates: the named triangle of the general update -/

/-- **C46** on its triangle, `symmetric_matrix_rank_1_update(x, A, t)` does what
`matrix_rank_1_update(x, x, A)` does. -/
theorem C46_syr_ger [Add α] [Mul α] (x : VecV α) (A : Mat) (t : Triangle) (h : Heap α)
    (f : Nat → α) (a : Nat → Nat → α) (hx : x.Holds h f) (hA : A.Holds h a)
    (hsq : A.rows = A.cols) (hxe : A.rows ≤ x.ext) (hu : A.Unique)
    (hxA : Apart x.toVec.Cell A.Cell) :
    Ends (syr x A t) h fun _ h1 => Ends (ger x x A) h fun _ h2 =>
      ∀ i j, i < A.rows → j < A.cols → t.region i j → h1 (A.addr i j) = h2 (A.addr i j) := by
  refine (C26_syr x A t h f a hx (fun i j hi hj _ => hA i j hi hj trivial) hsq hxe
    (fun i j k l hi hj _ hk hl _ e => hu i j k l hi hj trivial hk hl trivial e)
    (fun b hb ⟨i, j, hi, hj, _, e⟩ => hxA b hb ⟨i, j, hi, hj, trivial, e⟩)).mono fun _ h1 hb1 => ?_
  refine (C25_ger x x A h f f a hx hx hA hxe (by omega) hu hxA hxA).mono
    fun _ h2 hb2 i j hi hj hr => ?_
  rw [hb1.1 i j hi hj hr, hb2.1 i j hi hj trivial]

example (t : Triangle) : Ends (syr (x.view : VecV Term) A t) (heap Term) fun _ h1 =>
    Ends (ger (x.view : VecV Term) x.view A) (heap Term) fun _ h2 =>
      ∀ i j, i < 3 → j < 3 → t.region i j → h1 (A.addr i j) = h2 (A.addr i j) :=
  C46_syr_ger _ _ _ _ _ _ (holdsV bx) (mholds bA) rfl le_rfl (by view_facts) (by view_facts)

/-- **C46** on its triangle, `hermitian_matrix_rank_1_update(x, A, t)` does what
`matrix_rank_1_update_c(x, x, A)` does, if the diagonal of `A` is real. -/
theorem C46_her_gerc [Add α] [Mul α] [ConjOps α] (x : VecV α) (A : Mat) (t : Triangle)
    (h : Heap α) (f : Nat → α) (a : Nat → Nat → α) (hx : x.Holds h f) (hA : A.Holds h a)
    (hsq : A.rows = A.cols) (hxe : A.rows ≤ x.ext) (hu : A.Unique)
    (hxA : Apart x.toVec.Cell A.Cell) (hreal : ∀ i, i < A.rows → ConjOps.re (a i i) = a i i) :
    Ends (her x A t) h fun _ h1 => Ends (gerc x x A) h fun _ h2 =>
      ∀ i j, i < A.rows → j < A.cols → t.region i j → h1 (A.addr i j) = h2 (A.addr i j) := by
  refine (C26_her x A t h f a hx (fun i j hi hj _ => hA i j hi hj trivial) hsq hxe
    (fun i j k l hi hj _ hk hl _ e => hu i j k l hi hj trivial hk hl trivial e)
    (fun b hb ⟨i, j, hi, hj, _, e⟩ => hxA b hb ⟨i, j, hi, hj, trivial, e⟩)).mono fun _ h1 hb1 => ?_
  refine (C25_gerc x x A h f f a hx hx hA hxe (by omega) hu hxA hxA).mono
    fun _ h2 hb2 i j hi hj hr => ?_
  rw [hb1.1 i j hi hj hr, hb2.1 i j hi hj trivial]
  beta_reduce
  by_cases e : i = j
  · subst e; rw [if_pos rfl, hreal i hi]
  · rw [if_neg e]

theorem vals_real (M : Mat) : ∀ i, i < M.rows → ConjOps.re (mvals ℂ M i i) = mvals ℂ M i i := by
  intro i _; simp [mvals, re_complex]

example (t : Triangle) : Ends (her (x.view : VecV ℂ) A t) (heap ℂ) fun _ h1 =>
    Ends (gerc (x.view : VecV ℂ) x.view A) (heap ℂ) fun _ h2 =>
      ∀ i j, i < 3 → j < 3 → t.region i j → h1 (A.addr i j) = h2 (A.addr i j) :=
  C46_her_gerc _ _ _ _ _ _ (holdsV bx) (mholds bA) rfl le_rfl (by view_facts) (by view_facts)
    (vals_real A)

/-- **C46** on its triangle, `symmetric_matrix_rank_2_update(x, y, A, t)` does what
`matrix_rank_1_update(x, y, A)` followed by `matrix_rank_1_update(y, x, A)` does. -/
theorem C46_syr2_ger [AddSemigroup α] [Mul α] (x y : VecV α) (A : Mat) (t : Triangle) (h : Heap α)
    (f g : Nat → α) (a : Nat → Nat → α) (hx : x.Holds h f) (hy : y.Holds h g) (hA : A.Holds h a)
    (hsq : A.rows = A.cols) (hxe : A.rows ≤ x.ext) (hye : A.rows ≤ y.ext) (hu : A.Unique)
    (hxA : Apart x.toVec.Cell A.Cell) (hyA : Apart y.toVec.Cell A.Cell) :
    Ends (syr2 x y A t) h fun _ h1 => Ends (do ger x y A; ger y x A) h fun _ h2 =>
      ∀ i j, i < A.rows → j < A.cols → t.region i j → h1 (A.addr i j) = h2 (A.addr i j) := by
  have sub : ∀ {P : Nat → Prop}, Apart P A.Cell → Apart P (A.CellOn t.region) :=
    fun hP b hb ⟨i, j, hi, hj, _, e⟩ => hP b hb ⟨i, j, hi, hj, trivial, e⟩
  refine (C27_syr2 x y A t h f g a hx hy (fun i j hi hj _ => hA i j hi hj trivial) hsq hxe hye
    (fun i j k l hi hj _ hk hl _ e => hu i j k l hi hj trivial hk hl trivial e)
    (sub hxA) (sub hyA)).mono fun _ h1 hb1 => ?_
  rw [ends_bind]
  refine (C25_ger x y A h f g a hx hy hA hxe (by omega) hu hxA hyA).mono fun _ h' hb' => ?_
  refine (C25_ger y x A h' g f _ (hy.of_onlyChanges hyA hb'.2) (hx.of_onlyChanges hxA hb'.2) hb'.1
    hye (by omega) hu hyA hxA).mono fun _ h2 hb2 i j hi hj hr => ?_
  rw [hb1.1 i j hi hj hr, hb2.1 i j hi hj trivial]
  beta_reduce
  rw [add_assoc]

example (t : Triangle) : Ends (syr2 (x.view : VecV ℤ) y.view A t) (heap ℤ) fun _ h1 =>
    Ends (do ger (x.view : VecV ℤ) y.view A; ger y.view x.view A) (heap ℤ) fun _ h2 =>
      ∀ i j, i < 3 → j < 3 → t.region i j → h1 (A.addr i j) = h2 (A.addr i j) :=
  C46_syr2_ger _ _ _ _ _ _ _ _ (holdsV bx) (holdsV by_) (mholds bA) rfl le_rfl le_rfl
    (by view_facts) (by view_facts) (by view_facts)

/-- **C46** on its triangle, `symmetric_matrix_rank_k_update(A, C, t)` does what the updating
`matrix_product(A, transposed(A), C, C)` does. -/
theorem C46_syrk_gemm [Add α] [Mul α] (A : MatV α) (C : Mat) (t : Triangle) (h : Heap α)
    (a c : Nat → Nat → α) (hA : A.Holds h a) (hC : C.Holds h c) (hsq : C.rows = C.cols)
    (hAr : A.rows = C.rows) (hu : C.Unique) (hAC : Apart A.toMat.Cell C.Cell) :
    Ends (syrk A C t) h fun _ h1 => Ends (gemmUpdate A A.transposed C.view C) h fun _ h2 =>
      ∀ i j, i < C.rows → j < C.cols → t.region i j → h1 (C.addr i j) = h2 (C.addr i j) := by
  refine (C54_syrk A C t h a c hA (fun i j hi hj _ => hC i j hi hj trivial) hsq hAr.ge
    (fun i j k l hi hj _ hk hl _ e => hu i j k l hi hj trivial hk hl trivial e)
    (fun b hb ⟨i, j, hi, hj, _, e⟩ => hAC b hb ⟨i, j, hi, hj, trivial, e⟩)).mono fun _ h1 hb1 => ?_
  refine (C54_gemm_update A A.transposed C.view C h a _ c hA hA.transposed
    (fun i j hi hj hr => ⟨_, hC i j hi hj hr, rfl⟩) (fun i j hi hj hr => ⟨_, hC i j hi hj hr⟩)
    hAr.symm rfl (hsq.symm.trans hAr.symm) le_rfl le_rfl hu hAC (transposed_apart hAC)
    (fun i j k l hi hj hk hl e => hu i j k l hi hj trivial hk hl trivial e)).mono
    fun _ h2 hb2 i j hi hj hr => ?_
  rw [hb1.1 i j hi hj hr, hb2.1 i j hi hj trivial]

example (t : Triangle) : Ends (syrk (T.view : MatV Term) C t) (heap Term) fun _ h1 =>
    Ends (gemmUpdate (T.view : MatV Term) (T.view : MatV Term).transposed C.view C) (heap Term)
      fun _ h2 => ∀ i j, i < 3 → j < 3 → t.region i j → h1 (C.addr i j) = h2 (C.addr i j) :=
  C46_syrk_gemm _ _ _ _ _ _ (mholdsV bT) (mholds bC) rfl rfl (by view_facts) (by view_facts)

/-- **C46** on its triangle, `hermitian_matrix_rank_k_update(A, C, t)` does what the updating
`matrix_product(A, conjugate_transposed(A), C, C)` does, if the diagonal of `C` is real. -/
theorem C46_herk_gemm [Add α] [Mul α] [ConjOps α] (A : MatV α) (C : Mat) (t : Triangle)
    (h : Heap α) (a c : Nat → Nat → α) (hA : A.Holds h a) (hC : C.Holds h c)
    (hsq : C.rows = C.cols) (hAr : A.rows = C.rows) (hu : C.Unique)
    (hAC : Apart A.toMat.Cell C.Cell) (hreal : ∀ i, i < C.rows → ConjOps.re (c i i) = c i i) :
    Ends (herk A C t) h fun _ h1 => Ends (gemmUpdate A A.conjugateTransposed C.view C) h fun _ h2 =>
      ∀ i j, i < C.rows → j < C.cols → t.region i j → h1 (C.addr i j) = h2 (C.addr i j) := by
  refine (C54_herk A C t h a c hA (fun i j hi hj _ => hC i j hi hj trivial) hsq hAr.ge
    (fun i j k l hi hj _ hk hl _ e => hu i j k l hi hj trivial hk hl trivial e)
    (fun b hb ⟨i, j, hi, hj, _, e⟩ => hAC b hb ⟨i, j, hi, hj, trivial, e⟩)).mono fun _ h1 hb1 => ?_
  refine (C54_gemm_update A A.conjugateTransposed C.view C h a _ c hA hA.conjugateTransposed
    (fun i j hi hj hr => ⟨_, hC i j hi hj hr, rfl⟩) (fun i j hi hj hr => ⟨_, hC i j hi hj hr⟩)
    hAr.symm rfl (hsq.symm.trans hAr.symm) le_rfl le_rfl hu hAC (transposed_apart hAC)
    (fun i j k l hi hj hk hl e => hu i j k l hi hj trivial hk hl trivial e)).mono
    fun _ h2 hb2 i j hi hj hr => ?_
  rw [hb1.1 i j hi hj hr, hb2.1 i j hi hj trivial]
  beta_reduce
  by_cases e : i = j
  · subst e; rw [if_pos rfl, hreal i hi]
  · rw [if_neg e]

example (t : Triangle) : Ends (herk (T.view : MatV ℂ) C t) (heap ℂ) fun _ h1 =>
    Ends (gemmUpdate (T.view : MatV ℂ) (T.view : MatV ℂ).conjugateTransposed C.view C) (heap ℂ)
      fun _ h2 => ∀ i j, i < 3 → j < 3 → t.region i j → h1 (C.addr i j) = h2 (C.addr i j) :=
  C46_herk_gemm _ _ _ _ _ _ (mholdsV bT) (mholds bC) rfl rfl (by view_facts) (by view_facts)
    (vals_real C)

/-! ## Structured matrix products and their matrix-vector products -/

theorem col_apart {B : MatV α} {P : Nat → Prop} (hB : Apart B.toMat.Cell P) {j : Nat}
    (hj : j < B.cols) : Apart (B.col j).toVec.Cell P :=
  fun b hb => hB b (MatV.col_cell hj hb)

theorem apart_col {C : Mat} {P : Nat → Prop} (hC : Apart P C.Cell) {j : Nat} (hj : j < C.cols) :
    Apart P (C.col j).Cell :=
  fun b hb hb' => hC b hb (Mat.col_cell hj hb')

/-- **C46** column `j` of `symmetric_matrix_product(A, t, B, C)` is
`symmetric_matrix_vector_product` of column `j` of `B`. -/
theorem C46_symm_columns [Add α] [Mul α] [Zero α] (A : MatV α) (t : Triangle) (B : MatV α)
    (C : Mat) (h : Heap α) (a b : Nat → Nat → α) (hA : A.HoldsOn h t.region a) (hB : B.Holds h b)
    (hC : C.Alloc h) (hsq : A.rows = A.cols) (hr : C.rows = A.rows) (hk : A.cols = B.rows)
    (hc : C.cols = B.cols) (hu : C.Unique) (hAC : Apart (A.toMat.CellOn t.region) C.Cell)
    (hBC : Apart B.toMat.Cell C.Cell) :
    Ends (symmLeft A t B C) h fun _ h1 => ∀ j, j < C.cols →
      Ends (symv A t (B.col j) (C.col j)) h fun _ h2 =>
        ∀ i, i < C.rows → h1 (C.addr i j) = h2 (C.addr i j) := by
  refine (C54_symm_left A t B C h a b hA hB hC hsq hr hk hc hu hAC hBC).mono fun _ h1 hb1 j hj => ?_
  refine (C54_symv A t (B.col j) (C.col j) h a _ hA (hB.col (by omega)) (hC.col hj) hsq hr.symm hk.le
    (hu.col hj) (apart_col hAC hj) (col_apart (fun b hb hb' => hBC b hb (Mat.col_cell hj hb'))
    (by omega))).mono fun _ h2 hb2 i hi => ?_
  rw [hb1.1 i j hi hj trivial]
  exact (hb2.1 i hi).symm

example (t : Triangle) : Ends (symmLeft (A.view : MatV Term) t T.view ⟨3, 2, C.addr⟩) (heap Term)
    fun _ h1 => ∀ j, j < 2 →
      Ends (symv (A.view : MatV Term) t ((T.view : MatV Term).col j)
        ((⟨3, 2, C.addr⟩ : Mat).col j)) (heap Term) fun _ h2 =>
        ∀ i, i < 3 → h1 (C.addr i j) = h2 (C.addr i j) :=
  C46_symm_columns _ _ _ _ _ _ _ (mholdsV bA) (mholdsV bT)
    (malloc fun i j hi hj => bC i j hi (by simp only [C] at *; omega)) rfl rfl rfl rfl
    (by view_facts) (by view_facts) (by view_facts)

/-- **C46** column `j` of `hermitian_matrix_product(A, t, B, C)` is
`hermitian_matrix_vector_product` of column `j` of `B`. -/
theorem C46_hemm_columns [Add α] [Mul α] [Zero α] [ConjOps α] (A : MatV α) (t : Triangle)
    (B : MatV α) (C : Mat) (h : Heap α) (a b : Nat → Nat → α) (hA : A.HoldsOn h t.region a)
    (hB : B.Holds h b) (hC : C.Alloc h) (hsq : A.rows = A.cols) (hr : C.rows = A.rows)
    (hk : A.cols = B.rows) (hc : C.cols = B.cols) (hu : C.Unique)
    (hAC : Apart (A.toMat.CellOn t.region) C.Cell) (hBC : Apart B.toMat.Cell C.Cell) :
    Ends (hemmLeft A t B C) h fun _ h1 => ∀ j, j < C.cols →
      Ends (hemv A t (B.col j) (C.col j)) h fun _ h2 =>
        ∀ i, i < C.rows → h1 (C.addr i j) = h2 (C.addr i j) := by
  refine (C54_hemm_left A t B C h a b hA hB hC hsq hr hk hc hu hAC hBC).mono fun _ h1 hb1 j hj => ?_
  refine (C54_hemv A t (B.col j) (C.col j) h a _ hA (hB.col (by omega)) (hC.col hj) hsq hr.symm hk.le
    (hu.col hj) (apart_col hAC hj) (col_apart (fun b hb hb' => hBC b hb (Mat.col_cell hj hb'))
    (by omega))).mono fun _ h2 hb2 i hi => ?_
  rw [hb1.1 i j hi hj trivial]
  exact (hb2.1 i hi).symm

example (t : Triangle) : Ends (hemmLeft (A.view : MatV Term) t T.view ⟨3, 2, C.addr⟩) (heap Term)
    fun _ h1 => ∀ j, j < 2 →
      Ends (hemv (A.view : MatV Term) t ((T.view : MatV Term).col j)
        ((⟨3, 2, C.addr⟩ : Mat).col j)) (heap Term) fun _ h2 =>
        ∀ i, i < 3 → h1 (C.addr i j) = h2 (C.addr i j) :=
  C46_hemm_columns _ _ _ _ _ _ _ (mholdsV bA) (mholdsV bT)
    (malloc fun i j hi hj => bC i j hi (by simp only [C] at *; omega)) rfl rfl rfl rfl
    (by view_facts) (by view_facts) (by view_facts)

/-- **C46** column `j` of `triangular_matrix_product(A, t, d, B, C)` is
`triangular_matrix_vector_product` of column `j` of `B`. (Here addition must be commutative and
associative: with an implicit unit diagonal the two add the diagonal term at different places.) -/
theorem C46_trmm_columns [NonAssocSemiring α] (A : MatV α) (t : Triangle) (d : Diag) (B : MatV α)
    (C : Mat) (h : Heap α) (a b : Nat → Nat → α) (hA : A.HoldsOn h (triRegion t d) a)
    (hB : B.Holds h b) (hC : C.Alloc h) (hsq : A.rows = A.cols) (hr : C.rows = A.rows)
    (hk : A.cols = B.rows) (hc : C.cols = B.cols) (hu : C.Unique)
    (hAC : Apart (A.toMat.CellOn (triRegion t d)) C.Cell) (hBC : Apart B.toMat.Cell C.Cell) :
    Ends (trmmLeft A t d B C) h fun _ h1 => ∀ j, j < C.cols →
      Ends (trmv A t d (B.col j) (C.col j)) h fun _ h2 =>
        ∀ i, i < C.rows → h1 (C.addr i j) = h2 (C.addr i j) := by
  refine (C35_trmm_left A t d B C h a b hA hB hC hsq hr hk hc hu hAC hBC).mono fun _ h1 hb1 j hj => ?_
  refine (C19_trmv A t d (B.col j) (C.col j) h a _ hA (hB.col (by omega)) (hC.col hj) hsq hr.symm
    hk.le (hu.col hj) (apart_col hAC hj) (col_apart (fun b hb hb' => hBC b hb (Mat.col_cell hj hb'))
    (by omega))).mono fun _ h2 hb2 i hi => ?_
  rw [hb1.1 i j hi hj trivial]
  exact (hb2.1 i hi).symm

example (t : Triangle) (d : Diag) :
    Ends (trmmLeft (A.view : MatV ℤ) t d T.view ⟨3, 2, C.addr⟩) (heap ℤ)
    fun _ h1 => ∀ j, j < 2 →
      Ends (trmv (A.view : MatV ℤ) t d ((T.view : MatV ℤ).col j)
        ((⟨3, 2, C.addr⟩ : Mat).col j)) (heap ℤ) fun _ h2 =>
        ∀ i, i < 3 → h1 (C.addr i j) = h2 (C.addr i j) :=
  C46_trmm_columns _ _ _ _ _ _ _ _ (mholdsV bA) (mholdsV bT)
    (malloc fun i j hi hj => bC i j hi (by simp only [C] at *; omega)) rfl rfl rfl rfl
    (by view_facts) (by view_facts) (by view_facts)

/-- **C46** column `j` of the in-place `triangular_matrix_left_product(A, t, d, C)` is the in-place
`triangular_matrix_vector_product` of column `j`, for commutative multiplication. -/
theorem C46_trmm_in_place_columns [Add α] [CommMagma α] (A : MatV α) (t : Triangle) (d : Diag)
    (C : Mat) (h : Heap α) (a c : Nat → Nat → α) (hA : A.HoldsOn h (triRegion t d) a)
    (hC : C.Holds h c) (hsq : A.rows = A.cols) (hr : C.rows = A.rows) (hu : C.Unique)
    (hAC : Apart (A.toMat.CellOn (triRegion t d)) C.Cell) :
    Ends (trmmLeftInPlace A t d C) h fun _ h1 => ∀ j, j < C.cols →
      Ends (trmvInPlace A t d (C.col j)) h fun _ h2 =>
        ∀ i, i < C.rows → h1 (C.addr i j) = h2 (C.addr i j) := by
  refine (C54_trmm_left_in_place A t d C h a c hA hC hsq hr hu hAC).mono fun _ h1 hb1 j hj => ?_
  refine (C54_trmv_in_place A t d (C.col j) h a (fun i => c i j) hA
    (fun i hi => hC i j hi hj trivial) hsq hr.symm (hu.col hj) (apart_col hAC hj)).mono
    fun _ h2 hb2 i hi => ?_
  rw [hb1.1 i j hi hj trivial]
  refine Eq.trans ?_ (hb2.1 i hi).symm
  simp only [mul_comm (a i i)]

example (t : Triangle) (d : Diag) : Ends (trmmLeftInPlace (A.view : MatV ℤ) t d T) (heap ℤ)
    fun _ h1 => ∀ j, j < 2 → Ends (trmvInPlace (A.view : MatV ℤ) t d (T.col j)) (heap ℤ)
      fun _ h2 => ∀ i, i < 3 → h1 (T.addr i j) = h2 (T.addr i j) :=
  C46_trmm_in_place_columns _ _ _ _ _ _ _ (mholdsV bA) (mholds bT) rfl rfl (by view_facts)
    (by view_facts)

/-! ## Sums and norms -/

/-- **C46** the Euclidean norm is the root of `dotc` of the vector with itself (complex). -/
theorem C46_two_norm_dotc (x : VecV ℂ) (h : Heap ℂ) (f : Nat → ℂ) (hx : x.Holds h f) :
    Ends (vectorTwoNorm x 0) h fun r _ => Ends (dotc0 x x) h fun s _ =>
      (r : ℂ) ^ 2 = s ∧ 0 ≤ r := by
  refine (C04_two_norm x 0 h f hx).mono ?_
  rintro r _ ⟨rfl, _⟩
  refine (C02_dotc_self x h f hx).mono ?_
  rintro s _ ⟨rfl, hn⟩
  rw [zero_add]
  refine ⟨?_, Real.sqrt_nonneg _⟩
  rw [← Complex.ofReal_pow]
  exact congrArg _ (Real.sq_sqrt hn)

example : Ends (vectorTwoNorm (x.view : VecV ℂ) 0) (heap ℂ) fun r _ =>
    Ends (dotc0 (x.view : VecV ℂ) x.view) (heap ℂ) fun s _ => (r : ℂ) ^ 2 = s ∧ 0 ≤ r :=
  C46_two_norm_dotc _ _ _ (holdsV bx)

/-- **C46** for real elements `matrix_one_norm` is the largest `vector_abs_sum` of a column. -/
theorem C46_one_norm_columns (A : MatV ℝ) (init : ℝ) (h : Heap ℝ) (a : Nat → Nat → ℝ)
    (hA : A.Holds h a) (hr : A.rows ≠ 0) (hc : A.cols ≠ 0) :
    Ends (matrixOneNorm A init) h fun r _ =>
      (∃ j < A.cols, Ends (vectorAbsSum (A.col j) init) h fun s _ => r = s) ∧
      ∀ j < A.cols, Ends (vectorAbsSum (A.col j) init) h fun s _ => s ≤ r := by
  refine (C08_one_norm A init h a hA).mono ?_
  rintro r _ ⟨_, _, hmax⟩
  obtain ⟨⟨j, hj, e⟩, hle⟩ := hmax hr hc
  refine ⟨⟨j, hj, (C05_abs_sum_real (A.col j) init h _ (hA.col hj)).mono ?_⟩, fun j hj =>
    (C05_abs_sum_real (A.col j) init h _ (hA.col hj)).mono ?_⟩
  · rintro s _ ⟨rfl, _⟩; exact e
  · rintro s _ ⟨rfl, _⟩; exact hle j hj

example : Ends (matrixOneNorm (T.view : MatV ℝ) 5) (heap ℝ) fun r _ =>
    (∃ j < 2, Ends (vectorAbsSum ((T.view : MatV ℝ).col j) 5) (heap ℝ) fun s _ => r = s) ∧
      ∀ j < 2, Ends (vectorAbsSum ((T.view : MatV ℝ).col j) 5) (heap ℝ) fun s _ => s ≤ r :=
  C46_one_norm_columns _ _ _ _ (mholdsV bT) (by decide) (by decide)

/-- **C46** for real elements `matrix_inf_norm` is the largest `vector_abs_sum` of a row. -/
theorem C46_inf_norm_rows (A : MatV ℝ) (init : ℝ) (h : Heap ℝ) (a : Nat → Nat → ℝ)
    (hA : A.Holds h a) (hr : A.rows ≠ 0) (hc : A.cols ≠ 0) :
    Ends (matrixInfNorm A init) h fun r _ =>
      (∃ i < A.rows, Ends (vectorAbsSum (A.row i) init) h fun s _ => r = s) ∧
      ∀ i < A.rows, Ends (vectorAbsSum (A.row i) init) h fun s _ => s ≤ r := by
  refine (C08_inf_norm A init h a hA).mono ?_
  rintro r _ ⟨_, _, hmax⟩
  obtain ⟨⟨i, hi, e⟩, hle⟩ := hmax hr hc
  refine ⟨⟨i, hi, (C05_abs_sum_real (A.row i) init h _ (hA.row hi)).mono ?_⟩, fun i hi =>
    (C05_abs_sum_real (A.row i) init h _ (hA.row hi)).mono ?_⟩
  · rintro s _ ⟨rfl, _⟩; exact e
  · rintro s _ ⟨rfl, _⟩; exact hle i hi

example : Ends (matrixInfNorm (T.view : MatV ℝ) 5) (heap ℝ) fun r _ =>
    (∃ i < 3, Ends (vectorAbsSum ((T.view : MatV ℝ).row i) 5) (heap ℝ) fun s _ => r = s) ∧
      ∀ i < 3, Ends (vectorAbsSum ((T.view : MatV ℝ).row i) 5) (heap ℝ) fun s _ => s ≤ r :=
  C46_inf_norm_rows _ _ _ _ (mholdsV bT) (by decide) (by decide)

/-- **C46** `vector_idx_abs_max` of a real vector points at an element whose `vector_abs_sum` (of
that element alone) is largest, and the whole sum is at most `ext` times it. -/
theorem C46_abs_sum_idx_abs_max (sizeMax : Nat) (v : VecV ℝ) (h : Heap ℝ) (f : Nat → ℝ)
    (hv : v.Holds h f) (hne : v.ext ≠ 0) :
    Ends (vectorIdxAbsMax sizeMax v) h fun r _ => Ends (vectorAbsSum v 0) h fun s _ =>
      |f r| ≤ s ∧ s ≤ v.ext * |f r| := by
  refine (C06_idx_abs_max_real sizeMax v h f hv hne).mono ?_
  rintro r _ ⟨⟨hr, hmax, _⟩, _⟩
  refine (C05_abs_sum_real v 0 h f hv).mono ?_
  rintro s _ ⟨rfl, _⟩
  rw [zero_add]
  constructor
  · exact single_le_sum (f := fun k => |f k|) (fun k _ => abs_nonneg _) (mem_range.mpr hr)
  · refine (sum_le_card_nsmul _ _ _ fun k hk => hmax k (mem_range.mp hk)).trans ?_
    rw [card_range, nsmul_eq_mul]

example : Ends (vectorIdxAbsMax 255 (x.view : VecV ℝ)) (heap ℝ) fun r _ =>
    Ends (vectorAbsSum (x.view : VecV ℝ) 0) (heap ℝ) fun s _ =>
      |vals ℝ x r| ≤ s ∧ s ≤ (3 : ℕ) * |vals ℝ x r| :=
  C46_abs_sum_idx_abs_max _ _ _ _ (holdsV bx) (by decide)

end StdBLAS

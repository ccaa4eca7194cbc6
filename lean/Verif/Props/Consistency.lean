import Verif.Props.Blas2Products
import Verif.Props.Blas3Solve
import Verif.Props.ViewAlgorithms
import Verif.Props.RankUpdates
import Verif.Props.EvaluationOrder

/-!
# Property C46: consistency between levels

`Mat.col` / `MatV.col` is column `j` of a matrix as a vector view: same cells, same accessor.
Two runs are compared from the same memory `h`: `h1` is the memory in which the first ends,
`h2` the memory in which the second ends.  Where no algebraic structure is assumed on the
element type the equality is bit for bit in any arithmetic, also in floating point.
-/

namespace StdBLAS
open Finset Witness
variable {α : Type}

theorem forUp_one (f : Nat → Prog α Unit) : forUp 0 1 f = f 0 := by
  show (Prog.seq (f 0) fun _ => Prog.ret ()) = f 0
  funext h
  unfold Prog.seq Prog.ret
  cases f 0 h with
  | error e => rfl
  | ok r => rfl

theorem MatV.Holds.col {B : MatV α} {h : Heap α} {b : Nat → Nat → α} (hB : B.Holds h b) {j : Nat}
    (hj : j < B.cols) : (B.col j).Holds h fun i => b i j :=
  fun i hi => hB i j hi hj trivial

theorem Mat.Alloc.col {C : Mat} {h : Heap α} (hC : C.Alloc h) {j : Nat} (hj : j < C.cols) :
    (C.col j).Alloc h := fun i hi => hC i j hi hj trivial

theorem MatV.col_cell {B : MatV α} {j a : Nat} (hj : j < B.cols) (ha : (B.col j).toVec.Cell a) :
    B.toMat.Cell a := Mat.col_cell (C := B.toMat) hj ha

/-! ## Matrix product and matrix-vector product -/

/-- **C46** with one column, `matrix_product` *is* `matrix_vector_product` on the columns: the
same reads and writes in the same order, in every memory (also when it fails). -/
theorem C46_gemm_one_column [Add α] [Mul α] [Zero α] (A B : MatV α) (C : Mat)
    (hr : C.rows = A.rows) (hB : B.cols = 1) (hC : C.cols = 1) :
    gemm A B C = gemv A (B.col 0) (C.col 0) := by
  unfold gemm gemv
  rw [hr, hC]
  refine forUp_congr fun i _ _ => ?_
  rw [forUp_one]
  simp only [MatV.get_col (show 0 < B.cols by omega), Mat.addTo_col (show 0 < C.cols by omega),
    Mat.set_col (show 0 < C.cols by omega)]

example : gemm (A.view : MatV ℤ) (⟨3, 1, fun i _ => i⟩ : Mat).view ⟨3, 1, fun i _ => 10 + 2 * i⟩ =
    gemv A.view x.view y := C46_gemm_one_column _ _ _ rfl rfl rfl

/-- **C46** the same for the updating product. -/
theorem C46_gemm_update_one_column [Add α] [Mul α] (A B E : MatV α) (C : Mat)
    (hr : C.rows = A.rows) (hB : B.cols = 1) (hE : E.cols = 1) (hC : C.cols = 1) :
    gemmUpdate A B E C = gemvUpdate A (B.col 0) (E.col 0) (C.col 0) := by
  unfold gemmUpdate gemvUpdate
  rw [hr, hC]
  refine forUp_congr fun i _ _ => ?_
  rw [forUp_one]
  simp only [MatV.get_col (show 0 < B.cols by omega), MatV.get_col (show 0 < E.cols by omega),
    Mat.addTo_col (show 0 < C.cols by omega), Mat.set_col (show 0 < C.cols by omega)]

example : gemmUpdate (A.view : MatV ℤ) (⟨3, 1, fun i _ => i⟩ : Mat).view
      (⟨3, 1, fun i _ => 10 + 2 * i⟩ : Mat).view ⟨3, 1, fun i _ => 22 - i⟩ =
    gemvUpdate A.view x.view y.view z := C46_gemm_update_one_column _ _ _ _ rfl rfl rfl rfl

/-- **C46** each column of `matrix_product(A, B, C)` holds what
`matrix_vector_product(A, column of B, column of C)` would have put there. -/
theorem C46_gemm_columns [Add α] [Mul α] [Zero α] (A B : MatV α) (C : Mat) (h : Heap α)
    (a b : Nat → Nat → α) (hA : A.Holds h a) (hB : B.Holds h b) (hC : C.Alloc h)
    (hr : C.rows = A.rows) (hk : A.cols = B.rows) (hc : C.cols = B.cols) (hu : C.Unique)
    (hAC : Apart A.toMat.Cell C.Cell) (hBC : Apart B.toMat.Cell C.Cell) :
    Ends (gemm A B C) h fun _ h1 => ∀ j, j < C.cols →
      Ends (gemv A (B.col j) (C.col j)) h fun _ h2 =>
        ∀ i, i < C.rows → h1 (C.addr i j) = h2 (C.addr i j) := by
  refine (gemm_fold hA hB hC hr.le hk.le hc.le hu hAC hBC).mono fun _ h1 hb1 j hj => ?_
  have hj' : j < B.cols := by omega
  refine (gemv_fold A (B.col j) (C.col j) h a _ hA (hB.col hj') (hC.col hj) hr hk.le (hu.col hj)
    (fun p hp hp' => hAC p hp (Mat.col_cell hj hp'))
    (fun p hp hp' => hBC p (MatV.col_cell hj' hp) (Mat.col_cell hj hp'))).mono
    fun _ h2 hb2 i hi => ?_
  rw [hb1.1 i j hi hj trivial]
  exact (hb2.1 i hi).symm

example : Ends (gemm (T.view : MatV ℤ) W.view C) (heap ℤ) fun _ h1 => ∀ j, j < 3 →
    Ends (gemv (T.view : MatV ℤ) (W.view.col j) (C.col j)) (heap ℤ) fun _ h2 =>
      ∀ i, i < 3 → h1 (C.addr i j) = h2 (C.addr i j) :=
  C46_gemm_columns _ _ _ _ _ _ (mholdsV bT) (mholdsV bW) (malloc bC) rfl rfl rfl
    (by view_facts) (by view_facts) (by view_facts)

/-! ## Triangular solve -/

/-- **C46** with one right-hand side, `triangular_matrix_matrix_left_solve` *is*
`triangular_matrix_vector_solve` on the columns. -/
theorem C46_trsm_left_one_column [Sub α] [Mul α] [Div α] (A : MatV α) (t : Triangle) (d : Diag)
    (B : MatV α) (X : Mat) (hsq : A.rows = A.cols) (hB : B.cols = 1) (hX : X.cols = 1) :
    trsmLeft A t d B X = trsv (· / ·) A t d (B.col 0) (X.col 0) := by
  rw [trsmLeft_cols A t d B X hsq (hX.trans hB.symm), hX, forUp_one]

example (t : Triangle) (d : Diag) : trsmLeft (A.view : MatV ℚ) t d
      (⟨3, 1, fun i _ => i⟩ : Mat).view ⟨3, 1, fun i _ => 10 + 2 * i⟩ =
    trsv (· / ·) A.view t d x.view y := C46_trsm_left_one_column _ _ _ _ _ rfl rfl rfl

/-- **C46** each column of `triangular_matrix_matrix_left_solve(A, t, d, B, X)` holds what
`triangular_matrix_vector_solve(A, t, d, column of B, column of X)` would have put there.
`B` may be `X`. -/
theorem C46_trsm_left_columns [Sub α] [Mul α] [Div α] (A : MatV α) (t : Triangle) (d : Diag)
    (B : MatV α) (X : Mat) (h : Heap α) (a b : Nat → Nat → α)
    (hA : A.HoldsOn h (triRegion t d) a) (hB : B.Holds h b) (hX : X.Alloc h)
    (hsq : A.rows = A.cols) (hr : X.rows = A.rows) (hBr : B.rows = A.rows) (hc : X.cols = B.cols)
    (hu : X.Unique) (hAX : Apart (A.toMat.CellOn (triRegion t d)) X.Cell)
    (hBX : B.toMat.Aligned X) :
    Ends (trsmLeft A t d B X) h fun _ h1 => ∀ j, j < X.cols →
      Ends (trsv (· / ·) A t d (B.col j) (X.col j)) h fun _ h2 =>
        ∀ i, i < X.rows → h1 (X.addr i j) = h2 (X.addr i j) := by
  refine (trsmLeft_fold hA hB hX hsq hr.symm hBr.ge hc hu hAX hBX).mono ?_
  rintro _ h1 ⟨f, hb1, ef⟩ j hj
  have hj' : j < B.cols := by omega
  refine (trsv_fold _ hA (B := B.col j) (X := X.col j) (hB.col hj') (hX.col hj) hsq hr.symm hBr.ge
    (hu.col hj) (fun p hp hp' => hAX p hp (Mat.col_cell hj hp')) ?_).mono ?_
  · intro i k hi hk e
    exact (hBX i j k j hi hj' hk hj e).1
  · rintro _ h2 ⟨v, hb2, ev⟩ i hi
    have e : f i j = v i := by
      have ef' := ef j hj
      rw [hsq] at ef' ev
      exact subRow_unique (v := fun i => f i j) ef' ev i (by omega)
    rw [hb1.1 i j hi hj trivial, e]
    exact (hb2.1 i hi).symm

example (t : Triangle) (d : Diag) : Ends (trsmLeft (A.view : MatV ℚ) t d T.view T) (heap ℚ)
    fun _ h1 => ∀ j, j < 2 →
    Ends (trsv (· / ·) (A.view : MatV ℚ) t d (T.view.col j) (T.col j)) (heap ℚ) fun _ h2 =>
      ∀ i, i < 3 → h1 (T.addr i j) = h2 (T.addr i j) :=
  C46_trsm_left_columns _ _ _ _ _ _ _ _ (mholdsV bA) (mholdsV bT) (malloc bT) rfl rfl rfl rfl
    (by view_facts) (by view_facts) (by view_facts)

/-! ## Structured and general matrix-vector products -/

/-- **C46** `symmetric_matrix_vector_product(A, t, x, y)`: the same final memory as the general product run on a matrix `F` that stores
the full matrix. -/
theorem C46_symv_full [Add α] [Mul α] [Zero α] (A F : MatV α) (t : Triangle)
    (x : VecV α) (y : Vec) (h : Heap α) (a : Nat → Nat → α) (f : Nat → α)
    (hA : A.HoldsOn h t.region a) (hF : F.Holds h (symOf t a)) (hx : x.Holds h f)
    (hy : y.Alloc h) (hsq : A.rows = A.cols) (hext : A.rows = y.ext) (hxe : A.cols ≤ x.ext)
    (hFr : F.rows = A.rows) (hFc : F.cols = A.cols) (hu : y.Unique)
    (hAy : Apart (A.toMat.CellOn t.region) y.Cell) (hFy : Apart F.toMat.Cell y.Cell)
    (hxy : Apart x.toVec.Cell y.Cell) :
    Ends (symv A t x y) h fun _ h1 => Ends (gemv F x y) h fun _ h2 => h1 = h2 := by
  refine (C54_symv A t x y h a f hA hx hy hsq hext hxe hu hAy hxy).mono fun _ h1 hb1 => ?_
  refine (C54_gemv F x y h _ f hF hx hy (by omega) (by omega) hu hFy hxy).mono fun _ h2 hb2 => ?_
  exact hb1.unique hb2 fun i _ => by rw [hFc]

/-- **C46** `symmetric_matrix_vector_product(A, t, x, y, z)`: the same final memory as the general product run on a matrix `F` that stores
the full matrix. -/
theorem C46_symv_update_full [Add α] [Mul α] (A F : MatV α) (t : Triangle)
    (x y : VecV α) (z : Vec) (h : Heap α) (a : Nat → Nat → α) (f g : Nat → α)
    (hA : A.HoldsOn h t.region a) (hF : F.Holds h (symOf t a)) (hx : x.Holds h f)
    (hy : y.Holds h g) (hz : z.Alloc h) (hsq : A.rows = A.cols) (hext : A.rows = z.ext) (hxe : A.cols ≤ x.ext)
    (hye : A.rows ≤ y.ext) (hFr : F.rows = A.rows) (hFc : F.cols = A.cols) (hu : z.Unique)
    (hAz : Apart (A.toMat.CellOn t.region) z.Cell) (hFz : Apart F.toMat.Cell z.Cell)
    (hxz : Apart x.toVec.Cell z.Cell) (hyz : y.toVec.Aligned z) :
    Ends (symvUpdate A t x y z) h fun _ h1 => Ends (gemvUpdate F x y z) h fun _ h2 => h1 = h2 := by
  refine (C54_symv_update A t x y z h a f g hA hx hy hz hsq hext hxe hye hu hAz hxz hyz).mono fun _ h1 hb1 => ?_
  refine (C54_gemv_update F x y z h _ f g hF hx hy hz (by omega) (by omega) (by omega) hu hFz hxz
    hyz).mono fun _ h2 hb2 => ?_
  exact hb1.unique hb2 fun i _ => by rw [hFc]

/-- **C46** `hermitian_matrix_vector_product(A, t, x, y)`: the same final memory as the general product run on a matrix `F` that stores
the full matrix. -/
theorem C46_hemv_full [Add α] [Mul α] [Zero α] [ConjOps α] (A F : MatV α) (t : Triangle)
    (x : VecV α) (y : Vec) (h : Heap α) (a : Nat → Nat → α) (f : Nat → α)
    (hA : A.HoldsOn h t.region a) (hF : F.Holds h (hermOf t a)) (hx : x.Holds h f)
    (hy : y.Alloc h) (hsq : A.rows = A.cols) (hext : A.rows = y.ext) (hxe : A.cols ≤ x.ext)
    (hFr : F.rows = A.rows) (hFc : F.cols = A.cols) (hu : y.Unique)
    (hAy : Apart (A.toMat.CellOn t.region) y.Cell) (hFy : Apart F.toMat.Cell y.Cell)
    (hxy : Apart x.toVec.Cell y.Cell) :
    Ends (hemv A t x y) h fun _ h1 => Ends (gemv F x y) h fun _ h2 => h1 = h2 := by
  refine (C54_hemv A t x y h a f hA hx hy hsq hext hxe hu hAy hxy).mono fun _ h1 hb1 => ?_
  refine (C54_gemv F x y h _ f hF hx hy (by omega) (by omega) hu hFy hxy).mono fun _ h2 hb2 => ?_
  exact hb1.unique hb2 fun i _ => by rw [hFc]

/-- **C46** `hermitian_matrix_vector_product(A, t, x, y, z)`: the same final memory as the general product run on a matrix `F` that stores
the full matrix. -/
theorem C46_hemv_update_full [Add α] [Mul α] [ConjOps α] (A F : MatV α) (t : Triangle)
    (x y : VecV α) (z : Vec) (h : Heap α) (a : Nat → Nat → α) (f g : Nat → α)
    (hA : A.HoldsOn h t.region a) (hF : F.Holds h (hermOf t a)) (hx : x.Holds h f)
    (hy : y.Holds h g) (hz : z.Alloc h) (hsq : A.rows = A.cols) (hext : A.rows = z.ext) (hxe : A.cols ≤ x.ext)
    (hye : A.rows ≤ y.ext) (hFr : F.rows = A.rows) (hFc : F.cols = A.cols) (hu : z.Unique)
    (hAz : Apart (A.toMat.CellOn t.region) z.Cell) (hFz : Apart F.toMat.Cell z.Cell)
    (hxz : Apart x.toVec.Cell z.Cell) (hyz : y.toVec.Aligned z) :
    Ends (hemvUpdate A t x y z) h fun _ h1 => Ends (gemvUpdate F x y z) h fun _ h2 => h1 = h2 := by
  refine (C54_hemv_update A t x y z h a f g hA hx hy hz hsq hext hxe hye hu hAz hxz hyz).mono fun _ h1 hb1 => ?_
  refine (C54_gemv_update F x y z h _ f g hF hx hy hz (by omega) (by omega) (by omega) hu hFz hxz
    hyz).mono fun _ h2 hb2 => ?_
  exact hb1.unique hb2 fun i _ => by rw [hFc]

/-- **C46** `triangular_matrix_vector_product(A, t, d, x, y)`: the same final memory as the general product run on a matrix `F` that stores
the full matrix. -/
theorem C46_trmv_full [NonAssocSemiring α] (A F : MatV α) (t : Triangle) (d : Diag)
    (x : VecV α) (y : Vec) (h : Heap α) (a : Nat → Nat → α) (f : Nat → α)
    (hA : A.HoldsOn h (triRegion t d) a) (hF : F.Holds h (triOf t d a)) (hx : x.Holds h f)
    (hy : y.Alloc h) (hsq : A.rows = A.cols) (hext : A.rows = y.ext) (hxe : A.cols ≤ x.ext)
    (hFr : F.rows = A.rows) (hFc : F.cols = A.cols) (hu : y.Unique)
    (hAy : Apart (A.toMat.CellOn (triRegion t d)) y.Cell) (hFy : Apart F.toMat.Cell y.Cell)
    (hxy : Apart x.toVec.Cell y.Cell) :
    Ends (trmv A t d x y) h fun _ h1 => Ends (gemv F x y) h fun _ h2 => h1 = h2 := by
  refine (C19_trmv A t d x y h a f hA hx hy hsq hext hxe hu hAy hxy).mono fun _ h1 hb1 => ?_
  refine (C16_gemv F x y h _ f hF hx hy (by omega) (by omega) hu hFy hxy).mono fun _ h2 hb2 => ?_
  exact hb1.unique hb2 fun i _ => by rw [hFc]; rfl

/-- **C46** `triangular_matrix_vector_product(A, t, d, x, y, z)`: the same final memory as the general product run on a matrix `F` that stores
the full matrix. -/
theorem C46_trmv_update_full [NonAssocSemiring α] (A F : MatV α) (t : Triangle) (d : Diag)
    (x y : VecV α) (z : Vec) (h : Heap α) (a : Nat → Nat → α) (f g : Nat → α)
    (hA : A.HoldsOn h (triRegion t d) a) (hF : F.Holds h (triOf t d a)) (hx : x.Holds h f)
    (hy : y.Holds h g) (hz : z.Alloc h) (hsq : A.rows = A.cols) (hext : A.rows = z.ext) (hxe : A.cols ≤ x.ext)
    (hye : A.rows ≤ y.ext) (hFr : F.rows = A.rows) (hFc : F.cols = A.cols) (hu : z.Unique)
    (hAz : Apart (A.toMat.CellOn (triRegion t d)) z.Cell) (hFz : Apart F.toMat.Cell z.Cell)
    (hxz : Apart x.toVec.Cell z.Cell) (hyz : y.toVec.Aligned z) :
    Ends (trmvUpdate A t d x y z) h fun _ h1 => Ends (gemvUpdate F x y z) h fun _ h2 => h1 = h2 := by
  refine (C19_trmv_update A t d x y z h a f g hA hx hy hz hsq hext hxe hye hu hAz hxz hyz).mono fun _ h1 hb1 => ?_
  refine (C16_gemv_update F x y z h _ f g hF hx hy hz (by omega) (by omega) (by omega) hu hFz hxz
    hyz).mono fun _ h2 hb2 => ?_
  exact hb1.unique hb2 fun i _ => by rw [hFc]; rfl

/-! ### A full matrix in the example memory -/

/-- The symmetric matrix named by triangle `t` of `A`, as a view: reads the mirrored cell. -/
def symFull (t : Triangle) : Mat :=
  ⟨3, 3, fun i j => match t with
    | .upper => if i ≤ j then A.addr i j else A.addr j i
    | .lower => if j ≤ i then A.addr i j else A.addr j i⟩

/-- The triangular matrix named by triangle `t` of `A`: cell 7 holds 0 and cell 8 holds 1. -/
def triFull (t : Triangle) (d : Diag) : Mat :=
  ⟨3, 3, fun i j => if i = j then (match d with | .implicitUnit => 8 | .explicit => A.addr i i)
    else match t with
    | .upper => if i ≤ j then A.addr i j else 7
    | .lower => if j ≤ i then A.addr i j else 7⟩

theorem symFull_holds {β : Type} [IntCast β] (t : Triangle) :
    ((symFull t).view : MatV β).Holds (heap β) (symOf t (mvals β A)) := by
  intro i j hi hj _
  have hi' : i < 3 := hi
  have hj' : j < 3 := hj
  refine ⟨_, heap_lt (β := β) ?_, ?_⟩
  · show (symFull t).addr i j < 200
    unfold symFull A
    cases t <;> (simp only; split_ifs <;> omega)
  · show ((((symFull t).addr i j : ℤ) - 7 : ℤ) : β) = _
    unfold symFull symOf mvals
    cases t
    · by_cases q : i ≤ j <;> simp [Triangle.region, q]
    · by_cases q : j ≤ i <;> simp [Triangle.region, q]

theorem hermFull_holds (t : Triangle) :
    ((symFull t).view : MatV ℂ).Holds (heap ℂ) (hermOf t (mvals ℂ A)) := by
  intro i j hi hj hr
  obtain ⟨v, hv, e⟩ := symFull_holds (β := ℂ) t i j hi hj hr
  refine ⟨v, hv, e.trans ?_⟩
  have hc : ∀ i j, ConjOps.conj (mvals ℂ A i j) = mvals ℂ A i j := by
    intro i j; exact map_intCast (starRingEnd ℂ) _
  have hre : ∀ i j, ConjOps.re (mvals ℂ A i j) = mvals ℂ A i j := by
    intro i j; simp [mvals, re_complex]
  unfold symOf hermOf
  by_cases eij : i = j
  · subst eij; rw [if_pos rfl, hre]; split_ifs <;> rfl
  · rw [if_neg eij, hc]

theorem triFull_holds {β : Type} [AddGroupWithOne β] (t : Triangle) (d : Diag) :
    ((triFull t d).view : MatV β).Holds (heap β) (triOf t d (mvals β A)) := by
  intro i j hi hj _
  have hi' : i < 3 := hi
  have hj' : j < 3 := hj
  refine ⟨_, heap_lt (β := β) ?_, ?_⟩
  · show (triFull t d).addr i j < 200
    unfold triFull A
    cases t <;> cases d <;> (simp only; split_ifs <;> omega)
  · show ((((triFull t d).addr i j : ℤ) - 7 : ℤ) : β) = _
    unfold triFull triOf mvals
    cases t
    · by_cases q : i ≤ j <;> by_cases q' : i = j <;> cases d <;> simp [Triangle.region, q, q']
    · by_cases q : j ≤ i <;> by_cases q' : i = j <;> cases d <;> simp [Triangle.region, q, q']

theorem symFull_apart {t : Triangle} {v : Vec} (hv : ∀ i, i < v.ext → v.addr i < 30) :
    Apart (symFull t).Cell v.Cell := by
  rintro a ⟨i, j, hi, hj, _, e⟩ ⟨k, hk, e'⟩
  have hi' : i < 3 := hi
  have hj' : j < 3 := hj
  have := hv k hk
  subst e'
  unfold symFull A at e
  cases t <;> (simp only at e; split_ifs at e <;> omega)

theorem triFull_apart {t : Triangle} {d : Diag} {v : Vec}
    (hv : ∀ i, i < v.ext → 9 ≤ v.addr i ∧ v.addr i < 30) :
    Apart (triFull t d).Cell v.Cell := by
  rintro a ⟨i, j, hi, hj, _, e⟩ ⟨k, hk, e'⟩
  have hi' : i < 3 := hi
  have hj' : j < 3 := hj
  have := hv k hk
  subst e'
  unfold triFull A at e
  cases t <;> cases d <;> (simp only at e; split_ifs at e <;> omega)

theorem symFull_apartM {t : Triangle} {m : Mat} (hm : ∀ i j, i < m.rows → j < m.cols → 40 ≤ m.addr i j) :
    Apart (symFull t).Cell m.Cell := by
  rintro a ⟨i, j, hi, hj, _, e⟩ ⟨k, l, hk, hl, _, e'⟩
  have hi' : i < 3 := hi
  have hj' : j < 3 := hj
  have := hm k l hk hl
  subst e'
  unfold symFull A at e
  cases t <;> (simp only at e; split_ifs at e <;> omega)

theorem triFull_apartM {t : Triangle} {d : Diag} {m : Mat}
    (hm : ∀ i j, i < m.rows → j < m.cols → 40 ≤ m.addr i j) :
    Apart (triFull t d).Cell m.Cell := by
  rintro a ⟨i, j, hi, hj, _, e⟩ ⟨k, l, hk, hl, _, e'⟩
  have hi' : i < 3 := hi
  have hj' : j < 3 := hj
  have := hm k l hk hl
  subst e'
  unfold triFull A at e
  cases t <;> cases d <;> (simp only at e; split_ifs at e <;> omega)

theorem y_range : ∀ i, i < y.ext → 9 ≤ y.addr i ∧ y.addr i < 30 := by
  intro i hi; simp only [y] at *; omega
theorem z_range : ∀ i, i < z.ext → 9 ≤ z.addr i ∧ z.addr i < 30 := by
  intro i hi; simp only [z] at *; omega
theorem C_range : ∀ i j, i < C.rows → j < C.cols → 40 ≤ C.addr i j := by
  intro i j hi hj; simp only [C] at *; omega
theorem E_range : ∀ i j, i < E.rows → j < E.cols → 40 ≤ E.addr i j := by
  intro i j hi hj; simp only [E] at *; omega

example (t : Triangle) : Ends (symv (A.view : MatV ℤ) t x.view y) (heap ℤ) fun _ h1 =>
    Ends (gemv (symFull t).view x.view y) (heap ℤ) fun _ h2 => h1 = h2 :=
  C46_symv_full _ _ _ _ _ _ _ _ (mholdsV bA) (symFull_holds t) (holdsV bx) (alloc by_) rfl rfl
    le_rfl rfl rfl (by view_facts) (by view_facts) (symFull_apart fun i hi => (y_range i hi).2)
    (by view_facts)

example (t : Triangle) : Ends (symvUpdate (A.view : MatV ℤ) t x.view y.view z) (heap ℤ)
    fun _ h1 => Ends (gemvUpdate (symFull t).view x.view y.view z) (heap ℤ) fun _ h2 => h1 = h2 :=
  C46_symv_update_full _ _ _ _ _ _ _ _ _ _ (mholdsV bA) (symFull_holds t) (holdsV bx) (holdsV by_)
    (alloc bz) rfl rfl le_rfl le_rfl rfl rfl (by view_facts) (by view_facts)
    (symFull_apart fun i hi => (z_range i hi).2) (by view_facts) (by view_facts)

example (t : Triangle) : Ends (hemv (A.view : MatV ℂ) t x.view y) (heap ℂ) fun _ h1 =>
    Ends (gemv (symFull t).view x.view y) (heap ℂ) fun _ h2 => h1 = h2 :=
  C46_hemv_full _ _ _ _ _ _ _ _ (mholdsV bA) (hermFull_holds t) (holdsV bx) (alloc by_) rfl rfl
    le_rfl rfl rfl (by view_facts) (by view_facts) (symFull_apart fun i hi => (y_range i hi).2)
    (by view_facts)

example (t : Triangle) : Ends (hemvUpdate (A.view : MatV ℂ) t x.view y.view y) (heap ℂ)
    fun _ h1 => Ends (gemvUpdate (symFull t).view x.view y.view y) (heap ℂ) fun _ h2 => h1 = h2 :=
  C46_hemv_update_full _ _ _ _ _ _ _ _ _ _ (mholdsV bA) (hermFull_holds t) (holdsV bx)
    (holdsV by_) (alloc by_) rfl rfl le_rfl le_rfl rfl rfl (by view_facts) (by view_facts)
    (symFull_apart fun i hi => (y_range i hi).2) (by view_facts) (by view_facts)

example (t : Triangle) (d : Diag) : Ends (trmv (A.view : MatV ℤ) t d x.view y) (heap ℤ)
    fun _ h1 => Ends (gemv (triFull t d).view x.view y) (heap ℤ) fun _ h2 => h1 = h2 :=
  C46_trmv_full _ _ _ _ _ _ _ _ _ (mholdsV bA) (triFull_holds t d) (holdsV bx) (alloc by_) rfl rfl
    le_rfl rfl rfl (by view_facts) (by view_facts) (triFull_apart y_range) (by view_facts)

example (t : Triangle) (d : Diag) : Ends (trmvUpdate (A.view : MatV ℤ) t d x.view y.view z)
    (heap ℤ) fun _ h1 => Ends (gemvUpdate (triFull t d).view x.view y.view z) (heap ℤ)
      fun _ h2 => h1 = h2 :=
  C46_trmv_update_full _ _ _ _ _ _ _ _ _ _ _ (mholdsV bA) (triFull_holds t d) (holdsV bx)
    (holdsV by_) (alloc bz) rfl rfl le_rfl le_rfl rfl rfl (by view_facts) (by view_facts)
    (triFull_apart z_range) (by view_facts) (by view_facts)

/-! ## Structured and general matrix-matrix products -/

/-- **C46** `symmetric_matrix_product(A, t, B, C)`: the same final memory as `matrix_product(F, B, C)`
where `F` stores the full symmetric matrix.  Holds in any arithmetic. -/
theorem C46_symm_left_full [Add α] [Mul α] [Zero α] (A F : MatV α) (t : Triangle) (B : MatV α)
    (C : Mat) (h : Heap α) (a b : Nat → Nat → α) (hA : A.HoldsOn h t.region a)
    (hF : F.Holds h (symOf t a)) (hB : B.Holds h b) (hC : C.Alloc h) (hsq : A.rows = A.cols)
    (hr : C.rows = A.rows) (hk : A.cols = B.rows) (hc : C.cols = B.cols)
    (hFr : F.rows = A.rows) (hFc : F.cols = A.cols) (hu : C.Unique)
    (hAC : Apart (A.toMat.CellOn t.region) C.Cell) (hFC : Apart F.toMat.Cell C.Cell)
    (hBC : Apart B.toMat.Cell C.Cell) :
    Ends (symmLeft A t B C) h fun _ h1 => Ends (gemm F B C) h fun _ h2 => h1 = h2 := by
  refine (symmLeft_fold hA hB hC hsq hr.le hk.le hc.le hu hAC hBC).mono fun _ h1 hb1 => ?_
  refine (gemm_fold hF hB hC (by omega) (by omega) hc.le hu hFC hBC).mono fun _ h2 hb2 => ?_
  exact hb1.unique hb2 fun i j _ _ => by rw [hFc]

/-- **C46** `symmetric_matrix_product(B, A, t, C)`: the same final memory as `matrix_product(B, F, C)`. -/
theorem C46_symm_right_full [Add α] [Mul α] [Zero α] (A F : MatV α) (t : Triangle) (B : MatV α)
    (C : Mat) (h : Heap α) (a b : Nat → Nat → α) (hA : A.HoldsOn h t.region a)
    (hF : F.Holds h (symOf t a)) (hB : B.Holds h b) (hC : C.Alloc h) (hsq : A.rows = A.cols)
    (hr : C.rows = B.rows) (hk : B.cols = A.rows) (hc : C.cols = A.cols)
    (hFr : F.rows = A.rows) (hFc : F.cols = A.cols) (hu : C.Unique)
    (hAC : Apart (A.toMat.CellOn t.region) C.Cell) (hFC : Apart F.toMat.Cell C.Cell)
    (hBC : Apart B.toMat.Cell C.Cell) :
    Ends (symmRight B A t C) h fun _ h1 => Ends (gemm B F C) h fun _ h2 => h1 = h2 := by
  refine (symmRight_fold hA hB hC hsq hr.le (by omega) hc.le hu hAC hBC).mono fun _ h1 hb1 => ?_
  refine (gemm_fold hB hF hC (by omega) (by omega) (by omega) hu hBC hFC).mono fun _ h2 hb2 => ?_
  exact hb1.unique hb2 fun i j _ _ => by rw [show B.cols = A.cols by omega]

theorem range'_split {n i : Nat} (hi : i < n) :
    List.range' 0 n = List.range' 0 i ++ i :: List.range' (i + 1) (n - (i + 1)) := by
  have e : n = i + ((n - (i + 1)) + 1) := by omega
  conv_lhs => rw [e]
  rw [← List.range'_append_1, List.range'_succ]
  simp

/-- **C46** `hermitian_matrix_product(A, t, B, C)`: the same final memory as `matrix_product(F, B, C)`
where `F` stores the full Hermitian matrix.  Holds in any arithmetic. -/
theorem C46_hemm_left_full [Add α] [Mul α] [Zero α] [ConjOps α] (A F : MatV α) (t : Triangle)
    (B : MatV α) (C : Mat) (h : Heap α) (a b : Nat → Nat → α) (hA : A.HoldsOn h t.region a)
    (hF : F.Holds h (hermOf t a)) (hB : B.Holds h b) (hC : C.Alloc h) (hsq : A.rows = A.cols)
    (hr : C.rows = A.rows) (hk : A.cols = B.rows) (hc : C.cols = B.cols)
    (hFr : F.rows = A.rows) (hFc : F.cols = A.cols) (hu : C.Unique)
    (hAC : Apart (A.toMat.CellOn t.region) C.Cell) (hFC : Apart F.toMat.Cell C.Cell)
    (hBC : Apart B.toMat.Cell C.Cell) :
    Ends (hemmLeft A t B C) h fun _ h1 => Ends (gemm F B C) h fun _ h2 => h1 = h2 := by
  refine (hemmLeft_fold hA hB hC hsq hr.le hk.le hc.le hu hAC hBC).mono fun _ h1 hb1 => ?_
  refine (gemm_fold hF hB hC (by omega) (by omega) hc.le hu hFC hBC).mono fun _ h2 hb2 => ?_
  refine hb1.unique hb2 fun i j hi _ => ?_
  have hi' : i < A.cols := by omega
  rw [hFc, range'_split hi', List.foldl_append, List.foldl_cons, Nat.sub_zero]

/-- **C46** `hermitian_matrix_product(B, A, t, C)` when the stored diagonal is real.  Missing: a
stored diagonal with imaginary parts, see `C46_hemm_right_full_false`. -/
theorem C46_hemm_right_full_partial [Add α] [Mul α] [Zero α] [ConjOps α] (A F : MatV α)
    (t : Triangle) (B : MatV α) (C : Mat) (h : Heap α) (a b : Nat → Nat → α)
    (hA : A.HoldsOn h t.region a) (hF : F.Holds h (hermOf t a)) (hB : B.Holds h b) (hC : C.Alloc h)
    (hsq : A.rows = A.cols) (hr : C.rows = B.rows) (hk : B.cols = A.rows) (hc : C.cols = A.cols)
    (hFr : F.rows = A.rows) (hFc : F.cols = A.cols) (hu : C.Unique)
    (hAC : Apart (A.toMat.CellOn t.region) C.Cell) (hFC : Apart F.toMat.Cell C.Cell)
    (hBC : Apart B.toMat.Cell C.Cell) (hreal : ∀ i, i < A.rows → ConjOps.re (a i i) = a i i) :
    Ends (hemmRight B A t C) h fun _ h1 => Ends (gemm B F C) h fun _ h2 => h1 = h2 := by
  refine (hemmRight_fold hA hB hC hsq hr.le (by omega) hc.le hu hAC hBC).mono fun _ h1 hb1 => ?_
  refine (gemm_fold hB hF hC (by omega) (by omega) (by omega) hu hBC hFC).mono fun _ h2 hb2 => ?_
  refine hb1.unique hb2 fun i j _ _ => ?_
  rw [show B.cols = A.cols by omega]
  refine List.foldl_ext _ _ _ fun s k hk' => ?_
  have hk2 : k < A.cols := by simpa using (List.mem_range'.1 hk')
  rw [hermStored_eq fun _ => hreal k (by omega)]

/-- **C46 is false** for the right-side Hermitian product: stored `A = (i)`, full matrix `F = (0)`,
`B = (1)`. -/
theorem C46_hemm_right_full_false (t : Triangle) :
    ¬ ∀ (A F B : MatV ℂ) (C : Mat) (h : Heap ℂ) (a b : Nat → Nat → ℂ),
      A.Holds h a → F.Holds h (hermOf t a) → B.Holds h b → C.Alloc h → A.rows = A.cols →
      C.rows = B.rows → B.cols = A.rows → C.cols = A.cols → F.rows = A.rows → F.cols = A.cols →
      C.Unique → Apart A.toMat.Cell C.Cell → Apart F.toMat.Cell C.Cell →
      Apart B.toMat.Cell C.Cell →
      Ends (hemmRight B A t C) h fun _ h1 => Ends (gemm B F C) h fun _ h2 => h1 = h2 := by
  intro H
  let m : Nat → Mat := fun k => ⟨1, 1, fun _ _ => k⟩
  let h : Heap ℂ := fun a => if a = 0 then some Complex.I else if a = 3 then some 0 else some 1
  have hA : (m 0).view.Holds h fun _ _ => Complex.I := fun i j _ _ _ => ⟨Complex.I, rfl, rfl⟩
  have hB : (m 1).view.Holds h fun _ _ => 1 := fun i j _ _ _ => ⟨1, rfl, rfl⟩
  have hF : (m 3).view.Holds h (hermOf t fun _ _ => Complex.I) := fun i j hi hj _ =>
    ⟨0, rfl, by
      have hi' : i < 1 := hi
      have hj' : j < 1 := hj
      have : i = j := by omega
      simp [hermOf, this, re_complex, Mat.view]⟩
  have hC : (m 2).Alloc h := fun i j _ _ _ => ⟨1, rfl⟩
  have hu : (m 2).Unique := by
    intro i j k l hi hj _ hk hl _ _
    simp only [m] at *; omega
  have ap : ∀ k, k ≠ 2 → Apart (m k).Cell (m 2).Cell := by
    rintro k hk a ⟨_, _, _, _, _, e⟩ ⟨_, _, _, _, _, e'⟩
    exact hk (e.trans e'.symm)
  have h1 := H (m 0).view (m 3).view (m 1).view (m 2) h _ _ hA hF hB hC rfl rfl rfl rfl rfl rfl hu
    (ap 0 (by decide)) (ap 3 (by decide)) (ap 1 (by decide))
  have h2 := C33_hemm_right_uses_stored_diagonal (m 1).view (m 0).view t (m 2) h _ _
    (fun i j hi hj _ => hA i j hi hj trivial) hB hC rfl rfl rfl rfl hu
    (fun a ⟨i, j, hi, hj, _, e⟩ => ap 0 (by decide) a ⟨i, j, hi, hj, trivial, e⟩) (ap 1 (by decide))
  obtain ⟨_, h', _, e1, e2⟩ := h1.and h2
  obtain ⟨_, h'', _, e3, e4⟩ := e1.and (C31_gemm (m 1).view (m 3).view (m 2) h _ _ hB hF hC rfl rfl
    rfl hu (ap 1 (by decide)) (ap 3 (by decide)))
  rw [← e3] at e4
  have := (e4.1 0 0 (by decide) (by decide) trivial).symm.trans
    (e2.1 0 0 (by decide) (by decide) trivial)
  simp only [mulMat, m, Mat.view, sum_range_one, hermOf, if_true, one_mul, Option.some.injEq,
    re_complex, Complex.I_re] at this
  exact Complex.I_ne_zero (by rw [← this]; simp)

/-- **C46** `triangular_matrix_product(A, t, d, B, C)`: the same final memory as
`matrix_product(F, B, C)` where `F` stores the full triangular matrix. -/
theorem C46_trmm_left_full [NonAssocSemiring α] (A F : MatV α) (t : Triangle) (d : Diag)
    (B : MatV α) (C : Mat) (h : Heap α) (a b : Nat → Nat → α)
    (hA : A.HoldsOn h (triRegion t d) a) (hF : F.Holds h (triOf t d a)) (hB : B.Holds h b)
    (hC : C.Alloc h) (hsq : A.rows = A.cols)
    (hr : C.rows = A.rows) (hk : A.cols = B.rows) (hc : C.cols = B.cols)
    (hFr : F.rows = A.rows) (hFc : F.cols = A.cols) (hu : C.Unique)
    (hAC : Apart (A.toMat.CellOn (triRegion t d)) C.Cell) (hFC : Apart F.toMat.Cell C.Cell)
    (hBC : Apart B.toMat.Cell C.Cell) :
    Ends (trmmLeft A t d B C) h fun _ h1 => Ends (gemm F B C) h fun _ h2 => h1 = h2 := by
  refine (C35_trmm_left A t d B C h a b hA hB hC hsq hr hk hc hu hAC hBC).mono fun _ h1 hb1 => ?_
  refine (C31_gemm F B C h _ b hF hB hC (by omega) (by omega) hc hu hFC hBC).mono fun _ h2 hb2 => ?_
  exact hb1.unique hb2 fun i j _ _ => by rw [hFc]

/-- **C46** `triangular_matrix_product(B, A, t, d, C)`: the same final memory as
`matrix_product(B, F, C)`. -/
theorem C46_trmm_right_full [NonAssocSemiring α] (A F : MatV α) (t : Triangle) (d : Diag)
    (B : MatV α) (C : Mat) (h : Heap α) (a b : Nat → Nat → α)
    (hA : A.HoldsOn h (triRegion t d) a) (hF : F.Holds h (triOf t d a)) (hB : B.Holds h b)
    (hC : C.Alloc h) (hsq : A.rows = A.cols)
    (hr : C.rows = B.rows) (hk : B.cols = A.rows) (hc : C.cols = A.cols)
    (hFr : F.rows = A.rows) (hFc : F.cols = A.cols) (hu : C.Unique)
    (hAC : Apart (A.toMat.CellOn (triRegion t d)) C.Cell) (hFC : Apart F.toMat.Cell C.Cell)
    (hBC : Apart B.toMat.Cell C.Cell) :
    Ends (trmmRight B A t d C) h fun _ h1 => Ends (gemm B F C) h fun _ h2 => h1 = h2 := by
  refine (C35_trmm_right B A t d C h a b hA hB hC hsq hr hk hc hu hAC hBC).mono fun _ h1 hb1 => ?_
  refine (C31_gemm B F C h b _ hB hF hC hr (by omega) (by omega) hu hBC hFC).mono
    fun _ h2 hb2 => ?_
  exact hb1.unique hb2 fun i j _ _ => rfl

example (t : Triangle) : Ends (symmLeft (A.view : MatV ℤ) t B.view C) (heap ℤ) fun _ h1 =>
    Ends (gemm (symFull t).view B.view C) (heap ℤ) fun _ h2 => h1 = h2 :=
  C46_symm_left_full _ _ _ _ _ _ _ _ (mholdsV bA) (symFull_holds t) (mholdsV bB) (malloc bC)
    rfl rfl rfl rfl rfl rfl (by view_facts) (by view_facts) (symFull_apartM C_range) (by view_facts)

example (t : Triangle) : Ends (symmRight (B.view : MatV ℤ) A.view t C) (heap ℤ) fun _ h1 =>
    Ends (gemm B.view (symFull t).view C) (heap ℤ) fun _ h2 => h1 = h2 :=
  C46_symm_right_full _ _ _ _ _ _ _ _ (mholdsV bA) (symFull_holds t) (mholdsV bB) (malloc bC)
    rfl rfl rfl rfl rfl rfl (by view_facts) (by view_facts) (symFull_apartM C_range) (by view_facts)

example (t : Triangle) : Ends (hemmLeft (A.view : MatV ℂ) t B.view C) (heap ℂ) fun _ h1 =>
    Ends (gemm (symFull t).view B.view C) (heap ℂ) fun _ h2 => h1 = h2 :=
  C46_hemm_left_full _ _ _ _ _ _ _ _ (mholdsV bA) (hermFull_holds t) (mholdsV bB) (malloc bC)
    rfl rfl rfl rfl rfl rfl (by view_facts) (by view_facts) (symFull_apartM C_range) (by view_facts)

example (t : Triangle) : Ends (hemmRight (B.view : MatV ℂ) A.view t C) (heap ℂ) fun _ h1 =>
    Ends (gemm B.view (symFull t).view C) (heap ℂ) fun _ h2 => h1 = h2 :=
  C46_hemm_right_full_partial _ _ _ _ _ _ _ _ (mholdsV bA) (hermFull_holds t) (mholdsV bB)
    (malloc bC) rfl rfl rfl rfl rfl rfl (by view_facts) (by view_facts) (symFull_apartM C_range)
    (by view_facts) (fun i _ => by simp [mvals, re_complex])

example (t : Triangle) (d : Diag) : Ends (trmmLeft (A.view : MatV ℤ) t d B.view C) (heap ℤ)
    fun _ h1 => Ends (gemm (triFull t d).view B.view C) (heap ℤ) fun _ h2 => h1 = h2 :=
  C46_trmm_left_full _ _ _ _ _ _ _ _ _ (mholdsV bA) (triFull_holds t d) (mholdsV bB) (malloc bC)
    rfl rfl rfl rfl rfl rfl (by view_facts) (by view_facts) (triFull_apartM C_range) (by view_facts)

example (t : Triangle) (d : Diag) : Ends (trmmRight (B.view : MatV ℤ) A.view t d C) (heap ℤ)
    fun _ h1 => Ends (gemm B.view (triFull t d).view C) (heap ℤ) fun _ h2 => h1 = h2 :=
  C46_trmm_right_full _ _ _ _ _ _ _ _ _ (mholdsV bA) (triFull_holds t d) (mholdsV bB) (malloc bC)
    rfl rfl rfl rfl rfl rfl (by view_facts) (by view_facts) (triFull_apartM C_range) (by view_facts)

end StdBLAS

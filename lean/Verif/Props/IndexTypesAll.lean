import Verif.Lemmas.IndexRefineAll
import Verif.Props.IndexTypes
import Verif.Props.Witness
import Verif.Props.Blas3Products

/-!
# Property C51 for the other algorithms: the index types do not matter

Each theorem says that the program with the C++ integer types of the source, for all standard
integer types `t...` that can represent the extents of their mdspans (`t.Fits n`) and for every
bound `fuel` on the iterations of a loop that is larger than the extents, is the program over the
natural numbers that all other properties are about.  In particular the calls terminate and no
arithmetic on indices overflows or wraps around.
-/

namespace StdBLAS
open IntTy Witness
variable {α R : Type}

/-- **C51** `scale` of a vector. -/
theorem C51_scale_vector [Mul α] (fuel : Nat) (tx : IntTy) (alpha : α) (x : Vec) (h1 : tx.Std)
    (F1 : tx.Fits x.ext) (f1 : x.ext < fuel) :
    scale1T fuel tx alpha x = scale1 alpha x := by
  unfold scale1T scale1
  idx

/-- **C51** `scale` of a matrix. -/
theorem C51_scale_matrix [Mul α] (fuel : Nat) (tA : IntTy) (alpha : α) (A : Mat) (h1 : tA.Std)
    (r1 : tA.Fits A.rows) (c1 : tA.Fits A.cols) (f1 : A.rows < fuel) (f2 : A.cols < fuel) :
    scale2T fuel tA alpha A = scale2 alpha A := by
  have F1 := r1.max c1
  unfold scale2T scale2
  idx

/-- **C51** `copy` of a vector. -/
theorem C51_copy_vector (fuel : Nat) (tx ty : IntTy) (x : VecV α) (y : Vec) (h1 : tx.Std)
    (h2 : ty.Std) (e1 : x.ext = y.ext) (F1 : tx.Fits x.ext) (F2 : ty.Fits y.ext)
    (f1 : y.ext < fuel) :
    copy1T fuel tx ty x y = copy1 x y := by
  have hsz := common_std h1 h2
  have FS := F2.common_right h1 h2
  unfold copy1T copy1
  generalize common tx ty = sz at *
  idx

/-- **C51** `copy` of a matrix. -/
theorem C51_copy_matrix (fuel : Nat) (tx ty : IntTy) (x : MatV α) (y : Mat) (h1 : tx.Std)
    (h2 : ty.Std) (e1 : x.rows = y.rows) (e2 : x.cols = y.cols) (r1 : tx.Fits x.rows)
    (c1 : tx.Fits x.cols) (r2 : ty.Fits y.rows) (c2 : ty.Fits y.cols) (f1 : y.rows < fuel)
    (f2 : y.cols < fuel) :
    copy2T fuel tx ty x y = copy2 x y := by
  have F1 := r1.max c1
  have F2 := r2.max c2
  have hsz := common_std h1 h2
  have FS := F2.common_right h1 h2
  unfold copy2T copy2
  dsimp only
  generalize common tx ty = sz at *
  idx

/-- **C51** `swap_elements` of vectors. -/
theorem C51_swap_vector (fuel : Nat) (tx ty : IntTy) (x : Vec) (y : Vec) (h1 : tx.Std)
    (h2 : ty.Std) (e1 : x.ext = y.ext) (F1 : tx.Fits x.ext) (F2 : ty.Fits y.ext)
    (f1 : y.ext < fuel) :
    swap1T (α := α) fuel tx ty x y = swap1 x y := by
  have hsz := common_std h1 h2
  have FS := F2.common_right h1 h2
  unfold swap1T swap1
  generalize common tx ty = sz at *
  idx

/-- **C51** `swap_elements` of matrices. -/
theorem C51_swap_matrix (fuel : Nat) (tx ty : IntTy) (x : Mat) (y : Mat) (h1 : tx.Std)
    (h2 : ty.Std) (e1 : x.rows = y.rows) (e2 : x.cols = y.cols) (r1 : tx.Fits x.rows)
    (c1 : tx.Fits x.cols) (r2 : ty.Fits y.rows) (c2 : ty.Fits y.cols) (f1 : y.rows < fuel)
    (f2 : y.cols < fuel) :
    swap2T (α := α) fuel tx ty x y = swap2 x y := by
  have F1 := r1.max c1
  have F2 := r2.max c2
  have hsz := common_std h1 h2
  have FS := F2.common_right h1 h2
  unfold swap2T swap2
  dsimp only
  generalize common tx ty = sz at *
  idx

/-- **C51** `add` of vectors. -/
theorem C51_add_vector [Add α] (fuel : Nat) (tx ty tz : IntTy) (x : VecV α) (y : VecV α) (z : Vec)
    (h1 : tx.Std) (h2 : ty.Std) (h3 : tz.Std) (e1 : x.ext = z.ext) (e2 : y.ext = z.ext)
    (F1 : tx.Fits x.ext) (F2 : ty.Fits y.ext) (F3 : tz.Fits z.ext) (f1 : z.ext < fuel) :
    add1T fuel tx ty tz x y z = add1 x y z := by
  have hsz := common3_std h1 h2 h3
  have FS := F3.common3_3 h1 h2 h3
  unfold add1T add1
  generalize common3 tx ty tz = sz at *
  idx

/-- **C51** `add` of matrices. -/
theorem C51_add_matrix [Add α] (fuel : Nat) (tx ty tz : IntTy) (x : MatV α) (y : MatV α) (z : Mat)
    (h1 : tx.Std) (h2 : ty.Std) (h3 : tz.Std) (e1 : x.rows = z.rows) (e2 : x.cols = z.cols)
    (e3 : y.rows = z.rows) (e4 : y.cols = z.cols) (r1 : tx.Fits x.rows) (c1 : tx.Fits x.cols)
    (r2 : ty.Fits y.rows) (c2 : ty.Fits y.cols) (r3 : tz.Fits z.rows) (c3 : tz.Fits z.cols)
    (f1 : z.rows < fuel) (f2 : z.cols < fuel) :
    add2T fuel tx ty tz x y z = add2 x y z := by
  have F1 := r1.max c1
  have F2 := r2.max c2
  have F3 := r3.max c3
  have hsz := common3_std h1 h2 h3
  have FS := F3.common3_3 h1 h2 h3
  unfold add2T add2
  dsimp only
  generalize common3 tx ty tz = sz at *
  idx

/-- **C51** `dot`. -/
theorem C51_dot [Add α] [Mul α] (fuel : Nat) (t1 t2 : IntTy) (v1 : VecV α) (v2 : VecV α)
    (init : α) (h1 : t1.Std) (h2 : t2.Std) (e1 : v2.ext = v1.ext) (F1 : t1.Fits v1.ext)
    (F2 : t2.Fits v2.ext) (f1 : v1.ext < fuel) :
    dotT fuel t1 t2 v1 v2 init = dot v1 v2 init := by
  have hsz := common_std h1 h2
  have FS := F1.common_left h1 h2
  unfold dotT dot
  generalize common t1 t2 = sz at *
  idx

/-- **C51** `dotc`. -/
theorem C51_dotc [Add α] [Mul α] [ConjOps α] (fuel : Nat) (t1 t2 : IntTy) (v1 v2 : VecV α) (init : α)
    (h1 : t1.Std) (h2 : t2.Std) (e1 : v2.ext = v1.ext) (F1 : t1.Fits v1.ext) (F2 : t2.Fits v2.ext)
    (f1 : v1.ext < fuel) : dotcT fuel t1 t2 v1 v2 init = dotc v1 v2 init :=
  C51_dot fuel t1 t2 v1.conjugated v2 init h1 h2 e1 F1 F2 f1

/-- **C51** `apply_givens_rotation` with a real `s`. -/
theorem C51_apply_givens [Add α] [Sub α] [Mul α] (fuel : Nat) (tx ty : IntTy) (x : Vec) (y : Vec)
    (c s : α) (h1 : tx.Std) (h2 : ty.Std) (e1 : y.ext = x.ext) (F1 : tx.Fits x.ext)
    (F2 : ty.Fits y.ext) (f1 : x.ext < fuel) :
    applyGivensT fuel tx ty x y c s = applyGivens x y c s := by
  have hsz := common_std h1 h2
  have FS := F1.common_left h1 h2
  unfold applyGivensT applyGivens
  dsimp only
  generalize common tx ty = sz at *
  idx

/-- **C51** `apply_givens_rotation` with a complex `s`. -/
theorem C51_apply_givens_complex [Add α] [Sub α] [Mul α] [ConjOps α] (fuel : Nat) (tx ty : IntTy)
    (x : Vec) (y : Vec) (c s : α) (h1 : tx.Std) (h2 : ty.Std) (e1 : y.ext = x.ext)
    (F1 : tx.Fits x.ext) (F2 : ty.Fits y.ext) (f1 : x.ext < fuel) :
    applyGivensCT fuel tx ty x y c s = applyGivensC x y c s := by
  have hsz := common_std h1 h2
  have FS := F1.common_left h1 h2
  unfold applyGivensCT applyGivensC
  dsimp only
  generalize common tx ty = sz at *
  idx

section
variable [Zero R] [One R] [Add R] [Mul R] [Div R] [FloatOps R] [MagOps α R]

omit [One R] [Mul R] [Div R] [FloatOps R] [Zero R] in
/-- **C51** `vector_abs_sum`. -/
theorem C51_vector_abs_sum (fuel : Nat) (tv : IntTy) (v : VecV α) (init : R) (h1 : tv.Std)
    (F1 : tv.Fits v.ext) (f1 : v.ext < fuel) :
    vectorAbsSumT fuel tv v init = vectorAbsSumOf v init := by
  unfold vectorAbsSumT vectorAbsSumOf
  dsimp only
  rw [cast_fits h1 F1]
  idx

/-- **C51** `vector_sum_of_squares`. -/
theorem C51_vector_sum_of_squares (fuel : Nat) (tx : IntTy) (x : VecV α) (init : SumOfSquaresOf R)
    (h1 : tx.Std) (F1 : tx.Fits x.ext) (f1 : x.ext < fuel) :
    vectorSumOfSquaresT fuel tx x init = vectorSumOfSquaresOf x init := by
  unfold vectorSumOfSquaresT vectorSumOfSquaresOf
  rw [eq_zero_fits h1 F1]
  simp only [decide_eq_true_eq]
  idx

/-- **C51** `vector_two_norm`. -/
theorem C51_vector_two_norm (fuel : Nat) (tx : IntTy) (x : VecV α) (init : R)
    (h1 : tx.Std) (F1 : tx.Fits x.ext) (f1 : x.ext < fuel) :
    vectorTwoNormT fuel tx x init = vectorTwoNormOf x init := by
  unfold vectorTwoNormT vectorTwoNormOf
  rw [C51_vector_sum_of_squares fuel tx x _ h1 F1 f1]

omit [Zero R] [One R] [Mul R] [Div R] in
/-- **C51** `vector_idx_abs_max`: the index of the program over the natural numbers, as a value of
the index type; its `numeric_limits<SizeType>::max()` for an empty vector. -/
theorem C51_vector_idx_abs_max (fuel : Nat) (tv : IntTy) (v : VecV α) (h1 : tv.Std)
    (F1 : tv.Fits v.ext) (f1 : v.ext < fuel) :
    vectorIdxAbsMaxT R fuel tv v = (do
      let i ← vectorIdxAbsMaxOf R tv.max.toNat v
      pure (i : Int)) := by
  unfold vectorIdxAbsMaxT vectorIdxAbsMaxOf
  rw [eq_zero_fits h1 F1]
  simp only [decide_eq_true_eq]
  by_cases h0 : v.ext = 0
  · rw [if_pos h0, if_pos h0, pure_bind_prog, Int.toNat_of_nonneg (le_trans (by decide) (one_le_max h1))]
  · rw [if_neg h0, if_neg h0, bind_assoc_prog]
    refine bind_congr_prog (VecV.at_fits (i := 0) h1 (by fits)) fun a => ?_
    rw [bind_assoc_prog]
    rw [show (1 : Int) = ((1 : Nat) : Int) from rfl,
      foldUpTo_eq h1 h1 F1 F1 (by omega) f1 (g := fun s i => do
        let b ← v.get i
        if FloatOps.lt s.2 (idxMagnitudeOf R b) then pure ((i : Int), idxMagnitudeOf R b)
        else pure s) (fun s n _ _ => bind_congr_prog (VecV.at_fits h1 (by fits)) fun _ => rfl)]
    have key := foldEach_map_idx (α := α) (l := List.range' 1 (v.ext - 1))
      (fun s : Nat × R => ((s.1 : Int), s.2)) (s := (0, idxMagnitudeOf R a)) (f := fun s i => do
        let b ← v.get i
        if FloatOps.lt s.2 (idxMagnitudeOf R b) then pure ((i : Int), idxMagnitudeOf R b)
        else pure s) (g := fun s i => do
        let b ← v.get i
        if FloatOps.lt s.2 (idxMagnitudeOf R b) then pure (i, idxMagnitudeOf R b) else pure s) ?_
    · refine (congrArg (fun p => p >>= fun r => pure r.1) key).trans ?_
      rw [bind_assoc_prog]
      rfl
    · intro s i
      rw [bind_assoc_prog]
      refine bind_body_congr fun b => ?_
      dsimp only
      split <;> rfl

/-- **C51** `matrix_frob_norm`. -/
theorem C51_matrix_frob_norm (fuel : Nat) (tA : IntTy) (A : MatV α) (init : R) (h1 : tA.Std)
    (r1 : tA.Fits A.rows) (c1 : tA.Fits A.cols) (f1 : A.rows < fuel) (f2 : A.cols < fuel) :
    matrixFrobNormT fuel tA A init = matrixFrobNormOf A init := by
  unfold matrixFrobNormT matrixFrobNormOf
  have F1 := r1.max c1
  refine ite_iff_prog (norm_empty h1 r1 c1) (fun _ => rfl) fun _ =>
    ite_iff_prog (norm_single h1 r1 c1) (fun h => ?_) fun _ => ?_
  · exact bind_congr_prog (MatV.at_fits (i := 0) (j := 0) h1 (by fits) (by fits)) fun _ => rfl
  · idx

omit [Zero R] [One R] [Mul R] [Div R] in
/-- **C51** `matrix_one_norm`. -/
theorem C51_matrix_one_norm (fuel : Nat) (tA : IntTy) (A : MatV α) (init : R) (h1 : tA.Std)
    (r1 : tA.Fits A.rows) (c1 : tA.Fits A.cols) (f1 : A.rows < fuel) (f2 : A.cols < fuel) :
    matrixOneNormT fuel tA A init = matrixOneNormOf A init := by
  unfold matrixOneNormT matrixOneNormOf
  have F1 := r1.max c1
  refine ite_iff_prog (norm_empty h1 r1 c1) (fun _ => rfl) fun _ =>
    ite_iff_prog (norm_single h1 r1 c1) (fun h => ?_) fun _ => ?_
  · exact bind_congr_prog (MatV.at_fits (i := 0) (j := 0) h1 (by fits) (by fits)) fun _ => rfl
  · idx

omit [Zero R] [One R] [Mul R] [Div R] in
/-- **C51** `matrix_inf_norm`. -/
theorem C51_matrix_inf_norm (fuel : Nat) (tA : IntTy) (A : MatV α) (init : R) (h1 : tA.Std)
    (r1 : tA.Fits A.rows) (c1 : tA.Fits A.cols) (f1 : A.rows < fuel) (f2 : A.cols < fuel) :
    matrixInfNormT fuel tA A init = matrixInfNormOf A init := by
  unfold matrixInfNormT matrixInfNormOf
  have F1 := r1.max c1
  refine ite_iff_prog (norm_empty h1 r1 c1) (fun _ => rfl) fun _ =>
    ite_iff_prog (norm_single h1 r1 c1) (fun h => ?_) fun _ => ?_
  · exact bind_congr_prog (MatV.at_fits (i := 0) (j := 0) h1 (by fits) (by fits)) fun _ => rfl
  · idx

end

/-- **C51** overwriting `matrix_vector_product`. -/
theorem C51_gemv [Add α] [Mul α] [Zero α] (fuel : Nat) (tA tx ty : IntTy) (A : MatV α)
    (x : VecV α) (y : Vec) (h1 : tA.Std) (h2 : tx.Std) (h3 : ty.Std) (e1 : x.ext = A.cols)
    (e2 : y.ext = A.rows) (r1 : tA.Fits A.rows) (c1 : tA.Fits A.cols) (F2 : tx.Fits x.ext)
    (F3 : ty.Fits y.ext) (f1 : A.rows < fuel) (f2 : A.cols < fuel) :
    gemvT fuel tA tx ty A x y = gemv A x y := by
  have F1 := r1.max c1
  have hsz := common3_std h1 h2 h3
  have FS := F1.common3_1 h1 h2 h3
  unfold gemvT gemv
  dsimp only
  generalize common3 tA tx ty = sz at *
  idx

/-- **C51** updating `matrix_vector_product`. -/
theorem C51_gemv_update [Add α] [Mul α] (fuel : Nat) (tA tx ty tz : IntTy) (A : MatV α)
    (x : VecV α) (y : VecV α) (z : Vec) (h1 : tA.Std) (h2 : tx.Std) (h3 : ty.Std) (h4 : tz.Std)
    (e1 : x.ext = A.cols) (e2 : y.ext = A.rows) (e3 : z.ext = A.rows) (r1 : tA.Fits A.rows)
    (c1 : tA.Fits A.cols) (F2 : tx.Fits x.ext) (F3 : ty.Fits y.ext) (F4 : tz.Fits z.ext)
    (f1 : A.rows < fuel) (f2 : A.cols < fuel) :
    gemvUpdateT fuel tA tx ty tz A x y z = gemvUpdate A x y z := by
  have F1 := r1.max c1
  have hsz := common4_std (makeUnsigned_std h1) h2 h3 h4
  have FS := (F1.makeUnsigned h1).common4_1 (makeUnsigned_std h1) h2 h3 h4
  unfold gemvUpdateT gemvUpdate
  dsimp only
  generalize common4 tA.makeUnsigned tx ty tz = sz at *
  idx

/-- **C51** overwriting symmetric matrix-vector product. -/
theorem C51_symv [Add α] [Mul α] [Zero α] (fuel : Nat) (tA tx ty : IntTy) (A : MatV α)
    (t : Triangle) (x : VecV α) (y : Vec) (h1 : tA.Std) (h2 : tx.Std) (h3 : ty.Std)
    (e1 : A.rows = A.cols) (e2 : x.ext = A.rows) (e3 : y.ext = A.rows) (r1 : tA.Fits A.rows)
    (c1 : tA.Fits A.cols) (F2 : tx.Fits x.ext) (F3 : ty.Fits y.ext) (f1 : A.rows < fuel) :
    symvT fuel tA tx ty A t x y = symv A t x y := by
  have F1 := r1.max c1
  have hsz := common3_std h1 h2 h3
  have FS := F1.common3_1 h1 h2 h3
  unfold symvT symv
  dsimp only
  generalize common3 tA tx ty = sz at *
  exact bind_congr_prog (by idx) fun _ =>
    symvAccT_eq hsz h1 h2 h3 e1 FS F1 (F2.le (by omega)) (F3.le (by omega)) f1

/-- **C51** updating symmetric matrix-vector product. -/
theorem C51_symv_update [Add α] [Mul α] (fuel : Nat) (tA tx ty tz : IntTy) (A : MatV α)
    (t : Triangle) (x : VecV α) (y : VecV α) (z : Vec) (h1 : tA.Std) (h2 : tx.Std) (h3 : ty.Std)
    (h4 : tz.Std) (e1 : A.rows = A.cols) (e2 : x.ext = A.rows) (e3 : y.ext = A.rows)
    (e4 : z.ext = A.rows) (r1 : tA.Fits A.rows) (c1 : tA.Fits A.cols) (F2 : tx.Fits x.ext)
    (F3 : ty.Fits y.ext) (F4 : tz.Fits z.ext) (f1 : A.rows < fuel) :
    symvUpdateT fuel tA tx ty tz A t x y z = symvUpdate A t x y z := by
  have F1 := r1.max c1
  have hsz := common4_std (makeUnsigned_std h1) h2 h3 (makeUnsigned_std h4)
  have FS := (F1.makeUnsigned h1).common4_1 (makeUnsigned_std h1) h2 h3 (makeUnsigned_std h4)
  unfold symvUpdateT symvUpdate
  dsimp only
  generalize common4 tA.makeUnsigned tx ty tz.makeUnsigned = sz at *
  exact bind_congr_prog (by idx) fun _ =>
    symvAccT_eq hsz h1 h2 h4 e1 FS F1 (F2.le (by omega)) (F4.le (by omega)) f1

/-- **C51** overwriting Hermitian matrix-vector product. -/
theorem C51_hemv [Add α] [Mul α] [Zero α] [ConjOps α] (fuel : Nat) (tA tx ty : IntTy) (A : MatV α)
    (t : Triangle) (x : VecV α) (y : Vec) (h1 : tA.Std) (h2 : tx.Std) (h3 : ty.Std)
    (e1 : A.rows = A.cols) (e2 : x.ext = A.rows) (e3 : y.ext = A.rows) (r1 : tA.Fits A.rows)
    (c1 : tA.Fits A.cols) (F2 : tx.Fits x.ext) (F3 : ty.Fits y.ext) (f1 : A.rows < fuel) :
    hemvT fuel tA tx ty A t x y = hemv A t x y := by
  have F1 := r1.max c1
  have hsz := common3_std h1 h2 h3
  have FS := F1.common3_1 h1 h2 h3
  unfold hemvT hemv
  dsimp only
  generalize common3 tA tx ty = sz at *
  exact bind_congr_prog (by idx) fun _ =>
    hemvAccT_eq hsz h1 h2 h3 e1 FS F1 (F2.le (by omega)) (F3.le (by omega)) f1

/-- **C51** updating Hermitian matrix-vector product. -/
theorem C51_hemv_update [Add α] [Mul α] [ConjOps α] (fuel : Nat) (tA tx ty tz : IntTy)
    (A : MatV α) (t : Triangle) (x : VecV α) (y : VecV α) (z : Vec) (h1 : tA.Std) (h2 : tx.Std)
    (h3 : ty.Std) (h4 : tz.Std) (e1 : A.rows = A.cols) (e2 : x.ext = A.rows) (e3 : y.ext = A.rows)
    (e4 : z.ext = A.rows) (r1 : tA.Fits A.rows) (c1 : tA.Fits A.cols) (F2 : tx.Fits x.ext)
    (F3 : ty.Fits y.ext) (F4 : tz.Fits z.ext) (f1 : A.rows < fuel) :
    hemvUpdateT fuel tA tx ty tz A t x y z = hemvUpdate A t x y z := by
  have F1 := r1.max c1
  have hsz := common4_std (makeUnsigned_std h1) h2 h3 (makeUnsigned_std h4)
  have FS := (F1.makeUnsigned h1).common4_1 (makeUnsigned_std h1) h2 h3 (makeUnsigned_std h4)
  unfold hemvUpdateT hemvUpdate
  dsimp only
  generalize common4 tA.makeUnsigned tx ty tz.makeUnsigned = sz at *
  exact bind_congr_prog (by idx) fun _ =>
    hemvAccT_eq hsz h1 h2 h4 e1 FS F1 (F2.le (by omega)) (F4.le (by omega)) f1

/-- **C51** overwriting `triangular_matrix_vector_product`. -/
theorem C51_trmv [Add α] [Mul α] [Zero α] (fuel : Nat) (tA tx ty : IntTy) (A : MatV α)
    (t : Triangle) (d : Diag) (x : VecV α) (y : Vec) (h1 : tA.Std) (h2 : tx.Std) (h3 : ty.Std)
    (e1 : A.rows = A.cols) (e2 : x.ext = A.rows) (e3 : y.ext = A.rows) (r1 : tA.Fits A.rows)
    (c1 : tA.Fits A.cols) (F2 : tx.Fits x.ext) (F3 : ty.Fits y.ext) (f1 : A.rows < fuel) :
    trmvT fuel tA tx ty A t d x y = trmv A t d x y := by
  have F1 := r1.max c1
  have hsz := common3_std h1 h2 h3
  have FS := F1.common3_1 h1 h2 h3
  unfold trmvT trmv
  dsimp only
  generalize common3 tA tx ty = sz at *
  exact bind_congr_prog (by idx) fun _ =>
    trmvAccT_eq hsz h1 h2 h3 e1 FS F1 (F2.le (by omega)) (F3.le (by omega)) f1

/-- **C51** updating `triangular_matrix_vector_product`. -/
theorem C51_trmv_update [Add α] [Mul α] (fuel : Nat) (tA tx ty tz : IntTy) (A : MatV α)
    (t : Triangle) (d : Diag) (x : VecV α) (y : VecV α) (z : Vec) (h1 : tA.Std) (h2 : tx.Std)
    (h3 : ty.Std) (h4 : tz.Std) (e1 : A.rows = A.cols) (e2 : x.ext = A.rows) (e3 : y.ext = A.rows)
    (e4 : z.ext = A.rows) (r1 : tA.Fits A.rows) (c1 : tA.Fits A.cols) (F2 : tx.Fits x.ext)
    (F3 : ty.Fits y.ext) (F4 : tz.Fits z.ext) (f1 : A.rows < fuel) :
    trmvUpdateT fuel tA tx ty tz A t d x y z = trmvUpdate A t d x y z := by
  have F1 := r1.max c1
  have hsz := common4_std (makeUnsigned_std h1) h2 (makeUnsigned_std h3) (makeUnsigned_std h4)
  have FS := (F1.makeUnsigned h1).common4_1 (makeUnsigned_std h1) h2 (makeUnsigned_std h3)
    (makeUnsigned_std h4)
  unfold trmvUpdateT trmvUpdate
  dsimp only
  generalize common4 tA.makeUnsigned tx ty.makeUnsigned tz.makeUnsigned = sz at *
  exact bind_congr_prog (by idx) fun _ =>
    trmvAccT_eq hsz h1 h2 h4 e1 FS F1 (F2.le (by omega)) (F4.le (by omega)) f1

/-- **C51** in-place `triangular_matrix_vector_product`. -/
theorem C51_trmv_in_place [Add α] [Mul α] (fuel : Nat) (tA ty : IntTy) (A : MatV α) (t : Triangle)
    (d : Diag) (y : Vec) (h1 : tA.Std) (h2 : ty.Std) (e1 : A.rows = A.cols) (e2 : y.ext = A.rows)
    (r1 : tA.Fits A.rows) (c1 : tA.Fits A.cols) (F2 : ty.Fits y.ext) (f1 : A.rows < fuel) :
    trmvInPlaceT fuel tA ty A t d y = trmvInPlace A t d y := by
  have F1 := r1.max c1
  have hsz := common_std h1 h2
  have FS := F1.common_left h1 h2
  unfold trmvInPlaceT trmvInPlace
  dsimp only
  generalize common tA ty = sz at *
  cases t with
  | upper => idx
  | lower =>
    refine upTo_eq0 hsz h1 (by fits) (by fits) (by omega) fun k hk => ?_
    refine bind_add_one hsz hsz (by fits) ?_
    rw [sub_fits h1 (usual_std hsz hsz) c1 (by omega), pure_bind_prog, cast_fits hsz (by fits)]
    generalize hj : A.cols - (k + 1) = j
    idx

/-- **C51** `matrix_rank_1_update`. -/
theorem C51_ger [Add α] [Mul α] (fuel : Nat) (tx ty tA : IntTy) (x : VecV α) (y : VecV α)
    (A : Mat) (h1 : tx.Std) (h2 : ty.Std) (h3 : tA.Std) (e1 : x.ext = A.rows)
    (e2 : y.ext = A.cols) (F1 : tx.Fits x.ext) (F2 : ty.Fits y.ext) (r3 : tA.Fits A.rows)
    (c3 : tA.Fits A.cols) (f1 : A.rows < fuel) (f2 : A.cols < fuel) :
    gerT fuel tx ty tA x y A = ger x y A := by
  have F3 := r3.max c3
  have hsz := common3_std h1 h2 h3
  have FS := F3.common3_3 h1 h2 h3
  unfold gerT ger
  dsimp only
  generalize common3 tx ty tA = sz at *
  idx

/-- **C51** `matrix_rank_1_update_c`. -/
theorem C51_gerc [Add α] [Mul α] [ConjOps α] (fuel : Nat) (tx ty tA : IntTy) (x y : VecV α) (A : Mat)
    (h1 : tx.Std) (h2 : ty.Std) (h3 : tA.Std) (e1 : x.ext = A.rows) (e2 : y.ext = A.cols)
    (F1 : tx.Fits x.ext) (F2 : ty.Fits y.ext) (r3 : tA.Fits A.rows) (c3 : tA.Fits A.cols)
    (f1 : A.rows < fuel) (f2 : A.cols < fuel) : gercT fuel tx ty tA x y A = gerc x y A :=
  C51_ger fuel tx ty tA x y.conjugated A h1 h2 h3 e1 e2 F1 F2 r3 c3 f1 f2

/-- **C51** `symmetric_matrix_rank_1_update` with `alpha`. -/
theorem C51_syr_alpha [Add α] [Mul α] (fuel : Nat) (tx tA : IntTy) (alpha : α) (x : VecV α)
    (A : Mat) (t : Triangle) (h1 : tx.Std) (h2 : tA.Std) (e1 : A.rows = A.cols)
    (e2 : x.ext = A.rows) (F1 : tx.Fits x.ext) (r2 : tA.Fits A.rows) (c2 : tA.Fits A.cols)
    (f1 : A.rows < fuel) :
    syrAlphaT fuel tx tA alpha x A t = syrAlpha alpha x A t := by
  have F2 := r2.max c2
  have hsz := common_std h1 h2
  have FS := F2.common_right h1 h2
  unfold syrAlphaT syrAlpha
  dsimp only
  generalize common tx tA = sz at *
  idx

/-- **C51** `symmetric_matrix_rank_1_update`. -/
theorem C51_syr [Add α] [Mul α] (fuel : Nat) (tx tA : IntTy) (x : VecV α) (A : Mat) (t : Triangle)
    (h1 : tx.Std) (h2 : tA.Std) (e1 : A.rows = A.cols) (e2 : x.ext = A.rows) (F1 : tx.Fits x.ext)
    (r2 : tA.Fits A.rows) (c2 : tA.Fits A.cols) (f1 : A.rows < fuel) :
    syrT fuel tx tA x A t = syr x A t := by
  have F2 := r2.max c2
  have hsz := common_std h1 h2
  have FS := F2.common_right h1 h2
  unfold syrT syr
  dsimp only
  generalize common tx tA = sz at *
  idx

/-- **C51** `hermitian_matrix_rank_1_update` with `alpha`. -/
theorem C51_her_alpha [Add α] [Mul α] [ConjOps α] (fuel : Nat) (tx tA : IntTy) (alpha : α)
    (x : VecV α) (A : Mat) (t : Triangle) (h1 : tx.Std) (h2 : tA.Std) (e1 : A.rows = A.cols)
    (e2 : x.ext = A.rows) (F1 : tx.Fits x.ext) (r2 : tA.Fits A.rows) (c2 : tA.Fits A.cols)
    (f1 : A.rows < fuel) :
    herAlphaT fuel tx tA alpha x A t = herAlpha alpha x A t := by
  have F2 := r2.max c2
  have hsz := common_std h1 h2
  have FS := F2.common_right h1 h2
  unfold herAlphaT herAlpha
  dsimp only
  generalize common tx tA = sz at *
  idx

/-- **C51** `hermitian_matrix_rank_1_update`. -/
theorem C51_her [Add α] [Mul α] [ConjOps α] (fuel : Nat) (tx tA : IntTy) (x : VecV α) (A : Mat)
    (t : Triangle) (h1 : tx.Std) (h2 : tA.Std) (e1 : A.rows = A.cols) (e2 : x.ext = A.rows)
    (F1 : tx.Fits x.ext) (r2 : tA.Fits A.rows) (c2 : tA.Fits A.cols) (f1 : A.rows < fuel) :
    herT fuel tx tA x A t = her x A t := by
  have F2 := r2.max c2
  have hsz := common_std h1 h2
  have FS := F2.common_right h1 h2
  unfold herT her
  dsimp only
  generalize common tx tA = sz at *
  idx

/-- **C51** `symmetric_matrix_rank_2_update`. -/
theorem C51_syr2 [Add α] [Mul α] (fuel : Nat) (tx ty tA : IntTy) (x : VecV α) (y : VecV α)
    (A : Mat) (t : Triangle) (h1 : tx.Std) (h2 : ty.Std) (h3 : tA.Std) (e1 : A.rows = A.cols)
    (e2 : x.ext = A.rows) (e3 : y.ext = A.rows) (F1 : tx.Fits x.ext) (F2 : ty.Fits y.ext)
    (r3 : tA.Fits A.rows) (c3 : tA.Fits A.cols) (f1 : A.rows < fuel) :
    syr2T fuel tx ty tA x y A t = syr2 x y A t := by
  have F3 := r3.max c3
  have hsz := common3_std h1 h2 h3
  have FS := F3.common3_3 h1 h2 h3
  unfold syr2T syr2
  dsimp only
  generalize common3 tx ty tA = sz at *
  idx

/-- **C51** `hermitian_matrix_rank_2_update`. -/
theorem C51_her2 [Add α] [Mul α] [ConjOps α] (fuel : Nat) (tx ty tA : IntTy) (x : VecV α)
    (y : VecV α) (A : Mat) (t : Triangle) (h1 : tx.Std) (h2 : ty.Std) (h3 : tA.Std)
    (e1 : A.rows = A.cols) (e2 : x.ext = A.rows) (e3 : y.ext = A.rows) (F1 : tx.Fits x.ext)
    (F2 : ty.Fits y.ext) (r3 : tA.Fits A.rows) (c3 : tA.Fits A.cols) (f1 : A.rows < fuel) :
    her2T fuel tx ty tA x y A t = her2 x y A t := by
  have F3 := r3.max c3
  have hsz := common3_std h1 h2 h3
  have FS := F3.common3_3 h1 h2 h3
  unfold her2T her2
  dsimp only
  generalize common3 tx ty tA = sz at *
  idx

/-- **C51** `symmetric_matrix_rank_k_update` with `alpha`. -/
theorem C51_syrk_alpha [Add α] [Mul α] (fuel : Nat) (tA tC : IntTy) (alpha : α) (A : MatV α)
    (C : Mat) (t : Triangle) (h1 : tA.Std) (h2 : tC.Std) (e1 : C.rows = C.cols)
    (e2 : A.rows = C.rows) (r1 : tA.Fits A.rows) (c1 : tA.Fits A.cols) (r2 : tC.Fits C.rows)
    (c2 : tC.Fits C.cols) (f1 : C.rows < fuel) (f2 : A.cols < fuel) :
    syrkAlphaT fuel tA tC alpha A C t = syrkAlpha alpha A C t := by
  have F1 := r1.max c1
  have F2 := r2.max c2
  have hsz := common_std h1 h2
  have FS := (F1.common_left h1 h2).max (F2.common_right h1 h2)
  unfold syrkAlphaT syrkAlpha
  dsimp only
  generalize common tA tC = sz at *
  idx

/-- **C51** `symmetric_matrix_rank_k_update`. -/
theorem C51_syrk [Add α] [Mul α] (fuel : Nat) (tA tC : IntTy) (A : MatV α) (C : Mat)
    (t : Triangle) (h1 : tA.Std) (h2 : tC.Std) (e1 : C.rows = C.cols) (e2 : A.rows = C.rows)
    (r1 : tA.Fits A.rows) (c1 : tA.Fits A.cols) (r2 : tC.Fits C.rows) (c2 : tC.Fits C.cols)
    (f1 : C.rows < fuel) (f2 : A.cols < fuel) :
    syrkT fuel tA tC A C t = syrk A C t := by
  have F1 := r1.max c1
  have F2 := r2.max c2
  have hsz := common_std h1 h2
  have FS := (F1.common_left h1 h2).max (F2.common_right h1 h2)
  unfold syrkT syrk
  dsimp only
  generalize common tA tC = sz at *
  idx

/-- **C51** `hermitian_matrix_rank_k_update` with `alpha`. -/
theorem C51_herk_alpha [Add α] [Mul α] [ConjOps α] (fuel : Nat) (tA tC : IntTy) (alpha : α)
    (A : MatV α) (C : Mat) (t : Triangle) (h1 : tA.Std) (h2 : tC.Std) (e1 : C.rows = C.cols)
    (e2 : A.rows = C.rows) (r1 : tA.Fits A.rows) (c1 : tA.Fits A.cols) (r2 : tC.Fits C.rows)
    (c2 : tC.Fits C.cols) (f1 : C.rows < fuel) (f2 : A.cols < fuel) :
    herkAlphaT fuel tA tC alpha A C t = herkAlpha alpha A C t := by
  have F1 := r1.max c1
  have F2 := r2.max c2
  have hsz := common_std h1 h2
  have FS := (F1.common_left h1 h2).max (F2.common_right h1 h2)
  unfold herkAlphaT herkAlpha
  dsimp only
  generalize common tA tC = sz at *
  idx

/-- **C51** `hermitian_matrix_rank_k_update`. -/
theorem C51_herk [Add α] [Mul α] [ConjOps α] (fuel : Nat) (tA tC : IntTy) (A : MatV α) (C : Mat)
    (t : Triangle) (h1 : tA.Std) (h2 : tC.Std) (e1 : C.rows = C.cols) (e2 : A.rows = C.rows)
    (r1 : tA.Fits A.rows) (c1 : tA.Fits A.cols) (r2 : tC.Fits C.rows) (c2 : tC.Fits C.cols)
    (f1 : C.rows < fuel) (f2 : A.cols < fuel) :
    herkT fuel tA tC A C t = herk A C t := by
  have F1 := r1.max c1
  have F2 := r2.max c2
  have hsz := common_std h1 h2
  have FS := (F1.common_left h1 h2).max (F2.common_right h1 h2)
  unfold herkT herk
  dsimp only
  generalize common tA tC = sz at *
  idx

/-- **C51** `symmetric_matrix_rank_2k_update`. -/
theorem C51_syr2k [Add α] [Mul α] (fuel : Nat) (tA tB tC : IntTy) (A : MatV α) (B : MatV α)
    (C : Mat) (t : Triangle) (h1 : tA.Std) (h2 : tB.Std) (h3 : tC.Std) (e1 : C.rows = C.cols)
    (e2 : A.rows = C.rows) (e3 : B.rows = C.rows) (e4 : B.cols = A.cols) (r1 : tA.Fits A.rows)
    (c1 : tA.Fits A.cols) (r2 : tB.Fits B.rows) (c2 : tB.Fits B.cols) (r3 : tC.Fits C.rows)
    (c3 : tC.Fits C.cols) (f1 : C.rows < fuel) (f2 : A.cols < fuel) :
    syr2kT fuel tA tB tC A B C t = syr2k A B C t := by
  have F1 := r1.max c1
  have F2 := r2.max c2
  have F3 := r3.max c3
  have hsz := common3_std h1 h2 h3
  have FS := (F1.common3_1 h1 h2 h3).max (F3.common3_3 h1 h2 h3)
  unfold syr2kT syr2k
  dsimp only
  generalize common3 tA tB tC = sz at *
  idx

/-- **C51** `hermitian_matrix_rank_2k_update`. -/
theorem C51_her2k [Add α] [Mul α] [ConjOps α] (fuel : Nat) (tA tB tC : IntTy) (A : MatV α)
    (B : MatV α) (C : Mat) (t : Triangle) (h1 : tA.Std) (h2 : tB.Std) (h3 : tC.Std)
    (e1 : C.rows = C.cols) (e2 : A.rows = C.rows) (e3 : B.rows = C.rows) (e4 : B.cols = A.cols)
    (r1 : tA.Fits A.rows) (c1 : tA.Fits A.cols) (r2 : tB.Fits B.rows) (c2 : tB.Fits B.cols)
    (r3 : tC.Fits C.rows) (c3 : tC.Fits C.cols) (f1 : C.rows < fuel) (f2 : A.cols < fuel) :
    her2kT fuel tA tB tC A B C t = her2k A B C t := by
  have F1 := r1.max c1
  have F2 := r2.max c2
  have F3 := r3.max c3
  have hsz := common3_std h1 h2 h3
  have FS := (F1.common3_1 h1 h2 h3).max (F3.common3_3 h1 h2 h3)
  unfold her2kT her2k
  dsimp only
  generalize common3 tA tB tC = sz at *
  idx

/-- **C51** overwriting `matrix_product`. -/
theorem C51_gemm [Add α] [Mul α] [Zero α] (fuel : Nat) (tA tB tC : IntTy) (A : MatV α)
    (B : MatV α) (C : Mat) (h1 : tA.Std) (h2 : tB.Std) (h3 : tC.Std) (e1 : A.rows = C.rows)
    (e2 : B.rows = A.cols) (e3 : B.cols = C.cols) (r1 : tA.Fits A.rows) (c1 : tA.Fits A.cols)
    (r2 : tB.Fits B.rows) (c2 : tB.Fits B.cols) (r3 : tC.Fits C.rows) (c3 : tC.Fits C.cols)
    (f1 : C.rows < fuel) (f2 : C.cols < fuel) (f3 : A.cols < fuel) :
    gemmT fuel tA tB tC A B C = gemm A B C := by
  have F1 := r1.max c1
  have F2 := r2.max c2
  have F3 := r3.max c3
  have hsz := common3_std h1 h2 h3
  have FS := (F1.common3_1 h1 h2 h3).max (F3.common3_3 h1 h2 h3)
  unfold gemmT gemm
  dsimp only
  generalize common3 tA tB tC = sz at *
  idx

/-- **C51** updating `matrix_product`. -/
theorem C51_gemm_update [Add α] [Mul α] (fuel : Nat) (tA tB tE tC : IntTy) (A : MatV α)
    (B : MatV α) (E : MatV α) (C : Mat) (h1 : tA.Std) (h2 : tB.Std) (h3 : tE.Std) (h4 : tC.Std)
    (e1 : A.rows = C.rows) (e2 : B.rows = A.cols) (e3 : B.cols = C.cols) (e4 : E.rows = C.rows)
    (e5 : E.cols = C.cols) (r1 : tA.Fits A.rows) (c1 : tA.Fits A.cols) (r2 : tB.Fits B.rows)
    (c2 : tB.Fits B.cols) (r3 : tE.Fits E.rows) (c3 : tE.Fits E.cols) (r4 : tC.Fits C.rows)
    (c4 : tC.Fits C.cols) (f1 : C.rows < fuel) (f2 : C.cols < fuel) (f3 : A.cols < fuel) :
    gemmUpdateT fuel tA tB tE tC A B E C = gemmUpdate A B E C := by
  have F1 := r1.max c1
  have F2 := r2.max c2
  have F3 := r3.max c3
  have F4 := r4.max c4
  have hsz := common4_std h1 h2 h3 h4
  have FS := (F1.common4_1 h1 h2 h3 h4).max (F4.common4_4 h1 h2 h3 h4)
  unfold gemmUpdateT gemmUpdate
  dsimp only
  generalize common4 tA tB tE tC = sz at *
  idx

/-- **C51** `symmetric_matrix_product`, symmetric matrix on the left. -/
theorem C51_symm_left [Add α] [Mul α] [Zero α] (fuel : Nat) (tA tB tC : IntTy) (A : MatV α)
    (t : Triangle) (B : MatV α) (C : Mat) (h1 : tA.Std) (h2 : tB.Std) (h3 : tC.Std)
    (e1 : A.rows = A.cols) (e2 : A.rows = C.rows) (e3 : B.rows = C.rows) (e4 : B.cols = C.cols)
    (r1 : tA.Fits A.rows) (c1 : tA.Fits A.cols) (r2 : tB.Fits B.rows) (c2 : tB.Fits B.cols)
    (r3 : tC.Fits C.rows) (c3 : tC.Fits C.cols) (f1 : C.rows < fuel) (f2 : C.cols < fuel) :
    symmLeftT fuel tA tB tC A t B C = symmLeft A t B C := by
  have F1 := r1.max c1
  have F2 := r2.max c2
  have F3 := r3.max c3
  have hsz := common3_std h1 h2 h3
  have FS := (F1.common3_1 h1 h2 h3).max (F3.common3_3 h1 h2 h3)
  unfold symmLeftT symmLeft
  dsimp only
  generalize common3 tA tB tC = sz at *
  have hle : ∀ {m n : Nat}, sz.Fits m → sz.Fits n → le sz sz m n = decide (m ≤ n) :=
    fun hm hn => le_fits hsz hsz hm hn
  cases t with
  | lower =>
    refine upTo_eq0 hsz h3 (by fits) (by fits) (by omega) fun j hj => ?_
    refine upTo_eq0 hsz h3 (by fits) (by fits) (by omega) fun i hi => ?_
    refine bind_congr_prog (by idx) fun _ => ?_
    refine upTo_eq0 hsz h1 (by fits) (by fits) (by omega) fun k hk => ?_
    rw [hle (FS.le (by omega)) (FS.le (by omega))]
    simp only [decide_eq_true_eq]
    idx
  | upper =>
    refine upTo_eq0 hsz h3 (by fits) (by fits) (by omega) fun j hj => ?_
    refine upTo_eq0 hsz h3 (by fits) (by fits) (by omega) fun i hi => ?_
    refine bind_congr_prog (by idx) fun _ => ?_
    refine upTo_eq0 hsz h1 (by fits) (by fits) (by omega) fun k hk => ?_
    rw [hle (FS.le (by omega)) (FS.le (by omega))]
    simp only [decide_eq_true_eq, ge_iff_le]
    idx

/-- **C51** `symmetric_matrix_product`, symmetric matrix on the right. -/
theorem C51_symm_right [Add α] [Mul α] [Zero α] (fuel : Nat) (tA tB tC : IntTy) (A : MatV α)
    (t : Triangle) (B : MatV α) (C : Mat) (h1 : tA.Std) (h2 : tB.Std) (h3 : tC.Std)
    (e1 : A.rows = A.cols) (e2 : A.cols = C.cols) (e3 : B.rows = C.rows) (e4 : B.cols = C.cols)
    (r1 : tA.Fits A.rows) (c1 : tA.Fits A.cols) (r2 : tB.Fits B.rows) (c2 : tB.Fits B.cols)
    (r3 : tC.Fits C.rows) (c3 : tC.Fits C.cols) (f1 : C.rows < fuel) (f2 : C.cols < fuel) :
    symmRightT fuel tA tB tC B A t C = symmRight B A t C := by
  have F1 := r1.max c1
  have F2 := r2.max c2
  have F3 := r3.max c3
  have hsz := common3_std h1 h2 h3
  have FS := (F1.common3_1 h1 h2 h3).max (F3.common3_3 h1 h2 h3)
  unfold symmRightT symmRight
  dsimp only
  generalize common3 tA tB tC = sz at *
  have hle : ∀ {m n : Nat}, sz.Fits m → sz.Fits n → le sz sz m n = decide (m ≤ n) :=
    fun hm hn => le_fits hsz hsz hm hn
  cases t with
  | lower =>
    refine upTo_eq0 hsz h3 (by fits) (by fits) (by omega) fun j hj => ?_
    refine upTo_eq0 hsz h3 (by fits) (by fits) (by omega) fun i hi => ?_
    refine bind_congr_prog (by idx) fun _ => ?_
    refine upTo_eq0 hsz h1 (by fits) (by fits) (by omega) fun k hk => ?_
    rw [hle (FS.le (by omega)) (FS.le (by omega))]
    simp only [decide_eq_true_eq]
    idx
  | upper =>
    refine upTo_eq0 hsz h3 (by fits) (by fits) (by omega) fun j hj => ?_
    refine upTo_eq0 hsz h3 (by fits) (by fits) (by omega) fun i hi => ?_
    refine bind_congr_prog (by idx) fun _ => ?_
    refine upTo_eq0 hsz h1 (by fits) (by fits) (by omega) fun k hk => ?_
    rw [hle (FS.le (by omega)) (FS.le (by omega))]
    simp only [decide_eq_true_eq, ge_iff_le]
    idx

/-- **C51** `hermitian_matrix_product`, Hermitian matrix on the left. -/
theorem C51_hemm_left [Add α] [Mul α] [Zero α] [ConjOps α] (fuel : Nat) (tA tB tC : IntTy)
    (A : MatV α) (t : Triangle) (B : MatV α) (C : Mat) (h1 : tA.Std) (h2 : tB.Std) (h3 : tC.Std)
    (e1 : A.rows = A.cols) (e2 : A.rows = C.rows) (e3 : B.rows = C.rows) (e4 : B.cols = C.cols)
    (r1 : tA.Fits A.rows) (c1 : tA.Fits A.cols) (r2 : tB.Fits B.rows) (c2 : tB.Fits B.cols)
    (r3 : tC.Fits C.rows) (c3 : tC.Fits C.cols) (f1 : C.rows < fuel) (f2 : C.cols < fuel) :
    hemmLeftT fuel tA tB tC A t B C = hemmLeft A t B C := by
  have F1 := r1.max c1
  have F2 := r2.max c2
  have F3 := r3.max c3
  have hsz := common3_std h1 h2 h3
  have FS := (F1.common3_1 h1 h2 h3).max (F3.common3_3 h1 h2 h3)
  unfold hemmLeftT hemmLeft
  dsimp only
  generalize common3 tA tB tC = sz at *
  cases t with
  | lower => idx
  | upper => idx

/-- **C51** `hermitian_matrix_product`, Hermitian matrix on the right. -/
theorem C51_hemm_right [Add α] [Mul α] [Zero α] [ConjOps α] (fuel : Nat) (tA tB tC : IntTy)
    (A : MatV α) (t : Triangle) (B : MatV α) (C : Mat) (h1 : tA.Std) (h2 : tB.Std) (h3 : tC.Std)
    (e1 : A.rows = A.cols) (e2 : A.cols = C.cols) (e3 : B.rows = C.rows) (e4 : B.cols = C.cols)
    (r1 : tA.Fits A.rows) (c1 : tA.Fits A.cols) (r2 : tB.Fits B.rows) (c2 : tB.Fits B.cols)
    (r3 : tC.Fits C.rows) (c3 : tC.Fits C.cols) (f1 : C.rows < fuel) (f2 : C.cols < fuel) :
    hemmRightT fuel tA tB tC B A t C = hemmRight B A t C := by
  have F1 := r1.max c1
  have F2 := r2.max c2
  have F3 := r3.max c3
  have hsz := common3_std h1 h2 h3
  have FS := (F1.common3_1 h1 h2 h3).max (F3.common3_3 h1 h2 h3)
  unfold hemmRightT hemmRight
  dsimp only
  generalize common3 tA tB tC = sz at *
  have hle : ∀ {m n : Nat}, sz.Fits m → sz.Fits n → le sz sz m n = decide (m ≤ n) :=
    fun hm hn => le_fits hsz hsz hm hn
  cases t with
  | lower =>
    refine upTo_eq0 hsz h3 (by fits) (by fits) (by omega) fun j hj => ?_
    refine upTo_eq0 hsz h3 (by fits) (by fits) (by omega) fun i hi => ?_
    refine bind_congr_prog (by idx) fun _ => ?_
    refine upTo_eq0 hsz h1 (by fits) (by fits) (by omega) fun k hk => ?_
    rw [hle (FS.le (by omega)) (FS.le (by omega))]
    simp only [decide_eq_true_eq]
    idx
  | upper =>
    refine upTo_eq0 hsz h3 (by fits) (by fits) (by omega) fun j hj => ?_
    refine upTo_eq0 hsz h3 (by fits) (by fits) (by omega) fun i hi => ?_
    refine bind_congr_prog (by idx) fun _ => ?_
    refine upTo_eq0 hsz h1 (by fits) (by fits) (by omega) fun k hk => ?_
    rw [hle (FS.le (by omega)) (FS.le (by omega))]
    simp only [decide_eq_true_eq, ge_iff_le]
    idx

/-! ### Concrete cases: 3-element views, every mdspan with another index type -/

/-- Discharges the side conditions on concrete views and index types. -/
local macro "concrete" : tactic =>
  `(tactic| first
      | rfl
      | decide
      | (unfold Std; decide)
      | (refine (?_ : IntTy.Fits _ 3); decide)
      | (refine (?_ : 3 < 1000); decide))

example : dotT 1000 uint8 int (x.view : VecV ℤ) y.view 5 = dot (x.view : VecV ℤ) y.view 5 := by
  apply C51_dot <;> concrete

example : scale1T 1000 uint8 (2 : ℤ) y = scale1 (2 : ℤ) y ∧
    scale2T 1000 int (2 : ℤ) B = scale2 (2 : ℤ) B := by
  constructor
  · apply C51_scale_vector <;> concrete
  · apply C51_scale_matrix <;> concrete

example : copy2T 1000 uint8 size (A.view : MatV ℤ) B = copy2 (A.view : MatV ℤ) B ∧
    add1T 1000 uint8 int size (x.view : VecV ℤ) y.view z = add1 (x.view : VecV ℤ) y.view z := by
  constructor
  · apply C51_copy_matrix <;> concrete
  · apply C51_add_vector <;> concrete

example : applyGivensT 1000 uint8 int x y (3 : ℤ) 4 = applyGivens x y (3 : ℤ) 4 := by
  apply C51_apply_givens <;> concrete

/-- The result of `matrix_product` for a 3×2 and a 2×3 matrix with three different index types. -/
example : Ends (gemmT 1000 uint8 int size (T.view : MatV ℤ) W.view C) (heap ℤ) fun _ h' =>
    C.Becomes (heap ℤ) h' (mulMat 2 (mvals ℤ T) (mvals ℤ W)) := by
  rw [C51_gemm 1000 uint8 int size T.view W.view C (by concrete) (by concrete) (by concrete) rfl rfl rfl
    (by concrete) (by concrete) (by concrete) (by concrete) (by concrete) (by concrete)
    (by concrete) (by concrete) (by concrete)]
  exact C31_gemm _ _ _ _ _ _ (mholdsV bT) (mholdsV bW) (malloc bC) rfl rfl rfl
    (by view_facts) (by view_facts) (by view_facts)

example (t : Triangle) : symvUpdateT 1000 uint8 int size uint32 (A.view : MatV ℤ) t x.view y.view z =
    symvUpdate (A.view : MatV ℤ) t x.view y.view z := by
  apply C51_symv_update <;> concrete

example (t : Triangle) (d : Diag) : trmvT 1000 uint8 int size (A.view : MatV ℤ) t d x.view y =
    trmv (A.view : MatV ℤ) t d x.view y := by
  apply C51_trmv <;> concrete

example (t : Triangle) : syr2kT 1000 uint8 int size (A.view : MatV ℤ) B.view C t =
    syr2k (A.view : MatV ℤ) B.view C t := by
  apply C51_syr2k <;> concrete

example (t : Triangle) : syrAlphaT 1000 int uint8 (2 : ℤ) x.view A t = syrAlpha (2 : ℤ) x.view A t := by
  apply C51_syr_alpha <;> concrete

example (t : Triangle) : symmRightT 1000 uint8 int size (B.view : MatV ℤ) A.view t C =
    symmRight (B.view : MatV ℤ) A.view t C := by
  apply C51_symm_right <;> concrete

example : copy1T 1000 uint8 int (x.view : VecV α) y = copy1 (x.view : VecV α) y := by
  apply C51_copy_vector <;> concrete

example : swap1T (α := α) 1000 uint8 int x y = swap1 x y := by
  apply C51_swap_vector <;> concrete

example : swap2T (α := α) 1000 uint8 int A B = swap2 A B := by
  apply C51_swap_matrix <;> concrete

example [Add α] : add2T 1000 uint8 int size (A.view : MatV α) (B.view : MatV α) C =
    add2 (A.view : MatV α) (B.view : MatV α) C := by
  apply C51_add_matrix <;> concrete

example [Add α] [Mul α] [ConjOps α] (init : α) :
    dotcT 1000 uint8 int (x.view : VecV α) (y.view : VecV α) init =
    dotc (x.view : VecV α) (y.view : VecV α) init := by
  apply C51_dotc <;> concrete

example [Add α] [Sub α] [Mul α] [ConjOps α] (c : α) (s : α) : applyGivensCT 1000 uint8 int x y c s =
    applyGivensC x y c s := by
  apply C51_apply_givens_complex <;> concrete

example (init : ℝ) : vectorAbsSumT 1000 uint8 (x.view : VecV ℝ) init =
    vectorAbsSumOf (x.view : VecV ℝ) init := by
  apply C51_vector_abs_sum <;> concrete

example (init : SumOfSquaresOf ℝ) : vectorSumOfSquaresT 1000 uint8 (x.view : VecV ℝ) init =
    vectorSumOfSquaresOf (x.view : VecV ℝ) init := by
  apply C51_vector_sum_of_squares <;> concrete

example (init : ℝ) : vectorTwoNormT 1000 uint8 (x.view : VecV ℝ) init =
    vectorTwoNormOf (x.view : VecV ℝ) init := by
  apply C51_vector_two_norm <;> concrete

example (init : ℝ) : matrixFrobNormT 1000 uint8 (A.view : MatV ℝ) init =
    matrixFrobNormOf (A.view : MatV ℝ) init := by
  apply C51_matrix_frob_norm <;> concrete

example (init : ℝ) : matrixOneNormT 1000 uint8 (A.view : MatV ℝ) init =
    matrixOneNormOf (A.view : MatV ℝ) init := by
  apply C51_matrix_one_norm <;> concrete

example (init : ℝ) : matrixInfNormT 1000 uint8 (A.view : MatV ℝ) init =
    matrixInfNormOf (A.view : MatV ℝ) init := by
  apply C51_matrix_inf_norm <;> concrete

example [Add α] [Mul α] [Zero α] : gemvT 1000 uint8 int size (A.view : MatV α) (x.view : VecV α) y =
    gemv (A.view : MatV α) (x.view : VecV α) y := by
  apply C51_gemv <;> concrete

example [Add α] [Mul α] :
    gemvUpdateT 1000 uint8 int size uint32 (A.view : MatV α) (x.view : VecV α) (y.view : VecV α) z =
    gemvUpdate (A.view : MatV α) (x.view : VecV α) (y.view : VecV α) z := by
  apply C51_gemv_update <;> concrete

example [Add α] [Mul α] [Zero α] (t : Triangle) :
    symvT 1000 uint8 int size (A.view : MatV α) t (x.view : VecV α) y =
    symv (A.view : MatV α) t (x.view : VecV α) y := by
  apply C51_symv <;> concrete

example [Add α] [Mul α] [Zero α] [ConjOps α] (t : Triangle) :
    hemvT 1000 uint8 int size (A.view : MatV α) t (x.view : VecV α) y =
    hemv (A.view : MatV α) t (x.view : VecV α) y := by
  apply C51_hemv <;> concrete

example [Add α] [Mul α] [ConjOps α] (t : Triangle) :
    hemvUpdateT 1000 uint8 int size uint32 (A.view : MatV α) t (x.view : VecV α) (y.view : VecV α) z =
    hemvUpdate (A.view : MatV α) t (x.view : VecV α) (y.view : VecV α) z := by
  apply C51_hemv_update <;> concrete

example [Add α] [Mul α] (t : Triangle) (d : Diag) :
    trmvUpdateT 1000 uint8 int size uint32 (A.view : MatV α) t d (x.view : VecV α) (y.view : VecV α) z =
    trmvUpdate (A.view : MatV α) t d (x.view : VecV α) (y.view : VecV α) z := by
  apply C51_trmv_update <;> concrete

example [Add α] [Mul α] (t : Triangle) (d : Diag) :
    trmvInPlaceT 1000 uint8 int (A.view : MatV α) t d y =
    trmvInPlace (A.view : MatV α) t d y := by
  apply C51_trmv_in_place <;> concrete

example [Add α] [Mul α] : gerT 1000 uint8 int size (x.view : VecV α) (y.view : VecV α) A =
    ger (x.view : VecV α) (y.view : VecV α) A := by
  apply C51_ger <;> concrete

example [Add α] [Mul α] [ConjOps α] :
    gercT 1000 uint8 int size (x.view : VecV α) (y.view : VecV α) A =
    gerc (x.view : VecV α) (y.view : VecV α) A := by
  apply C51_gerc <;> concrete

example [Add α] [Mul α] (t : Triangle) : syrT 1000 uint8 int (x.view : VecV α) A t =
    syr (x.view : VecV α) A t := by
  apply C51_syr <;> concrete

example [Add α] [Mul α] [ConjOps α] (alpha : α) (t : Triangle) :
    herAlphaT 1000 uint8 int alpha (x.view : VecV α) A t =
    herAlpha alpha (x.view : VecV α) A t := by
  apply C51_her_alpha <;> concrete

example [Add α] [Mul α] [ConjOps α] (t : Triangle) : herT 1000 uint8 int (x.view : VecV α) A t =
    her (x.view : VecV α) A t := by
  apply C51_her <;> concrete

example [Add α] [Mul α] (t : Triangle) :
    syr2T 1000 uint8 int size (x.view : VecV α) (y.view : VecV α) A t =
    syr2 (x.view : VecV α) (y.view : VecV α) A t := by
  apply C51_syr2 <;> concrete

example [Add α] [Mul α] [ConjOps α] (t : Triangle) :
    her2T 1000 uint8 int size (x.view : VecV α) (y.view : VecV α) A t =
    her2 (x.view : VecV α) (y.view : VecV α) A t := by
  apply C51_her2 <;> concrete

example [Add α] [Mul α] (alpha : α) (t : Triangle) :
    syrkAlphaT 1000 uint8 int alpha (A.view : MatV α) C t =
    syrkAlpha alpha (A.view : MatV α) C t := by
  apply C51_syrk_alpha <;> concrete

example [Add α] [Mul α] (t : Triangle) : syrkT 1000 uint8 int (A.view : MatV α) C t =
    syrk (A.view : MatV α) C t := by
  apply C51_syrk <;> concrete

example [Add α] [Mul α] [ConjOps α] (alpha : α) (t : Triangle) :
    herkAlphaT 1000 uint8 int alpha (A.view : MatV α) C t =
    herkAlpha alpha (A.view : MatV α) C t := by
  apply C51_herk_alpha <;> concrete

example [Add α] [Mul α] [ConjOps α] (t : Triangle) : herkT 1000 uint8 int (A.view : MatV α) C t =
    herk (A.view : MatV α) C t := by
  apply C51_herk <;> concrete

example [Add α] [Mul α] [ConjOps α] (t : Triangle) :
    her2kT 1000 uint8 int size (A.view : MatV α) (B.view : MatV α) C t =
    her2k (A.view : MatV α) (B.view : MatV α) C t := by
  apply C51_her2k <;> concrete

example [Add α] [Mul α] :
    gemmUpdateT 1000 uint8 int size uint32 (A.view : MatV α) (B.view : MatV α) (A.view : MatV α) C =
    gemmUpdate (A.view : MatV α) (B.view : MatV α) (A.view : MatV α) C := by
  apply C51_gemm_update <;> concrete

example [Add α] [Mul α] [Zero α] (t : Triangle) :
    symmLeftT 1000 uint8 int size (A.view : MatV α) t (B.view : MatV α) C =
    symmLeft (A.view : MatV α) t (B.view : MatV α) C := by
  apply C51_symm_left <;> concrete

example [Add α] [Mul α] [Zero α] [ConjOps α] (t : Triangle) :
    hemmLeftT 1000 uint8 int size (A.view : MatV α) t (B.view : MatV α) C =
    hemmLeft (A.view : MatV α) t (B.view : MatV α) C := by
  apply C51_hemm_left <;> concrete

/-- With an 8-bit index type `vector_idx_abs_max` of an empty vector is 255. -/
example [Add R] [FloatOps R] [MagOps α R] (a : Nat → Nat) (h : Heap α) :
    Ends (vectorIdxAbsMaxT R 1000 uint8 (⟨0, a⟩ : Vec).view) h fun r h' =>
      r = 255 ∧ h' = h := by
  rw [C51_vector_idx_abs_max 1000 uint8 (⟨0, a⟩ : Vec).view (by concrete)
    (by change uint8.Fits 0; decide) (by change 0 < 1000; decide)]
  exact ⟨255, h, rfl, rfl, rfl⟩

/-- 200 elements fit `uint8_t` and not `int8_t`. -/
example (alpha : ℤ) (a : Nat → Nat) :
    scale1T 1000 uint8 alpha ⟨200, a⟩ = scale1 alpha ⟨200, a⟩ ∧ uint8.Fits 200 ∧
      ¬ (⟨true, 8⟩ : IntTy).Fits 200 := by
  refine ⟨C51_scale_vector _ _ _ _ (by concrete) ?_ ?_, by decide, by decide⟩
  · change uint8.Fits 200; decide
  · change 200 < 1000; decide

end StdBLAS

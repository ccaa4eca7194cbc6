import Verif.Lemmas.Blocks
import Verif.Model.FloatReductions
import Verif.Model.Givens
import Verif.Model.Blas3
import Verif.Props.EvaluationOrder
import Verif.Props.RoundingNorms

/-!
# Property C73: one call, or several calls on parts

First part: cutting a call along its outermost loop.  The two calls on the parts are, as
programs, the one call on the whole: same result, same memory afterwards, same undefined
behaviour, for all arguments (overlapping or not), all memories and all element types, whatever
their arithmetic.
-/

namespace StdBLAS
open Finset Witness
variable {α R : Type}

/-! ## Reductions: the result of the first part is the initial value of the second -/

/-- **C73** `dot(x, y, init)` -/
theorem C73_dot [Add α] [Mul α] (x y : VecV α) (init : α) (k : Nat) (hk : k ≤ x.ext)
    (hxy : x.ext ≤ y.ext) :
    dot x y init = (do
      let s ← dot (x.slice 0 k) (y.slice 0 k) init
      dot (x.slice k (x.ext - k)) (y.slice k (x.ext - k)) s) := by
  refine foldEach_split' hk init (fun s i hi => ?_) fun s i hi => ?_
  · rw [VecV.slice_get hi (by omega), VecV.slice_get hi (by omega), Nat.zero_add]
  · rw [VecV.slice_get hi (by omega), VecV.slice_get hi (by omega)]

example : dot (x.view : VecV Term) y.view (.int 5) = (do
    let s ← dot ((x.view : VecV Term).slice 0 1) ((y.view : VecV Term).slice 0 1) (.int 5)
    dot ((x.view : VecV Term).slice 1 2) ((y.view : VecV Term).slice 1 2) s) :=
  C73_dot _ _ _ 1 (by decide) le_rfl

/-- **C73** `dotc(x, y, init)` -/
theorem C73_dotc [Add α] [Mul α] [ConjOps α] (x y : VecV α) (init : α) (k : Nat) (hk : k ≤ x.ext)
    (hxy : x.ext ≤ y.ext) :
    dotc x y init = (do
      let s ← dotc (x.slice 0 k) (y.slice 0 k) init
      dotc (x.slice k (x.ext - k)) (y.slice k (x.ext - k)) s) :=
  C73_dot x.conjugated y init k hk hxy

example : dotc (x.view : VecV ℂ) y.view 5 = (do
    let s ← dotc ((x.view : VecV ℂ).slice 0 1) ((y.view : VecV ℂ).slice 0 1) 5
    dotc ((x.view : VecV ℂ).slice 1 2) ((y.view : VecV ℂ).slice 1 2) s) :=
  C73_dotc _ _ _ 1 (by decide) le_rfl

section
variable [Zero R] [One R] [Add R] [Mul R] [Div R] [FloatOps R] [MagOps α R]

/-- **C73** `vector_sum_of_squares(x, init)`: this is what the `sum_of_squares_result` is for. -/
theorem C73_sum_of_squares (x : VecV α) (init : SumOfSquaresOf R) (k : Nat) (hk : k ≤ x.ext) :
    vectorSumOfSquaresOf x init = (do
      let s ← vectorSumOfSquaresOf (x.slice 0 k) init
      vectorSumOfSquaresOf (x.slice k (x.ext - k)) s) := by
  have e : ∀ (y : VecV α) (s : SumOfSquaresOf R), vectorSumOfSquaresOf y s =
      foldEach (List.range' 0 y.ext) s fun s i => (do
        let v ← y.get i
        if FloatOps.ne (MagOps.abs v : R) 0 then
          let v ← y.get i
          let absxi : R := MagOps.abs v
          if FloatOps.lt s.scalingFactor absxi then
            let quotient := s.scalingFactor / absxi
            pure ⟨absxi, 1 + s.scaledSumOfSquares * quotient * quotient⟩
          else
            let quotient := absxi / s.scalingFactor
            pure ⟨s.scalingFactor, s.scaledSumOfSquares + quotient * quotient⟩
        else pure s) := by
    intro y s
    unfold vectorSumOfSquaresOf
    split
    · next h0 => rw [h0]; rfl
    · rfl
  simp only [e]
  refine foldEach_split' hk init (fun s i hi => ?_) fun s i hi => ?_
  · rw [VecV.slice_get hi (by omega), Nat.zero_add]
  · rw [VecV.slice_get hi (by omega)]

example (init : SumOfSquaresOf (Flt 53)) :
    vectorSumOfSquaresOf (y.view : VecV (Flt 53)) init = (do
      let s ← vectorSumOfSquaresOf ((y.view : VecV (Flt 53)).slice 0 2) init
      vectorSumOfSquaresOf ((y.view : VecV (Flt 53)).slice 2 1) s) :=
  C73_sum_of_squares _ _ 2 (by decide)

omit [Zero R] [One R] [Mul R] [Div R] [FloatOps R] in
/-- **C73** `vector_abs_sum(x, init)` -/
theorem C73_abs_sum (x : VecV α) (init : R) (k : Nat) (hk : k ≤ x.ext) :
    vectorAbsSumOf x init = (do
      let s ← vectorAbsSumOf (x.slice 0 k) init
      vectorAbsSumOf (x.slice k (x.ext - k)) s) := by
  unfold vectorAbsSumOf
  by_cases hA : MagOps.isArith α R
  · simp only [if_pos hA]
    refine foldEach_split' hk init (fun s i hi => ?_) fun s i hi => ?_
    · rw [VecV.slice_get hi (by omega), Nat.zero_add]
    · rw [VecV.slice_get hi (by omega)]
  · simp only [if_neg hA]
    refine foldEach_split' hk init (fun s i hi => ?_) fun s i hi => ?_
    · rw [VecV.slice_get hi (by omega), Nat.zero_add]
    · rw [VecV.slice_get hi (by omega)]

end

example : vectorAbsSumOf (y.view : VecV ℂ) (7 : ℝ) = (do
      let s ← vectorAbsSumOf ((y.view : VecV ℂ).slice 0 2) (7 : ℝ)
      vectorAbsSumOf ((y.view : VecV ℂ).slice 2 1) s) :=
  C73_abs_sum _ _ 2 (by decide)

/-! ## Element-wise algorithms -/

/-- **C73** `scale(alpha, x)` -/
theorem C73_scale [Mul α] (alpha : α) (x : Vec) (k : Nat) (hk : k ≤ x.ext) :
    scale1 alpha x = (do scale1 alpha (x.slice 0 k); scale1 alpha (x.slice k (x.ext - k))) := by
  refine forUp_split' hk (fun i hi => ?_) fun i hi => ?_
  · simp only [Vec.slice_get hi (by omega : 0 + k ≤ x.ext),
      Vec.slice_set hi (by omega : 0 + k ≤ x.ext), Nat.zero_add]
  · simp only [Vec.slice_get hi (by omega : k + (x.ext - k) ≤ x.ext),
      Vec.slice_set hi (by omega : k + (x.ext - k) ≤ x.ext)]

example : (scale1 (.int 5) y : Prog Term Unit) = (do
    scale1 (.int 5) (y.slice 0 2); scale1 (.int 5) (y.slice 2 1)) :=
  C73_scale _ _ 2 (by decide)

/-- **C73** `copy(x, y)` -/
theorem C73_copy (x : VecV α) (y : Vec) (k : Nat) (hk : k ≤ y.ext) (hxy : y.ext ≤ x.ext) :
    copy1 x y = (do
      copy1 (x.slice 0 k) (y.slice 0 k)
      copy1 (x.slice k (y.ext - k)) (y.slice k (y.ext - k))) := by
  refine forUp_split' hk (fun i hi => ?_) fun i hi => ?_
  · simp only [VecV.slice_get hi (by omega : 0 + k ≤ x.ext),
      Vec.slice_set hi (by omega : 0 + k ≤ y.ext), Nat.zero_add]
  · simp only [VecV.slice_get hi (by omega : k + (y.ext - k) ≤ x.ext),
      Vec.slice_set hi (by omega : k + (y.ext - k) ≤ y.ext)]

example : (copy1 (x.view : VecV Term) y : Prog Term Unit) = (do
    copy1 ((x.view : VecV Term).slice 0 2) (y.slice 0 2)
    copy1 ((x.view : VecV Term).slice 2 1) (y.slice 2 1)) :=
  C73_copy _ _ 2 (by decide) le_rfl

/-- **C73** `swap_elements(x, y)` -/
theorem C73_swap (x y : Vec) (k : Nat) (hk : k ≤ y.ext) (hxy : y.ext ≤ x.ext) :
    (swap1 x y : Prog α Unit) = (do
      swap1 (x.slice 0 k) (y.slice 0 k)
      swap1 (x.slice k (y.ext - k)) (y.slice k (y.ext - k))) := by
  refine forUp_split' hk (fun i hi => ?_) fun i hi => ?_
  · simp only [Vec.slice_get hi (by omega : 0 + k ≤ x.ext),
      Vec.slice_get hi (by omega : 0 + k ≤ y.ext), Vec.slice_set hi (by omega : 0 + k ≤ x.ext),
      Vec.slice_set hi (by omega : 0 + k ≤ y.ext), Nat.zero_add]
  · simp only [Vec.slice_get hi (by omega : k + (y.ext - k) ≤ x.ext),
      Vec.slice_get hi (by omega : k + (y.ext - k) ≤ y.ext),
      Vec.slice_set hi (by omega : k + (y.ext - k) ≤ x.ext),
      Vec.slice_set hi (by omega : k + (y.ext - k) ≤ y.ext)]

example : (swap1 x y : Prog Term Unit) = (do
    swap1 (x.slice 0 2) (y.slice 0 2); swap1 (x.slice 2 1) (y.slice 2 1)) :=
  C73_swap _ _ 2 (by decide) le_rfl

/-- **C73** `add(x, y, z)` -/
theorem C73_add [Add α] (x y : VecV α) (z : Vec) (k : Nat) (hk : k ≤ z.ext) (hx : z.ext ≤ x.ext)
    (hy : z.ext ≤ y.ext) :
    add1 x y z = (do
      add1 (x.slice 0 k) (y.slice 0 k) (z.slice 0 k)
      add1 (x.slice k (z.ext - k)) (y.slice k (z.ext - k)) (z.slice k (z.ext - k))) := by
  refine forUp_split' hk (fun i hi => ?_) fun i hi => ?_
  · simp only [VecV.slice_get hi (by omega : 0 + k ≤ x.ext),
      VecV.slice_get hi (by omega : 0 + k ≤ y.ext),
      Vec.slice_set hi (by omega : 0 + k ≤ z.ext), Nat.zero_add]
  · simp only [VecV.slice_get hi (by omega : k + (z.ext - k) ≤ x.ext),
      VecV.slice_get hi (by omega : k + (z.ext - k) ≤ y.ext),
      Vec.slice_set hi (by omega : k + (z.ext - k) ≤ z.ext)]

example : (add1 (x.view : VecV Term) y.view y : Prog Term Unit) = (do
    add1 ((x.view : VecV Term).slice 0 2) ((y.view : VecV Term).slice 0 2) (y.slice 0 2)
    add1 ((x.view : VecV Term).slice 2 1) ((y.view : VecV Term).slice 2 1) (y.slice 2 1)) :=
  C73_add _ _ _ 2 (by decide) le_rfl le_rfl

/-- **C73** `apply_givens_rotation(x, y, c, s)` with real `s` -/
theorem C73_apply_givens [Add α] [Sub α] [Mul α] (x y : Vec) (c s : α) (k : Nat)
    (hk : k ≤ x.ext) (hxy : x.ext ≤ y.ext) :
    applyGivens x y c s = (do
      applyGivens (x.slice 0 k) (y.slice 0 k) c s
      applyGivens (x.slice k (x.ext - k)) (y.slice k (x.ext - k)) c s) := by
  refine forUp_split' hk (fun i hi => ?_) fun i hi => ?_
  · simp only [Vec.slice_get hi (by omega : 0 + k ≤ x.ext),
      Vec.slice_get hi (by omega : 0 + k ≤ y.ext), Vec.slice_set hi (by omega : 0 + k ≤ x.ext),
      Vec.slice_set hi (by omega : 0 + k ≤ y.ext), Nat.zero_add]
  · simp only [Vec.slice_get hi (by omega : k + (x.ext - k) ≤ x.ext),
      Vec.slice_get hi (by omega : k + (x.ext - k) ≤ y.ext),
      Vec.slice_set hi (by omega : k + (x.ext - k) ≤ x.ext),
      Vec.slice_set hi (by omega : k + (x.ext - k) ≤ y.ext)]

/-- **C73** `apply_givens_rotation(x, y, c, s)` with complex `s` -/
theorem C73_apply_givens_complex [Add α] [Sub α] [Mul α] [ConjOps α] (x y : Vec) (c s : α)
    (k : Nat) (hk : k ≤ x.ext) (hxy : x.ext ≤ y.ext) :
    applyGivensC x y c s = (do
      applyGivensC (x.slice 0 k) (y.slice 0 k) c s
      applyGivensC (x.slice k (x.ext - k)) (y.slice k (x.ext - k)) c s) := by
  refine forUp_split' hk (fun i hi => ?_) fun i hi => ?_
  · simp only [Vec.slice_get hi (by omega : 0 + k ≤ x.ext),
      Vec.slice_get hi (by omega : 0 + k ≤ y.ext), Vec.slice_set hi (by omega : 0 + k ≤ x.ext),
      Vec.slice_set hi (by omega : 0 + k ≤ y.ext), Nat.zero_add]
  · simp only [Vec.slice_get hi (by omega : k + (x.ext - k) ≤ x.ext),
      Vec.slice_get hi (by omega : k + (x.ext - k) ≤ y.ext),
      Vec.slice_set hi (by omega : k + (x.ext - k) ≤ x.ext),
      Vec.slice_set hi (by omega : k + (x.ext - k) ≤ y.ext)]

example : (applyGivens x y 3 4 : Prog ℤ Unit) = (do
    applyGivens (x.slice 0 2) (y.slice 0 2) 3 4; applyGivens (x.slice 2 1) (y.slice 2 1) 3 4) :=
  C73_apply_givens _ _ _ _ 2 (by decide) le_rfl

example : (applyGivensC x y 3 4 : Prog ℂ Unit) = (do
    applyGivensC (x.slice 0 2) (y.slice 0 2) 3 4; applyGivensC (x.slice 2 1) (y.slice 2 1) 3 4) :=
  C73_apply_givens_complex _ _ _ _ 2 (by decide) le_rfl

/-! ## Products and updates by blocks of rows -/

/-- **C73** `matrix_vector_product(A, x, y)` by blocks of rows -/
theorem C73_gemv_rows [Add α] [Mul α] [Zero α] (A : MatV α) (x : VecV α) (y : Vec) (k : Nat)
    (hk : k ≤ A.rows) (hy : A.rows ≤ y.ext) :
    gemv A x y = (do
      gemv (A.block 0 0 k A.cols) x (y.slice 0 k)
      gemv (A.block k 0 (A.rows - k) A.cols) x (y.slice k (A.rows - k))) := by
  refine forUp_split' hk (fun i hi => ?_) fun i hi => ?_
  · rw [Vec.slice_set hi (by omega), Nat.zero_add]
    refine congrArg _ (funext fun _ => forUp_congr fun j _ hj => ?_)
    rw [MatV.block_get hi (show j < A.cols from hj) (by omega) (by omega), Nat.zero_add, Nat.zero_add]
    simp only [Vec.slice_addTo hi (by omega : 0 + k ≤ y.ext), Nat.zero_add]
  · rw [Vec.slice_set hi (by omega)]
    refine congrArg _ (funext fun _ => forUp_congr fun j _ hj => ?_)
    rw [MatV.block_get hi (show j < A.cols from hj) (by omega) (by omega), Nat.zero_add]
    simp only [Vec.slice_addTo hi (by omega : k + (A.rows - k) ≤ y.ext)]

example : (gemv (A.view : MatV Term) x.view y : Prog Term Unit) = (do
    gemv ((A.view : MatV Term).block 0 0 2 3) x.view (y.slice 0 2)
    gemv ((A.view : MatV Term).block 2 0 1 3) x.view (y.slice 2 1)) :=
  C73_gemv_rows _ _ _ 2 (by decide) le_rfl

/-- **C73** `matrix_vector_product(A, x, y, z)` by blocks of rows -/
theorem C73_gemv_update_rows [Add α] [Mul α] (A : MatV α) (x y : VecV α) (z : Vec) (k : Nat)
    (hk : k ≤ A.rows) (hy : A.rows ≤ y.ext) (hz : A.rows ≤ z.ext) :
    gemvUpdate A x y z = (do
      gemvUpdate (A.block 0 0 k A.cols) x (y.slice 0 k) (z.slice 0 k)
      gemvUpdate (A.block k 0 (A.rows - k) A.cols) x (y.slice k (A.rows - k))
        (z.slice k (A.rows - k))) := by
  refine forUp_split' hk (fun i hi => ?_) fun i hi => ?_
  · rw [VecV.slice_get hi (by omega), Nat.zero_add]
    refine congrArg _ (funext fun v => ?_)
    rw [Vec.slice_set hi (by omega), Nat.zero_add]
    refine congrArg _ (funext fun _ => forUp_congr fun j _ hj => ?_)
    rw [MatV.block_get hi (show j < A.cols from hj) (by omega) (by omega), Nat.zero_add, Nat.zero_add]
    simp only [Vec.slice_addTo hi (by omega : 0 + k ≤ z.ext), Nat.zero_add]
  · rw [VecV.slice_get hi (by omega)]
    refine congrArg _ (funext fun v => ?_)
    rw [Vec.slice_set hi (by omega)]
    refine congrArg _ (funext fun _ => forUp_congr fun j _ hj => ?_)
    rw [MatV.block_get hi (show j < A.cols from hj) (by omega) (by omega), Nat.zero_add]
    simp only [Vec.slice_addTo hi (by omega : k + (A.rows - k) ≤ z.ext)]

example : (gemvUpdate (A.view : MatV Term) x.view y.view y : Prog Term Unit) = (do
    gemvUpdate ((A.view : MatV Term).block 0 0 2 3) x.view ((y.view : VecV Term).slice 0 2)
      (y.slice 0 2)
    gemvUpdate ((A.view : MatV Term).block 2 0 1 3) x.view ((y.view : VecV Term).slice 2 1)
      (y.slice 2 1)) :=
  C73_gemv_update_rows _ _ _ _ 2 (by decide) le_rfl le_rfl

/-- **C73** `matrix_product(A, B, C)` by blocks of rows -/
theorem C73_gemm_rows [Add α] [Mul α] [Zero α] (A B : MatV α) (C : Mat) (k : Nat)
    (hk : k ≤ C.rows) (hA : C.rows ≤ A.rows) :
    gemm A B C = (do
      gemm (A.block 0 0 k A.cols) B (C.block 0 0 k C.cols)
      gemm (A.block k 0 (C.rows - k) A.cols) B (C.block k 0 (C.rows - k) C.cols)) := by
  refine forUp_split' hk (fun i hi => forUp_congr fun j _ hj => ?_) fun i hi =>
    forUp_congr fun j _ hj => ?_
  · rw [Mat.block_set hi (show j < C.cols from hj) (by omega) (by omega), Nat.zero_add, Nat.zero_add]
    refine congrArg _ (funext fun _ => forUp_congr fun l _ hl => ?_)
    rw [MatV.block_get hi (show l < A.cols from hl) (by omega) (by omega), Nat.zero_add, Nat.zero_add]
    simp only [Mat.block_addTo hi (show j < C.cols from hj) (by omega : 0 + k ≤ C.rows) (by omega : 0 + C.cols ≤ C.cols),
      Nat.zero_add]
  · rw [Mat.block_set hi (show j < C.cols from hj) (by omega) (by omega), Nat.zero_add]
    refine congrArg _ (funext fun _ => forUp_congr fun l _ hl => ?_)
    rw [MatV.block_get hi (show l < A.cols from hl) (by omega) (by omega), Nat.zero_add]
    simp only [Mat.block_addTo hi (show j < C.cols from hj) (by omega : k + (C.rows - k) ≤ C.rows)
      (by omega : 0 + C.cols ≤ C.cols), Nat.zero_add]

example : (gemm (T.view : MatV Term) W.view C : Prog Term Unit) = (do
    gemm ((T.view : MatV Term).block 0 0 1 2) W.view (C.block 0 0 1 3)
    gemm ((T.view : MatV Term).block 1 0 2 2) W.view (C.block 1 0 2 3)) :=
  C73_gemm_rows _ _ _ 1 (by decide) le_rfl

/-- **C73** `matrix_product(A, B, E, C)` by blocks of rows -/
theorem C73_gemm_update_rows [Add α] [Mul α] (A B E : MatV α) (C : Mat) (k : Nat)
    (hk : k ≤ C.rows) (hA : C.rows ≤ A.rows) (hE : C.rows ≤ E.rows) (hEc : C.cols ≤ E.cols) :
    gemmUpdate A B E C = (do
      gemmUpdate (A.block 0 0 k A.cols) B (E.block 0 0 k C.cols) (C.block 0 0 k C.cols)
      gemmUpdate (A.block k 0 (C.rows - k) A.cols) B (E.block k 0 (C.rows - k) C.cols)
        (C.block k 0 (C.rows - k) C.cols)) := by
  refine forUp_split' hk (fun i hi => forUp_congr fun j _ hj => ?_) fun i hi =>
    forUp_congr fun j _ hj => ?_
  · rw [MatV.block_get hi (show j < C.cols from hj) (by omega) (by omega), Nat.zero_add, Nat.zero_add]
    refine congrArg _ (funext fun e => ?_)
    rw [Mat.block_set hi (show j < C.cols from hj) (by omega) (by omega), Nat.zero_add, Nat.zero_add]
    refine congrArg _ (funext fun _ => forUp_congr fun l _ hl => ?_)
    rw [MatV.block_get hi (show l < A.cols from hl) (by omega) (by omega), Nat.zero_add, Nat.zero_add]
    simp only [Mat.block_addTo hi (show j < C.cols from hj) (by omega : 0 + k ≤ C.rows) (by omega : 0 + C.cols ≤ C.cols),
      Nat.zero_add]
  · rw [MatV.block_get hi (show j < C.cols from hj) (by omega) (by omega), Nat.zero_add]
    refine congrArg _ (funext fun e => ?_)
    rw [Mat.block_set hi (show j < C.cols from hj) (by omega) (by omega), Nat.zero_add]
    refine congrArg _ (funext fun _ => forUp_congr fun l _ hl => ?_)
    rw [MatV.block_get hi (show l < A.cols from hl) (by omega) (by omega), Nat.zero_add]
    simp only [Mat.block_addTo hi (show j < C.cols from hj) (by omega : k + (C.rows - k) ≤ C.rows)
      (by omega : 0 + C.cols ≤ C.cols), Nat.zero_add]

example : (gemmUpdate (T.view : MatV Term) W.view E.view C : Prog Term Unit) = (do
    gemmUpdate ((T.view : MatV Term).block 0 0 1 2) W.view ((E.view : MatV Term).block 0 0 1 3)
      (C.block 0 0 1 3)
    gemmUpdate ((T.view : MatV Term).block 1 0 2 2) W.view ((E.view : MatV Term).block 1 0 2 3)
      (C.block 1 0 2 3)) :=
  C73_gemm_update_rows _ _ _ _ 1 (by decide) le_rfl le_rfl le_rfl

/-- **C73** `matrix_rank_1_update(x, y, A)` by blocks of rows -/
theorem C73_ger_rows [Add α] [Mul α] (x y : VecV α) (A : Mat) (k : Nat)
    (hk : k ≤ A.rows) (hx : A.rows ≤ x.ext) :
    ger x y A = (do
      ger (x.slice 0 k) y (A.block 0 0 k A.cols)
      ger (x.slice k (A.rows - k)) y (A.block k 0 (A.rows - k) A.cols)) := by
  refine forUp_split' hk (fun i hi => forUp_congr fun j _ hj => ?_) fun i hi =>
    forUp_congr fun j _ hj => ?_
  · rw [VecV.slice_get hi (by omega), Nat.zero_add]
    simp only [Mat.block_addTo hi (show j < A.cols from hj) (by omega : 0 + k ≤ A.rows) (by omega : 0 + A.cols ≤ A.cols),
      Nat.zero_add]
  · rw [VecV.slice_get hi (by omega)]
    simp only [Mat.block_addTo hi (show j < A.cols from hj) (by omega : k + (A.rows - k) ≤ A.rows)
      (by omega : 0 + A.cols ≤ A.cols), Nat.zero_add]

example : (ger (x.view : VecV Term) y.view A : Prog Term Unit) = (do
    ger ((x.view : VecV Term).slice 0 1) y.view (A.block 0 0 1 3)
    ger ((x.view : VecV Term).slice 1 2) y.view (A.block 1 0 2 3)) :=
  C73_ger_rows _ _ _ 1 (by decide) le_rfl

/-- **C73** `matrix_rank_1_update_c(x, y, A)` by blocks of rows -/
theorem C73_gerc_rows [Add α] [Mul α] [ConjOps α] (x y : VecV α) (A : Mat) (k : Nat)
    (hk : k ≤ A.rows) (hx : A.rows ≤ x.ext) :
    gerc x y A = (do
      gerc (x.slice 0 k) y (A.block 0 0 k A.cols)
      gerc (x.slice k (A.rows - k)) y (A.block k 0 (A.rows - k) A.cols)) :=
  C73_ger_rows x y.conjugated A k hk hx

example : (gerc (x.view : VecV ℂ) y.view A : Prog ℂ Unit) = (do
    gerc ((x.view : VecV ℂ).slice 0 1) y.view (A.block 0 0 1 3)
    gerc ((x.view : VecV ℂ).slice 1 2) y.view (A.block 1 0 2 3)) :=
  C73_gerc_rows _ _ _ 1 (by decide) le_rfl

/-! ## Solves with several right-hand sides -/

/-- **C73** `triangular_matrix_matrix_left_solve(A, t, d, B, X)` by blocks of right-hand sides
(columns) -/
theorem C73_trsm_left_columns [Sub α] [Mul α] [Div α] (A : MatV α) (t : Triangle) (d : Diag)
    (B : MatV α) (X : Mat) (k : Nat) (hk : k ≤ B.cols) (hX : B.cols ≤ X.cols)
    (hB : A.rows ≤ B.rows) (hXr : A.rows ≤ X.rows) :
    trsmLeft A t d B X = (do
      trsmLeft A t d (B.block 0 0 B.rows k) (X.block 0 0 X.rows k)
      trsmLeft A t d (B.block 0 k B.rows (B.cols - k)) (X.block 0 k X.rows (B.cols - k))) := by
  have hXr' : 0 + X.rows ≤ X.rows := by omega
  have hBr' : 0 + B.rows ≤ B.rows := by omega
  cases t with
  | lower =>
    refine forUp_split' hk (fun l hl => forUp_congr fun i _ hi => ?_) fun l hl =>
      forUp_congr fun i _ hi => ?_
    · rw [MatV.block_get (by omega) hl hBr' (by omega), Nat.zero_add, Nat.zero_add]
      refine congrArg _ (funext fun b => ?_)
      rw [foldEach_congr (g := fun s j => do
        let a ← A.get i j
        let xj ← X.get j l
        pure (s - a * xj)) fun s j hj => ?_]
      · simp only [Mat.block_set (by omega : i < X.rows) hl hXr' (by omega : 0 + k ≤ X.cols),
          Nat.zero_add]
      · rw [List.mem_range'_1] at hj
        simp only [Mat.block_get (by omega : j < X.rows) hl hXr' (by omega : 0 + k ≤ X.cols),
          Nat.zero_add]
    · rw [MatV.block_get (by omega) hl hBr' (by omega), Nat.zero_add]
      refine congrArg _ (funext fun b => ?_)
      rw [foldEach_congr (g := fun s j => do
        let a ← A.get i j
        let xj ← X.get j (k + l)
        pure (s - a * xj)) fun s j hj => ?_]
      · simp only [Mat.block_set (by omega : i < X.rows) hl hXr'
          (by omega : k + (B.cols - k) ≤ X.cols), Nat.zero_add]
      · rw [List.mem_range'_1] at hj
        simp only [Mat.block_get (by omega : j < X.rows) hl hXr'
          (by omega : k + (B.cols - k) ≤ X.cols), Nat.zero_add]
  | upper =>
    refine forUp_split' hk (fun l hl => forEach_congr fun i hi => ?_) fun l hl =>
      forEach_congr fun i hi => ?_
    · rw [List.mem_reverse, List.mem_range] at hi
      rw [MatV.block_get (by omega) hl hBr' (by omega), Nat.zero_add, Nat.zero_add]
      refine congrArg _ (funext fun b => ?_)
      rw [foldEach_congr (g := fun s j => do
        let a ← A.get i j
        let xj ← X.get j l
        pure (s - a * xj)) fun s j hj => ?_]
      · simp only [Mat.block_set (by omega : i < X.rows) hl hXr' (by omega : 0 + k ≤ X.cols),
          Nat.zero_add]
      · rw [List.mem_range'_1] at hj
        simp only [Mat.block_get (by omega : j < X.rows) hl hXr' (by omega : 0 + k ≤ X.cols),
          Nat.zero_add]
    · rw [List.mem_reverse, List.mem_range] at hi
      rw [MatV.block_get (by omega) hl hBr' (by omega), Nat.zero_add]
      refine congrArg _ (funext fun b => ?_)
      rw [foldEach_congr (g := fun s j => do
        let a ← A.get i j
        let xj ← X.get j (k + l)
        pure (s - a * xj)) fun s j hj => ?_]
      · simp only [Mat.block_set (by omega : i < X.rows) hl hXr'
          (by omega : k + (B.cols - k) ≤ X.cols), Nat.zero_add]
      · rw [List.mem_range'_1] at hj
        simp only [Mat.block_get (by omega : j < X.rows) hl hXr'
          (by omega : k + (B.cols - k) ≤ X.cols), Nat.zero_add]

example (t : Triangle) (d : Diag) : (trsmLeft (A.view : MatV ℚ) t d T.view T : Prog ℚ Unit) = (do
    trsmLeft (A.view : MatV ℚ) t d ((T.view : MatV ℚ).block 0 0 3 1) (T.block 0 0 3 1)
    trsmLeft (A.view : MatV ℚ) t d ((T.view : MatV ℚ).block 0 1 3 1) (T.block 0 1 3 1)) :=
  C73_trsm_left_columns _ _ _ _ _ 1 (by decide) le_rfl le_rfl le_rfl

/-- **C73** `triangular_matrix_matrix_right_solve(A, t, d, B, X)` by blocks of rows -/
theorem C73_trsm_right_rows [Sub α] [Mul α] [Div α] (A : MatV α) (t : Triangle) (d : Diag)
    (B : MatV α) (X : Mat) (k : Nat) (hk : k ≤ B.rows) (hX : B.rows ≤ X.rows)
    (hsq : A.rows = A.cols) (hB : A.cols ≤ B.cols) (hXc : A.cols ≤ X.cols) :
    trsmRight A t d B X = (do
      trsmRight A t d (B.block 0 0 k B.cols) (X.block 0 0 k X.cols)
      trsmRight A t d (B.block k 0 (B.rows - k) B.cols) (X.block k 0 (B.rows - k) X.cols)) := by
  have hXc' : 0 + X.cols ≤ X.cols := by omega
  have hBc' : 0 + B.cols ≤ B.cols := by omega
  cases t with
  | upper =>
    refine forUp_split' hk (fun i hi => forUp_congr fun j _ hj => ?_) fun i hi =>
      forUp_congr fun j _ hj => ?_
    · rw [MatV.block_get hi (by omega) (by omega) hBc', Nat.zero_add, Nat.zero_add]
      refine congrArg _ (funext fun b => ?_)
      rw [foldEach_congr (g := fun s l => do
        let a ← A.get l j
        let xl ← X.get i l
        pure (s - xl * a)) fun s l hl => ?_]
      · simp only [Mat.block_set hi (by omega : j < X.cols) (by omega : 0 + k ≤ X.rows) hXc',
          Nat.zero_add]
      · rw [List.mem_range'_1] at hl
        simp only [Mat.block_get hi (by omega : l < X.cols) (by omega : 0 + k ≤ X.rows) hXc',
          Nat.zero_add]
    · rw [MatV.block_get hi (by omega) (by omega) hBc', Nat.zero_add]
      refine congrArg _ (funext fun b => ?_)
      rw [foldEach_congr (g := fun s l => do
        let a ← A.get l j
        let xl ← X.get (k + i) l
        pure (s - xl * a)) fun s l hl => ?_]
      · simp only [Mat.block_set hi (by omega : j < X.cols)
          (by omega : k + (B.rows - k) ≤ X.rows) hXc', Nat.zero_add]
      · rw [List.mem_range'_1] at hl
        simp only [Mat.block_get hi (by omega : l < X.cols)
          (by omega : k + (B.rows - k) ≤ X.rows) hXc', Nat.zero_add]
  | lower =>
    refine forUp_split' hk (fun i hi => forEach_congr fun j hj => ?_) fun i hi =>
      forEach_congr fun j hj => ?_
    · rw [List.mem_reverse, List.mem_range] at hj
      rw [MatV.block_get hi (by omega) (by omega) hBc', Nat.zero_add, Nat.zero_add]
      refine congrArg _ (funext fun b => ?_)
      rw [foldEach_congr (g := fun s l => do
        let a ← A.get l j
        let xl ← X.get i l
        pure (s - xl * a)) fun s l hl => ?_]
      · simp only [Mat.block_set hi (by omega : j < X.cols) (by omega : 0 + k ≤ X.rows) hXc',
          Nat.zero_add]
      · rw [List.mem_range'_1] at hl
        simp only [Mat.block_get hi (by omega : l < X.cols) (by omega : 0 + k ≤ X.rows) hXc',
          Nat.zero_add]
    · rw [List.mem_reverse, List.mem_range] at hj
      rw [MatV.block_get hi (by omega) (by omega) hBc', Nat.zero_add]
      refine congrArg _ (funext fun b => ?_)
      rw [foldEach_congr (g := fun s l => do
        let a ← A.get l j
        let xl ← X.get (k + i) l
        pure (s - xl * a)) fun s l hl => ?_]
      · simp only [Mat.block_set hi (by omega : j < X.cols)
          (by omega : k + (B.rows - k) ≤ X.rows) hXc', Nat.zero_add]
      · rw [List.mem_range'_1] at hl
        simp only [Mat.block_get hi (by omega : l < X.cols)
          (by omega : k + (B.rows - k) ≤ X.rows) hXc', Nat.zero_add]

example (t : Triangle) (d : Diag) : (trsmRight (A.view : MatV ℚ) t d W.view W : Prog ℚ Unit) =
    (do
      trsmRight (A.view : MatV ℚ) t d ((W.view : MatV ℚ).block 0 0 1 3) (W.block 0 0 1 3)
      trsmRight (A.view : MatV ℚ) t d ((W.view : MatV ℚ).block 1 0 1 3) (W.block 1 0 1 3)) :=
  C73_trsm_right_rows _ _ _ _ _ 1 (by decide) le_rfl rfl le_rfl le_rfl

end StdBLAS

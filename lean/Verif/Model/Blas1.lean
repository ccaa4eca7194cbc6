import Verif.Model.Views

/-!
# BLAS 1: vector (and element-wise matrix) algorithms

All functions model the `inline_exec_t` overloads.  Headers are in
`/repo/include/experimental/__p1673_bits/`.
-/

namespace StdBLAS
variable {α : Type}

/-! ## blas1_scale.hpp -/

/-- `blas1_scale.hpp:59-66` `linalg_scale_rank_1`: `x(i) *= alpha`. -/
def scale1 [Mul α] (alpha : α) (x : Vec) : Prog α Unit :=
  forUp 0 x.ext fun i => do
    let v ← x.get i
    x.set i (v * alpha)

/-- `blas1_scale.hpp:75-84` `linalg_scale_rank_2`: columns outside, rows inside. -/
def scale2 [Mul α] (alpha : α) (A : Mat) : Prog α Unit :=
  forUp 0 A.cols fun j => forUp 0 A.rows fun i => do
    let v ← A.get i j
    A.set i j (v * alpha)

/-! ## blas1_linalg_copy.hpp -/

/-- `blas1_linalg_copy.hpp:63-74` `copy_rank_1`. -/
def copy1 (x : VecV α) (y : Vec) : Prog α Unit :=
  forUp 0 y.ext fun i => do
    let v ← x.get i
    y.set i v

/-- `blas1_linalg_copy.hpp:88-104` `copy_rank_2`. -/
def copy2 (x : MatV α) (y : Mat) : Prog α Unit :=
  forUp 0 y.cols fun j => forUp 0 y.rows fun i => do
    let v ← x.get i j
    y.set i j v

/-! ## blas1_linalg_swap.hpp -/

/-- `blas1_linalg_swap.hpp:65-79` `swap_rank_1`; `std::swap(a, b)` is
`tmp = a; a = b; b = tmp`. -/
def swap1 (x y : Vec) : Prog α Unit :=
  forUp 0 y.ext fun i => do
    let tmp ← x.get i
    let w ← y.get i
    x.set i w
    y.set i tmp

/-- `blas1_linalg_swap.hpp:93-112` `swap_rank_2`. -/
def swap2 (x y : Mat) : Prog α Unit :=
  forUp 0 y.cols fun j => forUp 0 y.rows fun i => do
    let tmp ← x.get i j
    let w ← y.get i j
    x.set i j w
    y.set i j tmp

/-! ## blas1_linalg_add.hpp -/

/-- `blas1_linalg_add.hpp:68-87` `add_rank_1`. -/
def add1 [Add α] (x y : VecV α) (z : Vec) : Prog α Unit :=
  forUp 0 z.ext fun i => do
    let a ← x.get i
    let b ← y.get i
    z.set i (a + b)

/-- `blas1_linalg_add.hpp:107-138` `add_rank_2`: loops over the extents of `x`. -/
def add2 [Add α] (x y : MatV α) (z : Mat) : Prog α Unit :=
  forUp 0 x.cols fun j => forUp 0 x.rows fun i => do
    let a ← x.get i j
    let b ← y.get i j
    z.set i j (a + b)

/-! ## blas1_dot.hpp -/

/-- `blas1_dot.hpp:92-107` `dot` with `init`: `init += v1(k) * v2(k)`, `k < v1.extent(0)`. -/
def dot [Add α] [Mul α] (v1 v2 : VecV α) (init : α) : Prog α α :=
  foldEach (List.range' 0 v1.ext) init fun s k => do
    let a ← v1.get k
    let b ← v2.get k
    pure (s + a * b)

/-- `blas1_dot.hpp:234-241` `dot` without `init`: starts from `return_t{}`. -/
def dot0 [Add α] [Mul α] [Zero α] (v1 v2 : VecV α) : Prog α α := dot v1 v2 0

/-- `blas1_dot.hpp:172-178` `dotc` with `init`: `dot(conjugated(v1), v2, init)`. -/
def dotc [Add α] [Mul α] [ConjOps α] (v1 v2 : VecV α) (init : α) : Prog α α :=
  dot v1.conjugated v2 init

/-- `blas1_dot.hpp:274-281` `dotc` without `init`. -/
def dotc0 [Add α] [Mul α] [Zero α] [ConjOps α] (v1 v2 : VecV α) : Prog α α := dotc v1 v2 0

/-! ## blas1_vector_sum_of_squares.hpp, blas1_vector_norm2.hpp -/

/-- `blas1_vector_sum_of_squares.hpp:52-58` `sum_of_squares_result<Scalar>`. -/
structure SumOfSquares where
  scalingFactor : ℝ
  scaledSumOfSquares : ℝ

/-- `blas1_vector_sum_of_squares.hpp:91-126` `vector_sum_of_squares`.
Simplification: `Scalar` is the reals. -/
noncomputable def vectorSumOfSquares [AbsOps α] (x : VecV α) (init : SumOfSquares) :
    Prog α SumOfSquares := open Classical in
  if x.ext = 0 then pure init else
  foldEach (List.range' 0 x.ext) init fun s i => do
    let v ← x.get i
    if AbsOps.abs v ≠ 0 then
      let absxi := AbsOps.abs v
      if s.scalingFactor < absxi then
        let quotient ← divChecked s.scalingFactor absxi
        pure ⟨absxi, 1 + s.scaledSumOfSquares * quotient * quotient⟩
      else
        let quotient ← divChecked absxi s.scalingFactor
        pure ⟨s.scalingFactor, s.scaledSumOfSquares + quotient * quotient⟩
    else pure s

/-- `blas1_vector_norm2.hpp:83-100` `vector_two_norm` with `init`. -/
noncomputable def vectorTwoNorm [AbsOps α] (x : VecV α) (init : ℝ) : Prog α ℝ := do
  let r ← vectorSumOfSquares x ⟨0, 1⟩
  pure (init + r.scalingFactor * Real.sqrt r.scaledSumOfSquares)

/-! ## blas1_vector_abs_sum.hpp -/

/-- `blas1_vector_abs_sum.hpp:82-108` `vector_abs_sum` with `init`. -/
noncomputable def vectorAbsSum [AbsOps α] (v : VecV α) (init : ℝ) : Prog α ℝ :=
  if AbsOps.isArith α then
    foldEach (List.range' 0 v.ext) init fun s i => do
      let a ← v.get i
      pure (s + AbsOps.abs a)
  else
    foldEach (List.range' 0 v.ext) init fun s i => do
      let a ← v.get i
      let b ← v.get i
      pure (s + |AbsOps.reR a| + |AbsOps.imR b|)

/-! ## blas1_vector_idx_abs_max.hpp -/

/-- `blas1_vector_idx_abs_max.hpp:88-98` and `100-116`: the magnitude compared. -/
noncomputable def idxMagnitude [AbsOps α] (v : α) : ℝ :=
  if AbsOps.isArith α then AbsOps.abs v else |AbsOps.reR v| + |AbsOps.imR v|

/-- `blas1_vector_idx_abs_max.hpp:75-117` `vector_idx_abs_max_default_impl`;
`sizeMax` is `numeric_limits<SizeType>::max()`. -/
noncomputable def vectorIdxAbsMax [AbsOps α] (sizeMax : Nat) (v : VecV α) : Prog α Nat :=
  open Classical in
  if v.ext = 0 then pure sizeMax else do
    let a ← v.get 0
    let r ← foldEach (List.range' 1 (v.ext - 1)) ((0 : Nat), idxMagnitude a) fun s i => do
      let b ← v.get i
      if s.2 < idxMagnitude b then pure (i, idxMagnitude b) else pure s
    pure r.1

/-! ## blas1_matrix_frob_norm.hpp, blas1_matrix_one_norm.hpp, blas1_matrix_inf_norm.hpp -/

/-- Body of the loop of `matrix_frob_norm`, `blas1_matrix_frob_norm.hpp:111-121`.
The quotient `scale / absaij` is computed before the branch and used in both branches. -/
noncomputable def frobStep (s : SumOfSquares) (absaij : ℝ) : Prog α SumOfSquares :=
  open Classical in
  if absaij ≠ 0 then do
    let quotient ← divChecked s.scalingFactor absaij
    if s.scalingFactor < absaij then
      pure ⟨absaij, 1 + s.scaledSumOfSquares * quotient * quotient⟩
    else
      pure ⟨s.scalingFactor, s.scaledSumOfSquares + quotient * quotient⟩
  else pure s

/-- `blas1_matrix_frob_norm.hpp:87-126` `matrix_frob_norm` with `init`. -/
noncomputable def matrixFrobNorm [AbsOps α] (A : MatV α) (init : ℝ) : Prog α ℝ :=
  if A.rows = 0 ∨ A.cols = 0 then pure init
  else if A.rows = 1 ∧ A.cols = 1 then do
    let a ← A.get 0 0
    pure (init + AbsOps.abs a)
  else do
    let r ← foldEach (List.range' 0 A.rows) (⟨0, 1⟩ : SumOfSquares) fun s i =>
      foldEach (List.range' 0 A.cols) s fun s j => do
        let a ← A.get i j
        frobStep s (AbsOps.abs a)
    pure (init + r.scalingFactor * Real.sqrt r.scaledSumOfSquares)

/-- `blas1_matrix_one_norm.hpp:89-118` `matrix_one_norm` with `init`. -/
noncomputable def matrixOneNorm [AbsOps α] (A : MatV α) (init : ℝ) : Prog α ℝ :=
  if A.rows = 0 ∨ A.cols = 0 then pure init
  else if A.rows = 1 ∧ A.cols = 1 then do
    let a ← A.get 0 0
    pure (init + AbsOps.abs a)
  else
    foldEach (List.range' 0 A.cols) init fun result j => do
      let colSum ← foldEach (List.range' 0 A.rows) init fun s i => do
        let a ← A.get i j
        pure (s + AbsOps.abs a)
      pure (max colSum result)

/-- `blas1_matrix_inf_norm.hpp:88-115` `matrix_inf_norm` with `init`. -/
noncomputable def matrixInfNorm [AbsOps α] (A : MatV α) (init : ℝ) : Prog α ℝ :=
  if A.rows = 0 ∨ A.cols = 0 then pure init
  else if A.rows = 1 ∧ A.cols = 1 then do
    let a ← A.get 0 0
    pure (init + AbsOps.abs a)
  else
    foldEach (List.range' 0 A.rows) init fun result i => do
      let rowSum ← foldEach (List.range' 0 A.cols) init fun s j => do
        let a ← A.get i j
        pure (s + AbsOps.abs a)
      pure (max rowSum result)

end StdBLAS

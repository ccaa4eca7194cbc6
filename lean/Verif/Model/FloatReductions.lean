import Verif.Core.FloatOps
import Verif.Model.Blas1

/-!
# The reductions, for every `Scalar` type

The same functions as in `Blas1.lean`, whose results are there real numbers.  Here the `Scalar` type
`R` is arbitrary: its operations may round, overflow and return NaN, and division by zero is an
operation like any other.  `Lemmas/FloatReductions.lean` proves that with `R = ℝ` they are the
functions of `Blas1.lean`.
-/

namespace StdBLAS
variable {α R : Type}

/-- `blas1_vector_sum_of_squares.hpp:52-58` `sum_of_squares_result<Scalar>`. -/
structure SumOfSquaresOf (R : Type) where
  scalingFactor : R
  scaledSumOfSquares : R

section
variable [Zero R] [One R] [Add R] [Mul R] [Div R] [FloatOps R] [MagOps α R]

/-- `blas1_vector_sum_of_squares.hpp:91-126` `vector_sum_of_squares`. -/
def vectorSumOfSquaresOf (x : VecV α) (init : SumOfSquaresOf R) : Prog α (SumOfSquaresOf R) :=
  if x.ext = 0 then pure init else
  foldEach (List.range' 0 x.ext) init fun s i => do
    let v ← x.get i
    if FloatOps.ne (MagOps.abs v : R) 0 then
      let v ← x.get i
      let absxi : R := MagOps.abs v
      if FloatOps.lt s.scalingFactor absxi then
        let quotient := s.scalingFactor / absxi
        pure ⟨absxi, 1 + s.scaledSumOfSquares * quotient * quotient⟩
      else
        let quotient := absxi / s.scalingFactor
        pure ⟨s.scalingFactor, s.scaledSumOfSquares + quotient * quotient⟩
    else pure s

/-- `blas1_vector_norm2.hpp:83-100` `vector_two_norm` with `init`. -/
def vectorTwoNormOf (x : VecV α) (init : R) : Prog α R := do
  let r ← vectorSumOfSquaresOf x (⟨0, 1⟩ : SumOfSquaresOf R)
  pure (init + r.scalingFactor * FloatOps.sqrt r.scaledSumOfSquares)

/-- `blas1_vector_norm2.hpp:157-163` `vector_two_norm` without `init`: starts from `return_t{}`. -/
def vectorTwoNormOf0 (x : VecV α) : Prog α R := vectorTwoNormOf x 0

/-- `blas1_vector_abs_sum.hpp:82-108` `vector_abs_sum` with `init`. -/
def vectorAbsSumOf (v : VecV α) (init : R) : Prog α R :=
  if MagOps.isArith α R then
    foldEach (List.range' 0 v.ext) init fun s i => do
      let a ← v.get i
      pure (s + MagOps.abs a)
  else
    foldEach (List.range' 0 v.ext) init fun s i => do
      let a ← v.get i
      let b ← v.get i
      pure (s + MagOps.absRe a + MagOps.absIm b)

/-- `blas1_vector_idx_abs_max.hpp:88-98` and `100-116`: the magnitude compared. -/
def idxMagnitudeOf (R : Type) [Add R] [MagOps α R] (v : α) : R :=
  if MagOps.isArith α R then MagOps.abs v else MagOps.absRe v + MagOps.absIm v

/-- `blas1_vector_idx_abs_max.hpp:75-117` `vector_idx_abs_max_default_impl`; `sizeMax` is
`numeric_limits<SizeType>::max()`, `R` is `magnitude_type`.  An element is read once where the code
reads it twice in a row. -/
def vectorIdxAbsMaxOf (R : Type) [Add R] [FloatOps R] [MagOps α R] (sizeMax : Nat) (v : VecV α) :
    Prog α Nat :=
  if v.ext = 0 then pure sizeMax else do
    let a ← v.get 0
    let r ← foldEach (List.range' 1 (v.ext - 1)) ((0 : Nat), idxMagnitudeOf R a) fun s i => do
      let b ← v.get i
      if FloatOps.lt s.2 (idxMagnitudeOf R b) then pure (i, idxMagnitudeOf R b) else pure s
    pure r.1

/-- Body of the loop of `matrix_frob_norm`, `blas1_matrix_frob_norm.hpp:111-121`. -/
def frobStepOf (s : SumOfSquaresOf R) (absaij : R) : SumOfSquaresOf R :=
  if FloatOps.ne absaij 0 then
    let quotient := s.scalingFactor / absaij
    if FloatOps.lt s.scalingFactor absaij then
      ⟨absaij, 1 + s.scaledSumOfSquares * quotient * quotient⟩
    else
      ⟨s.scalingFactor, s.scaledSumOfSquares + quotient * quotient⟩
  else s

/-- `blas1_matrix_frob_norm.hpp:87-126` `matrix_frob_norm` with `init`. -/
def matrixFrobNormOf (A : MatV α) (init : R) : Prog α R :=
  if A.rows = 0 ∨ A.cols = 0 then pure init
  else if A.rows = 1 ∧ A.cols = 1 then do
    let a ← A.get 0 0
    pure (init + MagOps.abs a)
  else do
    let r ← foldEach (List.range' 0 A.rows) (⟨0, 1⟩ : SumOfSquaresOf R) fun s i =>
      foldEach (List.range' 0 A.cols) s fun s j => do
        let a ← A.get i j
        pure (frobStepOf s (MagOps.abs a))
    pure (init + r.scalingFactor * FloatOps.sqrt r.scaledSumOfSquares)

/-- `blas1_matrix_one_norm.hpp:89-118` `matrix_one_norm` with `init`. -/
def matrixOneNormOf (A : MatV α) (init : R) : Prog α R :=
  if A.rows = 0 ∨ A.cols = 0 then pure init
  else if A.rows = 1 ∧ A.cols = 1 then do
    let a ← A.get 0 0
    pure (init + MagOps.abs a)
  else
    foldEach (List.range' 0 A.cols) init fun result j => do
      let colSum ← foldEach (List.range' 0 A.rows) init fun s i => do
        let a ← A.get i j
        pure (s + MagOps.abs a)
      pure (stdMax colSum result)

/-- `blas1_matrix_inf_norm.hpp:88-115` `matrix_inf_norm` with `init`. -/
def matrixInfNormOf (A : MatV α) (init : R) : Prog α R :=
  if A.rows = 0 ∨ A.cols = 0 then pure init
  else if A.rows = 1 ∧ A.cols = 1 then do
    let a ← A.get 0 0
    pure (init + MagOps.abs a)
  else
    foldEach (List.range' 0 A.rows) init fun result i => do
      let rowSum ← foldEach (List.range' 0 A.cols) init fun s j => do
        let a ← A.get i j
        pure (s + MagOps.abs a)
      pure (stdMax rowSum result)

end
end StdBLAS

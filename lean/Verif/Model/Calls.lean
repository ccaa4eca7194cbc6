import Verif.Model.Steps

/-!
# Calls

One constructor for each native algorithm with its arguments, so that a statement can be about all
of them, or about several different ones at once.

An algorithm that returns a value (`dot`, the norms, ...) is listed as the statement
`*out = f(algorithm(...))`: the caller converts the result and stores it in a variable of their own.
-/

namespace StdBLAS

/-- A call of a native algorithm; `R` is the `Scalar` type of the norms.  The lines in `/repo` are
those of the function of the same name in `Model/Steps.lean`. -/
inductive Call (α R : Type) : Type where
  /-- `scale(alpha, x)` -/
  | scale1 (alpha : α) (x : Vec)
  /-- `scale(alpha, A)` -/
  | scale2 (alpha : α) (A : Mat)
  /-- `copy(x, y)` -/
  | copy1 (x : VecV α) (y : Vec)
  /-- `copy(x, y)` -/
  | copy2 (x : MatV α) (y : Mat)
  /-- `swap_elements(x, y)` -/
  | swap1 (x y : Vec)
  /-- `swap_elements(x, y)` -/
  | swap2 (x y : Mat)
  /-- `add(x, y, z)` -/
  | add1 (x y : VecV α) (z : Vec)
  /-- `add(x, y, z)` -/
  | add2 (x y : MatV α) (z : Mat)
  /-- `apply_givens_rotation(x, y, c, s)` with real `s` -/
  | givens (x y : Vec) (c s : α)
  /-- `apply_givens_rotation(x, y, c, s)` with complex `s` -/
  | givensC (x y : Vec) (c s : α)
  /-- `*out = f(dot(v1, v2, init))` -/
  | dot (v1 v2 : VecV α) (init : α) (f : α → α) (out : Nat)
  /-- `*out = f(dotc(v1, v2, init))` -/
  | dotc (v1 v2 : VecV α) (init : α) (f : α → α) (out : Nat)
  /-- `*out = f(vector_sum_of_squares(x, init))` -/
  | sumOfSquares (x : VecV α) (init : SumOfSquaresOf R) (f : SumOfSquaresOf R → α) (out : Nat)
  /-- `*out = f(vector_two_norm(x, init))` -/
  | twoNorm (x : VecV α) (init : R) (f : R → α) (out : Nat)
  /-- `*out = f(vector_abs_sum(x, init))` -/
  | absSum (x : VecV α) (init : R) (f : R → α) (out : Nat)
  /-- `*out = f(vector_idx_abs_max(x))` -/
  | idxAbsMax (sizeMax : Nat) (x : VecV α) (f : Nat → α) (out : Nat)
  /-- `*out = f(matrix_frob_norm(A, init))` -/
  | frobNorm (A : MatV α) (init : R) (f : R → α) (out : Nat)
  /-- `*out = f(matrix_one_norm(A, init))` -/
  | oneNorm (A : MatV α) (init : R) (f : R → α) (out : Nat)
  /-- `*out = f(matrix_inf_norm(A, init))` -/
  | infNorm (A : MatV α) (init : R) (f : R → α) (out : Nat)
  /-- `matrix_vector_product(A, x, y)` -/
  | gemv (A : MatV α) (x : VecV α) (y : Vec)
  /-- `matrix_vector_product(A, x, y, z)` -/
  | gemvUpdate (A : MatV α) (x y : VecV α) (z : Vec)
  /-- `symmetric_matrix_vector_product(A, t, x, y)` -/
  | symv (A : MatV α) (t : Triangle) (x : VecV α) (y : Vec)
  /-- `symmetric_matrix_vector_product(A, t, x, y, z)` -/
  | symvUpdate (A : MatV α) (t : Triangle) (x y : VecV α) (z : Vec)
  /-- `hermitian_matrix_vector_product(A, t, x, y)` -/
  | hemv (A : MatV α) (t : Triangle) (x : VecV α) (y : Vec)
  /-- `hermitian_matrix_vector_product(A, t, x, y, z)` -/
  | hemvUpdate (A : MatV α) (t : Triangle) (x y : VecV α) (z : Vec)
  /-- `triangular_matrix_vector_product(A, t, d, x, y)` -/
  | trmv (A : MatV α) (t : Triangle) (d : Diag) (x : VecV α) (y : Vec)
  /-- `triangular_matrix_vector_product(A, t, d, x, y, z)` -/
  | trmvUpdate (A : MatV α) (t : Triangle) (d : Diag) (x y : VecV α) (z : Vec)
  /-- `triangular_matrix_vector_product(A, t, d, y)` -/
  | trmvInPlace (A : MatV α) (t : Triangle) (d : Diag) (y : Vec)
  /-- `triangular_matrix_vector_solve(A, t, d, b, x, divide)` -/
  | trsv (divide : α → α → α) (A : MatV α) (t : Triangle) (d : Diag) (b : VecV α) (x : Vec)
  /-- `matrix_rank_1_update(x, y, A)` -/
  | ger (x y : VecV α) (A : Mat)
  /-- `matrix_rank_1_update_c(x, y, A)` -/
  | gerc (x y : VecV α) (A : Mat)
  /-- `symmetric_matrix_rank_1_update(alpha, x, A, t)` -/
  | syrAlpha (alpha : α) (x : VecV α) (A : Mat) (t : Triangle)
  /-- `symmetric_matrix_rank_1_update(x, A, t)` -/
  | syr (x : VecV α) (A : Mat) (t : Triangle)
  /-- `symmetric_matrix_rank_2_update(x, y, A, t)` -/
  | syr2 (x y : VecV α) (A : Mat) (t : Triangle)
  /-- `hermitian_matrix_rank_1_update(alpha, x, A, t)` -/
  | herAlpha (alpha : α) (x : VecV α) (A : Mat) (t : Triangle)
  /-- `hermitian_matrix_rank_1_update(x, A, t)` -/
  | her (x : VecV α) (A : Mat) (t : Triangle)
  /-- `hermitian_matrix_rank_2_update(x, y, A, t)` -/
  | her2 (x y : VecV α) (A : Mat) (t : Triangle)
  /-- `symmetric_matrix_rank_k_update(alpha, A, C, t)` -/
  | syrkAlpha (alpha : α) (A : MatV α) (C : Mat) (t : Triangle)
  /-- `symmetric_matrix_rank_k_update(A, C, t)` -/
  | syrk (A : MatV α) (C : Mat) (t : Triangle)
  /-- `symmetric_matrix_rank_2k_update(A, B, C, t)` -/
  | syr2k (A B : MatV α) (C : Mat) (t : Triangle)
  /-- `hermitian_matrix_rank_k_update(alpha, A, C, t)` -/
  | herkAlpha (alpha : α) (A : MatV α) (C : Mat) (t : Triangle)
  /-- `hermitian_matrix_rank_k_update(A, C, t)` -/
  | herk (A : MatV α) (C : Mat) (t : Triangle)
  /-- `hermitian_matrix_rank_2k_update(A, B, C, t)` -/
  | her2k (A B : MatV α) (C : Mat) (t : Triangle)
  /-- `matrix_product(A, B, C)` -/
  | gemm (A B : MatV α) (C : Mat)
  /-- `matrix_product(A, B, E, C)` -/
  | gemmUpdate (A B E : MatV α) (C : Mat)
  /-- `triangular_matrix_product(A, t, d, B, C)` -/
  | trmmLeft (A : MatV α) (t : Triangle) (d : Diag) (B : MatV α) (C : Mat)
  /-- `triangular_matrix_product(B, A, t, d, C)` -/
  | trmmRight (B : MatV α) (A : MatV α) (t : Triangle) (d : Diag) (C : Mat)
  /-- `triangular_matrix_left_product(A, t, d, C)` -/
  | trmmLeftInPlace (A : MatV α) (t : Triangle) (d : Diag) (C : Mat)
  /-- `triangular_matrix_right_product(A, t, d, C)` -/
  | trmmRightInPlace (A : MatV α) (t : Triangle) (d : Diag) (C : Mat)
  /-- `symmetric_matrix_product(A, t, B, C)` -/
  | symmLeft (A : MatV α) (t : Triangle) (B : MatV α) (C : Mat)
  /-- `symmetric_matrix_product(B, A, t, C)` -/
  | symmRight (B : MatV α) (A : MatV α) (t : Triangle) (C : Mat)
  /-- `hermitian_matrix_product(A, t, B, C)` -/
  | hemmLeft (A : MatV α) (t : Triangle) (B : MatV α) (C : Mat)
  /-- `hermitian_matrix_product(B, A, t, C)` -/
  | hemmRight (B : MatV α) (A : MatV α) (t : Triangle) (C : Mat)
  /-- `triangular_matrix_matrix_solve(A, t, d, side, B, X)` -/
  | trsm (A : MatV α) (t : Triangle) (d : Diag) (side : Side) (B : MatV α) (X : Mat)

/-- `*out = f(result)`. -/
def Task.into {α β : Type} (p : Task α β) (f : β → α) (out : Nat) : Task α Unit := do
  let b ← p
  .store out (f b) (.done ())

/-- `*out = f(result)`. -/
def Prog.into {α β : Type} (p : Prog α β) (f : β → α) (out : Nat) : Prog α Unit := do
  let b ← p
  Prog.store out (f b)

variable {α R : Type} [Add α] [Sub α] [Mul α] [Div α] [Zero α] [ConjOps α]
  [Zero R] [One R] [Add R] [Mul R] [Div R] [FloatOps R] [MagOps α R]

/-- The call as a sequence of memory accesses (`Model/Steps.lean`, where the lines are cited). -/
def Call.steps : Call α R → Task α Unit
  | .scale1 alpha x => Steps.scale1 alpha x
  | .scale2 alpha A => Steps.scale2 alpha A
  | .copy1 x y => Steps.copy1 x y
  | .copy2 x y => Steps.copy2 x y
  | .swap1 x y => Steps.swap1 x y
  | .swap2 x y => Steps.swap2 x y
  | .add1 x y z => Steps.add1 x y z
  | .add2 x y z => Steps.add2 x y z
  | .givens x y c s => Steps.applyGivens x y c s
  | .givensC x y c s => Steps.applyGivensC x y c s
  | .dot v1 v2 init f out => (Steps.dot v1 v2 init).into f out
  | .dotc v1 v2 init f out => (Steps.dotc v1 v2 init).into f out
  | .sumOfSquares x init f out => (Steps.vectorSumOfSquaresOf x init).into f out
  | .twoNorm x init f out => (Steps.vectorTwoNormOf x init).into f out
  | .absSum x init f out => (Steps.vectorAbsSumOf x init).into f out
  | .idxAbsMax sizeMax x f out => (Steps.vectorIdxAbsMaxOf R sizeMax x).into f out
  | .frobNorm A init f out => (Steps.matrixFrobNormOf A init).into f out
  | .oneNorm A init f out => (Steps.matrixOneNormOf A init).into f out
  | .infNorm A init f out => (Steps.matrixInfNormOf A init).into f out
  | .gemv A x y => Steps.gemv A x y
  | .gemvUpdate A x y z => Steps.gemvUpdate A x y z
  | .symv A t x y => Steps.symv A t x y
  | .symvUpdate A t x y z => Steps.symvUpdate A t x y z
  | .hemv A t x y => Steps.hemv A t x y
  | .hemvUpdate A t x y z => Steps.hemvUpdate A t x y z
  | .trmv A t d x y => Steps.trmv A t d x y
  | .trmvUpdate A t d x y z => Steps.trmvUpdate A t d x y z
  | .trmvInPlace A t d y => Steps.trmvInPlace A t d y
  | .trsv divide A t d b x => Steps.trsv divide A t d b x
  | .ger x y A => Steps.ger x y A
  | .gerc x y A => Steps.gerc x y A
  | .syrAlpha alpha x A t => Steps.syrAlpha alpha x A t
  | .syr x A t => Steps.syr x A t
  | .syr2 x y A t => Steps.syr2 x y A t
  | .herAlpha alpha x A t => Steps.herAlpha alpha x A t
  | .her x A t => Steps.her x A t
  | .her2 x y A t => Steps.her2 x y A t
  | .syrkAlpha alpha A C t => Steps.syrkAlpha alpha A C t
  | .syrk A C t => Steps.syrk A C t
  | .syr2k A B C t => Steps.syr2k A B C t
  | .herkAlpha alpha A C t => Steps.herkAlpha alpha A C t
  | .herk A C t => Steps.herk A C t
  | .her2k A B C t => Steps.her2k A B C t
  | .gemm A B C => Steps.gemm A B C
  | .gemmUpdate A B E C => Steps.gemmUpdate A B E C
  | .trmmLeft A t d B C => Steps.trmmLeft A t d B C
  | .trmmRight B A t d C => Steps.trmmRight B A t d C
  | .trmmLeftInPlace A t d C => Steps.trmmLeftInPlace A t d C
  | .trmmRightInPlace A t d C => Steps.trmmRightInPlace A t d C
  | .symmLeft A t B C => Steps.symmLeft A t B C
  | .symmRight B A t C => Steps.symmRight B A t C
  | .hemmLeft A t B C => Steps.hemmLeft A t B C
  | .hemmRight B A t C => Steps.hemmRight B A t C
  | .trsm A t d side B X => Steps.trsm A t d side B X

/-- The call as the function that the other properties are about (`Model/Blas1.lean`,
`Model/FloatReductions.lean`, `Model/Givens.lean`, `Model/Blas2.lean`, `Model/Blas3.lean`, where the
lines are cited). -/
def Call.prog : Call α R → Prog α Unit
  | .scale1 alpha x => StdBLAS.scale1 alpha x
  | .scale2 alpha A => StdBLAS.scale2 alpha A
  | .copy1 x y => StdBLAS.copy1 x y
  | .copy2 x y => StdBLAS.copy2 x y
  | .swap1 x y => StdBLAS.swap1 x y
  | .swap2 x y => StdBLAS.swap2 x y
  | .add1 x y z => StdBLAS.add1 x y z
  | .add2 x y z => StdBLAS.add2 x y z
  | .givens x y c s => StdBLAS.applyGivens x y c s
  | .givensC x y c s => StdBLAS.applyGivensC x y c s
  | .dot v1 v2 init f out => (StdBLAS.dot v1 v2 init).into f out
  | .dotc v1 v2 init f out => (StdBLAS.dotc v1 v2 init).into f out
  | .sumOfSquares x init f out => (StdBLAS.vectorSumOfSquaresOf x init).into f out
  | .twoNorm x init f out => (StdBLAS.vectorTwoNormOf x init).into f out
  | .absSum x init f out => (StdBLAS.vectorAbsSumOf x init).into f out
  | .idxAbsMax sizeMax x f out => (StdBLAS.vectorIdxAbsMaxOf R sizeMax x).into f out
  | .frobNorm A init f out => (StdBLAS.matrixFrobNormOf A init).into f out
  | .oneNorm A init f out => (StdBLAS.matrixOneNormOf A init).into f out
  | .infNorm A init f out => (StdBLAS.matrixInfNormOf A init).into f out
  | .gemv A x y => StdBLAS.gemv A x y
  | .gemvUpdate A x y z => StdBLAS.gemvUpdate A x y z
  | .symv A t x y => StdBLAS.symv A t x y
  | .symvUpdate A t x y z => StdBLAS.symvUpdate A t x y z
  | .hemv A t x y => StdBLAS.hemv A t x y
  | .hemvUpdate A t x y z => StdBLAS.hemvUpdate A t x y z
  | .trmv A t d x y => StdBLAS.trmv A t d x y
  | .trmvUpdate A t d x y z => StdBLAS.trmvUpdate A t d x y z
  | .trmvInPlace A t d y => StdBLAS.trmvInPlace A t d y
  | .trsv divide A t d b x => StdBLAS.trsv divide A t d b x
  | .ger x y A => StdBLAS.ger x y A
  | .gerc x y A => StdBLAS.gerc x y A
  | .syrAlpha alpha x A t => StdBLAS.syrAlpha alpha x A t
  | .syr x A t => StdBLAS.syr x A t
  | .syr2 x y A t => StdBLAS.syr2 x y A t
  | .herAlpha alpha x A t => StdBLAS.herAlpha alpha x A t
  | .her x A t => StdBLAS.her x A t
  | .her2 x y A t => StdBLAS.her2 x y A t
  | .syrkAlpha alpha A C t => StdBLAS.syrkAlpha alpha A C t
  | .syrk A C t => StdBLAS.syrk A C t
  | .syr2k A B C t => StdBLAS.syr2k A B C t
  | .herkAlpha alpha A C t => StdBLAS.herkAlpha alpha A C t
  | .herk A C t => StdBLAS.herk A C t
  | .her2k A B C t => StdBLAS.her2k A B C t
  | .gemm A B C => StdBLAS.gemm A B C
  | .gemmUpdate A B E C => StdBLAS.gemmUpdate A B E C
  | .trmmLeft A t d B C => StdBLAS.trmmLeft A t d B C
  | .trmmRight B A t d C => StdBLAS.trmmRight B A t d C
  | .trmmLeftInPlace A t d C => StdBLAS.trmmLeftInPlace A t d C
  | .trmmRightInPlace A t d C => StdBLAS.trmmRightInPlace A t d C
  | .symmLeft A t B C => StdBLAS.symmLeft A t B C
  | .symmRight B A t C => StdBLAS.symmRight B A t C
  | .hemmLeft A t B C => StdBLAS.hemmLeft A t B C
  | .hemmRight B A t C => StdBLAS.hemmRight B A t C
  | .trsm A t d side B X => StdBLAS.trsm A t d side B X

end StdBLAS

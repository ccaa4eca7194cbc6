import Verif.Model.Blas1
import Verif.Model.Givens
import Verif.Model.Blas2
import Verif.Model.Blas3
import Verif.Model.Views
import Verif.Spec.Blocks
import Mathlib.Algebra.Field.Basic
import Mathlib.Analysis.Real.Sqrt

/-!
# Programs that a user writes with the library

Nothing here is code of /repo.  These are the textbook algorithms for linear systems, written
with calls of the modelled algorithms on parts of matrices (what `submdspan` gives).  The theorems
of C75 are about them.
-/

namespace StdBLAS
variable {α : Type}

/-- `m` elements of column `j` of `A`, from row `i0`: `submdspan(A, pair{i0, i0 + m}, j)`. -/
def Mat.colPart (A : Mat) (j i0 m : Nat) : Vec := ⟨m, fun i => A.addr (i0 + i) j⟩

/-- `m` elements of row `i` of `A`, from column `j0`: `submdspan(A, i, pair{j0, j0 + m})`. -/
def Mat.rowPart (A : Mat) (i j0 m : Nat) : Vec := ⟨m, fun j => A.addr i (j0 + j)⟩

open Classical in
/-- Divide the elements of `x` by `p` (`scale`), unless `p` is zero. -/
noncomputable def scaleByInverse [Field α] (p : α) (x : Vec) : Prog α Unit :=
  if p = 0 then pure () else scale1 (1 / p) x

/-- One step of Gaussian elimination in an n x n matrix: divide the part of column `k` below the
diagonal by the pivot (`scale`; not if the pivot is zero), then subtract the outer product of that
part and the rest of row `k` from the block below and to the right (`matrix_rank_1_update` with
`scaled(-1, ...)`). -/
noncomputable def luStep [Field α] (A : Mat) (n k : Nat) : Prog α Unit := do
  let p ← A.get k k
  scaleByInverse p (A.colPart k (k + 1) (n - (k + 1)))
  ger ((A.colPart k (k + 1) (n - (k + 1))).view.scaled (-1))
    (A.rowPart k (k + 1) (n - (k + 1))).view
    (A.block (k + 1) (k + 1) (n - (k + 1)) (n - (k + 1)))

/-- LU factorisation in place, without interchanges. -/
noncomputable def luFactor [Field α] (A : Mat) (n : Nat) : Prog α Unit :=
  forUp 0 n fun k => luStep A n k

/-- LU factorisation with partial pivoting; the rows of `B` are interchanged with those of `A`.
`vector_idx_abs_max` finds the pivot, `swap_elements` interchanges the rows. -/
noncomputable def luPivot (sizeMax : Nat) (A B : Mat) (n : Nat) : Prog ℝ Unit :=
  forUp 0 n fun k => do
    let r ← vectorIdxAbsMax sizeMax (A.colPart k k (n - k)).view
    swap1 (A.rowPart k 0 n) (A.rowPart (k + r) 0 n)
    swap1 (B.rowPart k 0 B.cols) (B.rowPart (k + r) 0 B.cols)
    luStep A n k

/-- Solve `A X = B`, overwriting `A` by its factors and `B` by the solution. -/
noncomputable def gesv (sizeMax : Nat) (A B : Mat) (n : Nat) : Prog ℝ Unit := do
  luPivot sizeMax A B n
  trsmLeft A.view .lower .implicitUnit B.view B
  trsmLeft A.view .upper .explicit B.view B

/-- Cholesky factorisation of the lower triangle of `A` in place: square root of the pivot, `scale`
of the column below it, `symmetric_matrix_rank_1_update` (with alpha = -1, lower triangle) of
the block below and to the right.  The upper triangle is not used. -/
noncomputable def cholesky (A : Mat) (n : Nat) : Prog ℝ Unit :=
  forUp 0 n fun k => do
    let p ← A.get k k
    A.set k k (Real.sqrt p)
    scale1 (1 / Real.sqrt p) (A.colPart k (k + 1) (n - (k + 1)))
    syrAlpha (-1) (A.colPart k (k + 1) (n - (k + 1))).view
      (A.block (k + 1) (k + 1) (n - (k + 1)) (n - (k + 1))) .lower

/-- Solve `A x = b` for a positive definite matrix given by its lower triangle, overwriting `b`. -/
noncomputable def posv (A : Mat) (b : Vec) (n : Nat) : Prog ℝ Unit := do
  cholesky A n
  trsv (· / ·) A.view .lower .explicit b.view b
  trsv (· / ·) A.view.transposed .upper .explicit b.view b

/-- QR factorisation of a tall matrix by way of `Aᵀ A` (the last example of the proposal P1673):
`scale` by zero, `symmetric_matrix_rank_k_update` with `transposed(A)`, Cholesky factorisation,
`triangular_matrix_matrix_right_solve` with the transposed factor.  `L` is n x n, of which the
lower triangle is the factor. -/
noncomputable def choleskyQR (A Q L : Mat) (n : Nat) : Prog ℝ Unit := do
  scale2 0 L
  syrk A.view.transposed L .lower
  cholesky L n
  trsmRight L.view.transposed .upper .explicit A.view Q

/-- QR factorisation of `Q` in place by the modified method of Gram and Schmidt, the triangular factor in `R`:
`vector_two_norm` and `scale` of column `k`, its products with the columns to the right (`matrix_vector_product`
with the transposed block) as row `k` of `R`, and their subtraction (`matrix_rank_1_update` with `scaled(-1, ...)`). -/
noncomputable def gramSchmidt (Q R : Mat) : Prog ℝ Unit :=
  forUp 0 Q.cols fun k => do
    let r ← vectorTwoNorm (Q.colPart k 0 Q.rows).view 0
    R.set k k r
    scale1 (1 / r) (Q.colPart k 0 Q.rows)
    gemv (Q.block 0 (k + 1) Q.rows (Q.cols - (k + 1))).view.transposed (Q.colPart k 0 Q.rows).view
      (R.rowPart k (k + 1) (Q.cols - (k + 1)))
    ger ((Q.colPart k 0 Q.rows).view.scaled (-1)) (R.rowPart k (k + 1) (Q.cols - (k + 1))).view
      (Q.block 0 (k + 1) Q.rows (Q.cols - (k + 1)))

/-- Least squares with these factors: `x = Qᵀ b`, then a triangular solve with `R`. -/
noncomputable def gramSchmidtLeastSquares (Q R : Mat) (b x : Vec) : Prog ℝ Unit := do
  gramSchmidt Q R
  gemv Q.view.transposed b.view x
  trsv (· / ·) R.view .upper .explicit x.view x

/-- QR factorisation of `A` by Givens rotations (`apply_givens_rotation` on pairs of rows), the
same rotations applied to the rows of `B`.  `rot f g` is `(c, s, r)` as returned by
`setup_givens_rotation`. -/
noncomputable def givensQR (rot : ℝ → ℝ → ℝ × ℝ × ℝ) (A B : Mat) : Prog ℝ Unit :=
  forUp 0 A.cols fun j => forUp (j + 1) A.rows fun i => do
    let f ← A.get j j
    let g ← A.get i j
    applyGivens (A.rowPart j 0 A.cols) (A.rowPart i 0 A.cols) (rot f g).1 (rot f g).2.1
    applyGivens (B.rowPart j 0 B.cols) (B.rowPart i 0 B.cols) (rot f g).1 (rot f g).2.1

/-- Least squares: QR factorisation, then a triangular solve with the leading block. -/
noncomputable def leastSquares (rot : ℝ → ℝ → ℝ × ℝ × ℝ) (A B : Mat) : Prog ℝ Unit := do
  givensQR rot A B
  trsmLeft (A.block 0 0 A.cols A.cols).view .upper .explicit (B.block 0 0 A.cols B.cols).view
    (B.block 0 0 A.cols B.cols)

open Classical in
/-- One step of the method of conjugate gradients for `A x = b`, with the residual `r`, the direction
`p` and a work vector `q`; nothing if the residual is zero.  `A` is symmetric and given by one triangle. -/
noncomputable def cgStep (A : Mat) (t : Triangle) (x r p q : Vec) : Prog ℝ Unit := do
  let rr ← dot r.view r.view 0
  if rr = 0 then pure () else do
    symv A.view t p.view q
    let pq ← dot p.view q.view 0
    add1 x.view (p.view.scaled (rr / pq)) x
    add1 r.view (q.view.scaled (-(rr / pq))) r
    let rr' ← dot r.view r.view 0
    add1 r.view (p.view.scaled (rr' / rr)) p

/-- The method of conjugate gradients: `steps` steps from the approximation in `x`. -/
noncomputable def conjugateGradients (A : Mat) (t : Triangle) (b x r p q : Vec) (steps : Nat) :
    Prog ℝ Unit := do
  symv A.view t x.view q
  add1 b.view (q.view.scaled (-1)) r
  copy1 r.view p
  forUp 0 steps fun _ => cgStep A t x r p q

/-- One step of the method of Gauss and Seidel for `A x = b`: the residual (`matrix_vector_product` with
`scaled(-1, A)`, updating), a triangular solve with the triangle `t` of `A`, `add`.  (With the lower
triangle the elements are corrected in ascending, with the upper one in descending order.) -/
noncomputable def gaussSeidelStep (A : Mat) (t : Triangle) (b x r : Vec) : Prog ℝ Unit := do
  gemvUpdate (A.view.scaled (-1)) x.view b.view r
  trsv (· / ·) A.view t .explicit r.view r
  add1 x.view r.view x

/-- `steps` steps of the method of Gauss and Seidel. -/
noncomputable def gaussSeidel (A : Mat) (t : Triangle) (b x r : Vec) (steps : Nat) : Prog ℝ Unit :=
  forUp 0 steps fun _ => gaussSeidelStep A t b x r

/-! ## The same in rounded arithmetic

`one` and `minusOne` are the elements 1 and -1.  There is no test for a zero pivot. -/

/-- One step of Gaussian elimination. -/
def luStepF [Add α] [Mul α] [Div α] (one minusOne : α) (A : Mat) (n k : Nat) : Prog α Unit := do
  let p ← A.get k k
  scale1 (one / p) (A.colPart k (k + 1) (n - (k + 1)))
  ger ((A.colPart k (k + 1) (n - (k + 1))).view.scaled minusOne)
    (A.rowPart k (k + 1) (n - (k + 1))).view
    (A.block (k + 1) (k + 1) (n - (k + 1)) (n - (k + 1)))

/-- LU factorisation with partial pivoting; the rows of `B` are interchanged with those of `A`. -/
noncomputable def luPivotF [Add α] [Mul α] [Div α] [AbsOps α] (one minusOne : α) (sizeMax : Nat)
    (A B : Mat) (n : Nat) : Prog α Unit :=
  forUp 0 n fun k => do
    let r ← vectorIdxAbsMax sizeMax (A.colPart k k (n - k)).view
    swap1 (A.rowPart k 0 n) (A.rowPart (k + r) 0 n)
    swap1 (B.rowPart k 0 B.cols) (B.rowPart (k + r) 0 B.cols)
    luStepF one minusOne A n k

/-- Solve `A X = B`, overwriting `A` by its factors and `B` by the solution. -/
noncomputable def gesvF [Add α] [Sub α] [Mul α] [Div α] [AbsOps α] (one minusOne : α) (sizeMax : Nat)
    (A B : Mat) (n : Nat) : Prog α Unit := do
  luPivotF one minusOne sizeMax A B n
  trsmLeft A.view .lower .implicitUnit B.view B
  trsmLeft A.view .upper .explicit B.view B

/-- Cholesky factorisation of the lower triangle of `A` in place.  `root` is the square root, `pos` the
comparison with zero; the factorisation ends with `false` at a pivot that is not positive. -/
def potrfF [Add α] [Mul α] [Div α] (one minusOne : α) (root : α → α) (pos : α → Bool) (A : Mat)
    (n : Nat) : Prog α Bool :=
  foldEach (List.range' 0 n) true fun ok k =>
    if ok then do
      let p ← A.get k k
      if pos p then do
        A.set k k (root p)
        scale1 (one / root p) (A.colPart k (k + 1) (n - (k + 1)))
        syrAlpha minusOne (A.colPart k (k + 1) (n - (k + 1))).view
          (A.block (k + 1) (k + 1) (n - (k + 1)) (n - (k + 1))) .lower
        pure true
      else pure false
    else pure false

/-- Solve `A x = b` for a symmetric matrix given by its lower triangle, overwriting `b`; `false` if a pivot
was not positive. -/
def posvF [Add α] [Sub α] [Mul α] [Div α] (one minusOne : α) (root : α → α) (pos : α → Bool) (A : Mat)
    (b : Vec) (n : Nat) : Prog α Bool := do
  let ok ← potrfF one minusOne root pos A n
  if ok then do
    trsv (· / ·) A.view .lower .explicit b.view b
    trsv (· / ·) A.view.transposed .upper .explicit b.view b
    pure true
  else pure false

end StdBLAS

import Verif.Core.Parallel
import Verif.Model.Blas3
import Verif.Model.FloatReductions
import Verif.Model.Givens

/-!
# The native algorithms, one memory access at a time

The same algorithms as in `Blas1.lean`, `FloatReductions.lean`, `Givens.lean`, `Blas2.lean` and
`Blas3.lean`, line for line, but as a sequence of single memory accesses (`Task`) instead of a
function from the memory at the call to the memory at the return.  Here the states in between can be
talked about: what has been written when a call is cut short by an exception, or what another thread
sees.  `Lemmas/Steps.lean` proves for each of them that running all accesses is the function of the
other files.

Not here: the four updating `symmetric_matrix_product` and `hermitian_matrix_product` overloads, whose
body is `assert(false)` (`Blas3.lean`), and the `setup_givens_rotation` functions, which access no
memory.
-/

namespace StdBLAS
variable {α : Type}

/-- Read `x(i)` through the accessor: `mdspan::operator()`, as `VecV.get`. -/
def VecV.rd (x : VecV α) (i : Nat) : Task α α := do
  let v ← x.toVec.rd i
  pure (x.acc v)

/-- Read `A(i, j)` through the accessor: `mdspan::operator()`, as `MatV.get`. -/
def MatV.rd (A : MatV α) (i j : Nat) : Task α α := do
  let v ← A.toMat.rd i j
  pure (A.acc v)

/-- `y(i) += v`: read, add, write, as `Vec.addTo`. -/
def Vec.plus [Add α] (y : Vec) (i : Nat) (v : α) : Task α Unit := do
  let o ← y.rd i
  y.wr i (o + v)

/-- `C(i,j) += v`: read, add, write, as `Mat.addTo`. -/
def Mat.plus [Add α] (C : Mat) (i j : Nat) (v : α) : Task α Unit := do
  let o ← C.rd i j
  C.wr i j (o + v)

/-- `for (i = n; i > 0; --i)` with body index `i - 1`, as `forDown`. -/
def Task.forDown (n : Nat) (body : Nat → Task α Unit) : Task α Unit :=
  Task.forEach (List.range n).reverse body

namespace Steps
variable {R : Type}

/-! ## blas1_scale.hpp -/

/-- `blas1_scale.hpp:59-66` `linalg_scale_rank_1`: `x(i) *= alpha`. -/
def scale1 [Mul α] (alpha : α) (x : Vec) : Task α Unit :=
  Task.forUp 0 x.ext fun i => do
    let v ← x.rd i
    x.wr i (v * alpha)

/-- `blas1_scale.hpp:75-84` `linalg_scale_rank_2`: columns outside, rows inside. -/
def scale2 [Mul α] (alpha : α) (A : Mat) : Task α Unit :=
  Task.forUp 0 A.cols fun j => Task.forUp 0 A.rows fun i => do
    let v ← A.rd i j
    A.wr i j (v * alpha)

/-! ## blas1_linalg_copy.hpp -/

/-- `blas1_linalg_copy.hpp:63-74` `copy_rank_1`. -/
def copy1 (x : VecV α) (y : Vec) : Task α Unit :=
  Task.forUp 0 y.ext fun i => do
    let v ← x.rd i
    y.wr i v

/-- `blas1_linalg_copy.hpp:88-104` `copy_rank_2`. -/
def copy2 (x : MatV α) (y : Mat) : Task α Unit :=
  Task.forUp 0 y.cols fun j => Task.forUp 0 y.rows fun i => do
    let v ← x.rd i j
    y.wr i j v

/-! ## blas1_linalg_swap.hpp -/

/-- `blas1_linalg_swap.hpp:65-79` `swap_rank_1`; `std::swap(a, b)` is
`tmp = a; a = b; b = tmp`. -/
def swap1 (x y : Vec) : Task α Unit :=
  Task.forUp 0 y.ext fun i => do
    let tmp ← x.rd i
    let w ← y.rd i
    x.wr i w
    y.wr i tmp

/-- `blas1_linalg_swap.hpp:93-112` `swap_rank_2`. -/
def swap2 (x y : Mat) : Task α Unit :=
  Task.forUp 0 y.cols fun j => Task.forUp 0 y.rows fun i => do
    let tmp ← x.rd i j
    let w ← y.rd i j
    x.wr i j w
    y.wr i j tmp

/-! ## blas1_linalg_add.hpp -/

/-- `blas1_linalg_add.hpp:68-87` `add_rank_1`. -/
def add1 [Add α] (x y : VecV α) (z : Vec) : Task α Unit :=
  Task.forUp 0 z.ext fun i => do
    let a ← x.rd i
    let b ← y.rd i
    z.wr i (a + b)

/-- `blas1_linalg_add.hpp:107-138` `add_rank_2`: loops over the extents of `x`. -/
def add2 [Add α] (x y : MatV α) (z : Mat) : Task α Unit :=
  Task.forUp 0 x.cols fun j => Task.forUp 0 x.rows fun i => do
    let a ← x.rd i j
    let b ← y.rd i j
    z.wr i j (a + b)

/-! ## blas1_dot.hpp -/

/-- `blas1_dot.hpp:92-107` `dot` with `init`: `init += v1(k) * v2(k)`, `k < v1.extent(0)`. -/
def dot [Add α] [Mul α] (v1 v2 : VecV α) (init : α) : Task α α :=
  Task.foldEach (List.range' 0 v1.ext) init fun s k => do
    let a ← v1.rd k
    let b ← v2.rd k
    pure (s + a * b)

/-- `blas1_dot.hpp:234-241` `dot` without `init`: starts from `return_t{}`. -/
def dot0 [Add α] [Mul α] [Zero α] (v1 v2 : VecV α) : Task α α := dot v1 v2 0

/-- `blas1_dot.hpp:172-178` `dotc` with `init`: `dot(conjugated(v1), v2, init)`. -/
def dotc [Add α] [Mul α] [ConjOps α] (v1 v2 : VecV α) (init : α) : Task α α :=
  dot v1.conjugated v2 init

/-- `blas1_dot.hpp:274-281` `dotc` without `init`. -/
def dotc0 [Add α] [Mul α] [Zero α] [ConjOps α] (v1 v2 : VecV α) : Task α α := dotc v1 v2 0

/-! ## Reductions, for every `Scalar` type `R` -/

section
variable [Zero R] [One R] [Add R] [Mul R] [Div R] [FloatOps R] [MagOps α R]

/-- `blas1_vector_sum_of_squares.hpp:91-126` `vector_sum_of_squares`. -/
def vectorSumOfSquaresOf (x : VecV α) (init : SumOfSquaresOf R) : Task α (SumOfSquaresOf R) :=
  if x.ext = 0 then pure init else
  Task.foldEach (List.range' 0 x.ext) init fun s i => do
    let v ← x.rd i
    if FloatOps.ne (MagOps.abs v : R) 0 then
      let v ← x.rd i
      let absxi : R := MagOps.abs v
      if FloatOps.lt s.scalingFactor absxi then
        let quotient := s.scalingFactor / absxi
        pure ⟨absxi, 1 + s.scaledSumOfSquares * quotient * quotient⟩
      else
        let quotient := absxi / s.scalingFactor
        pure ⟨s.scalingFactor, s.scaledSumOfSquares + quotient * quotient⟩
    else pure s

/-- `blas1_vector_norm2.hpp:83-100` `vector_two_norm` with `init`. -/
def vectorTwoNormOf (x : VecV α) (init : R) : Task α R := do
  let r ← vectorSumOfSquaresOf x (⟨0, 1⟩ : SumOfSquaresOf R)
  pure (init + r.scalingFactor * FloatOps.sqrt r.scaledSumOfSquares)

/-- `blas1_vector_norm2.hpp:157-163` `vector_two_norm` without `init`: starts from `return_t{}`. -/
def vectorTwoNormOf0 (x : VecV α) : Task α R := vectorTwoNormOf x 0

/-- `blas1_vector_abs_sum.hpp:82-108` `vector_abs_sum` with `init`. -/
def vectorAbsSumOf (v : VecV α) (init : R) : Task α R :=
  if MagOps.isArith α R then
    Task.foldEach (List.range' 0 v.ext) init fun s i => do
      let a ← v.rd i
      pure (s + MagOps.abs a)
  else
    Task.foldEach (List.range' 0 v.ext) init fun s i => do
      let a ← v.rd i
      let b ← v.rd i
      pure (s + MagOps.absRe a + MagOps.absIm b)

/-- `blas1_vector_idx_abs_max.hpp:75-117` `vector_idx_abs_max_default_impl`; `sizeMax` is
`numeric_limits<SizeType>::max()`, `R` is `magnitude_type`.  The first branch is lines 88-98
(arithmetic types), the second lines 100-116. -/
def vectorIdxAbsMaxOf (R : Type) [Add R] [FloatOps R] [MagOps α R] (sizeMax : Nat) (v : VecV α) :
    Task α Nat :=
  if v.ext = 0 then pure sizeMax
  else if MagOps.isArith α R then do
    let a ← v.rd 0
    let r ← Task.foldEach (List.range' 1 (v.ext - 1)) ((0 : Nat), (MagOps.abs a : R)) fun s i => do
      let b ← v.rd i
      if FloatOps.lt s.2 (MagOps.abs b : R) then do
        let b ← v.rd i
        pure (i, MagOps.abs b)
      else pure s
    pure r.1
  else do
    let a ← v.rd 0
    let b ← v.rd 0
    let r ← Task.foldEach (List.range' 1 (v.ext - 1)) ((0 : Nat), (MagOps.absRe a + MagOps.absIm b : R))
      fun s i => do
        let a ← v.rd i
        let b ← v.rd i
        let val : R := MagOps.absRe a + MagOps.absIm b
        if FloatOps.lt s.2 val then pure (i, val) else pure s
    pure r.1

/-- `blas1_matrix_frob_norm.hpp:87-126` `matrix_frob_norm` with `init`. -/
def matrixFrobNormOf (A : MatV α) (init : R) : Task α R :=
  if A.rows = 0 ∨ A.cols = 0 then pure init
  else if A.rows = 1 ∧ A.cols = 1 then do
    let a ← A.rd 0 0
    pure (init + MagOps.abs a)
  else do
    let r ← Task.foldEach (List.range' 0 A.rows) (⟨0, 1⟩ : SumOfSquaresOf R) fun s i =>
      Task.foldEach (List.range' 0 A.cols) s fun s j => do
        let a ← A.rd i j
        pure (frobStepOf s (MagOps.abs a))
    pure (init + r.scalingFactor * FloatOps.sqrt r.scaledSumOfSquares)

/-- `blas1_matrix_one_norm.hpp:89-118` `matrix_one_norm` with `init`. -/
def matrixOneNormOf (A : MatV α) (init : R) : Task α R :=
  if A.rows = 0 ∨ A.cols = 0 then pure init
  else if A.rows = 1 ∧ A.cols = 1 then do
    let a ← A.rd 0 0
    pure (init + MagOps.abs a)
  else
    Task.foldEach (List.range' 0 A.cols) init fun result j => do
      let colSum ← Task.foldEach (List.range' 0 A.rows) init fun s i => do
        let a ← A.rd i j
        pure (s + MagOps.abs a)
      pure (stdMax colSum result)

/-- `blas1_matrix_inf_norm.hpp:88-115` `matrix_inf_norm` with `init`. -/
def matrixInfNormOf (A : MatV α) (init : R) : Task α R :=
  if A.rows = 0 ∨ A.cols = 0 then pure init
  else if A.rows = 1 ∧ A.cols = 1 then do
    let a ← A.rd 0 0
    pure (init + MagOps.abs a)
  else
    Task.foldEach (List.range' 0 A.rows) init fun result i => do
      let rowSum ← Task.foldEach (List.range' 0 A.cols) init fun s j => do
        let a ← A.rd i j
        pure (s + MagOps.abs a)
      pure (stdMax rowSum result)

end

/-! ## blas1_givens.hpp -/

/-- `blas1_givens.hpp:388-406` `apply_givens_rotation` with real `s`. -/
def applyGivens [Add α] [Sub α] [Mul α] (x y : Vec) (c s : α) : Task α Unit :=
  Task.forUp 0 x.ext fun i => do
    let xi ← x.rd i
    let yi ← y.rd i
    let dtemp := c * xi + s * yi
    let yi ← y.rd i
    let xi ← x.rd i
    y.wr i (c * yi - s * xi)
    x.wr i dtemp

/-- `blas1_givens.hpp:483-502` `apply_givens_rotation` with complex `s`. -/
def applyGivensC [Add α] [Sub α] [Mul α] [ConjOps α] (x y : Vec) (c s : α) : Task α Unit :=
  Task.forUp 0 x.ext fun i => do
    let xi ← x.rd i
    let yi ← y.rd i
    let dtemp := c * xi + s * yi
    let yi ← y.rd i
    let xi ← x.rd i
    y.wr i (c * yi - ConjOps.conj s * xi)
    x.wr i dtemp

/-! ## blas2_matrix_vector_product.hpp: general -/

/-- `blas2_matrix_vector_product.hpp:291-307` overwriting `matrix_vector_product`. -/
def gemv [Add α] [Mul α] [Zero α] (A : MatV α) (x : VecV α) (y : Vec) : Task α Unit :=
  Task.forUp 0 A.rows fun i => do
    y.wr i 0
    Task.forUp 0 A.cols fun j => do
      let a ← A.rd i j
      let b ← x.rd j
      y.plus i (a * b)

/-- `blas2_matrix_vector_product.hpp:408-426` updating `matrix_vector_product`. -/
def gemvUpdate [Add α] [Mul α] (A : MatV α) (x y : VecV α) (z : Vec) : Task α Unit :=
  Task.forUp 0 A.rows fun i => do
    let v ← y.rd i
    z.wr i v
    Task.forUp 0 A.cols fun j => do
      let a ← A.rd i j
      let b ← x.rd j
      z.plus i (a * b)

/-! ## blas2_matrix_vector_product.hpp: symmetric -/

/-- `y(i) = ElementType_y{}` for all rows: `blas2_matrix_vector_product.hpp:534-536`
(the same three lines at 787-789 and 1049-1051). -/
def fillZero [Zero α] (n : Nat) (y : Vec) : Task α Unit :=
  Task.forUp 0 n fun i => y.wr i 0

/-- `z(i) = y(i)` for all rows: `blas2_matrix_vector_product.hpp:657-659`
(the same three lines at 917-919 and 1194-1196). -/
def fillFrom (n : Nat) (y : VecV α) (z : Vec) : Task α Unit :=
  Task.forUp 0 n fun i => do
    let v ← y.rd i
    z.wr i v

/-- The accumulating part of `symmetric_matrix_vector_product`:
`blas2_matrix_vector_product.hpp:538-557` (overwriting) and 661-680 (updating). -/
def symvAcc [Add α] [Mul α] (A : MatV α) (t : Triangle) (x : VecV α) (z : Vec) : Task α Unit :=
  match t with
  | .lower =>
    Task.forUp 0 A.cols fun j => do
      let d ← A.rd j j
      let b ← x.rd j
      z.plus j (d * b)
      Task.forUp (j + 1) A.rows fun i => do
        let aij ← A.rd i j
        let xj ← x.rd j
        z.plus i (aij * xj)
        let xi ← x.rd i
        z.plus j (aij * xi)
  | .upper =>
    Task.forUp 0 A.cols fun j => do
      Task.forUp 0 j fun i => do
        let aij ← A.rd i j
        let xj ← x.rd j
        z.plus i (aij * xj)
        let xi ← x.rd i
        z.plus j (aij * xi)
      let d ← A.rd j j
      let b ← x.rd j
      z.plus j (d * b)

/-- `blas2_matrix_vector_product.hpp:523-558` overwriting
`symmetric_matrix_vector_product`. -/
def symv [Add α] [Mul α] [Zero α] (A : MatV α) (t : Triangle) (x : VecV α) (y : Vec) :
    Task α Unit := do
  fillZero A.rows y
  symvAcc A t x y

/-- `blas2_matrix_vector_product.hpp:643-681` updating `symmetric_matrix_vector_product`. -/
def symvUpdate [Add α] [Mul α] (A : MatV α) (t : Triangle) (x y : VecV α) (z : Vec) :
    Task α Unit := do
  fillFrom A.rows y z
  symvAcc A t x z

/-! ## blas2_matrix_vector_product.hpp: Hermitian -/

/-- The accumulating part of `hermitian_matrix_vector_product`:
`blas2_matrix_vector_product.hpp:791-810` (overwriting) and 921-940 (updating). -/
def hemvAcc [Add α] [Mul α] [ConjOps α] (A : MatV α) (t : Triangle) (x : VecV α) (z : Vec) :
    Task α Unit :=
  match t with
  | .lower =>
    Task.forUp 0 A.cols fun j => do
      let d ← A.rd j j
      let b ← x.rd j
      z.plus j (ConjOps.re d * b)
      Task.forUp (j + 1) A.rows fun i => do
        let aij ← A.rd i j
        let xj ← x.rd j
        z.plus i (aij * xj)
        let xi ← x.rd i
        z.plus j (ConjOps.conj aij * xi)
  | .upper =>
    Task.forUp 0 A.cols fun j => do
      Task.forUp 0 j fun i => do
        let aij ← A.rd i j
        let xj ← x.rd j
        z.plus i (aij * xj)
        let xi ← x.rd i
        z.plus j (ConjOps.conj aij * xi)
      let d ← A.rd j j
      let b ← x.rd j
      z.plus j (ConjOps.re d * b)

/-- `blas2_matrix_vector_product.hpp:776-811` overwriting
`hermitian_matrix_vector_product`. -/
def hemv [Add α] [Mul α] [Zero α] [ConjOps α] (A : MatV α) (t : Triangle) (x : VecV α)
    (y : Vec) : Task α Unit := do
  fillZero A.rows y
  hemvAcc A t x y

/-- `blas2_matrix_vector_product.hpp:903-941` updating `hermitian_matrix_vector_product`. -/
def hemvUpdate [Add α] [Mul α] [ConjOps α] (A : MatV α) (t : Triangle) (x y : VecV α)
    (z : Vec) : Task α Unit := do
  fillFrom A.rows y z
  hemvAcc A t x z

/-! ## blas2_matrix_vector_product.hpp: triangular -/

/-- The accumulating part of `triangular_matrix_vector_product`:
`blas2_matrix_vector_product.hpp:1052-1076` (overwriting) and 1197-1221 (updating). -/
def trmvAcc [Add α] [Mul α] (A : MatV α) (t : Triangle) (d : Diag) (x : VecV α) (z : Vec) :
    Task α Unit :=
  match t with
  | .lower =>
    Task.forUp 0 A.cols fun j => do
      let iLower := if d = .explicit then j else j + 1
      Task.forUp iLower A.rows fun i => do
        let a ← A.rd i j
        let b ← x.rd j
        z.plus i (a * b)
      if d = .explicit then pure () else do
        let b ← x.rd j
        z.plus j b
  | .upper =>
    Task.forUp 0 A.cols fun j => do
      let iUpper := if d = .explicit then j + 1 else j
      Task.forUp 0 iUpper fun i => do
        let a ← A.rd i j
        let b ← x.rd j
        z.plus i (a * b)
      if d = .explicit then pure () else do
        let b ← x.rd j
        z.plus j b

/-- `blas2_matrix_vector_product.hpp:1037-1077` overwriting
`triangular_matrix_vector_product`. -/
def trmv [Add α] [Mul α] [Zero α] (A : MatV α) (t : Triangle) (d : Diag) (x : VecV α)
    (y : Vec) : Task α Unit := do
  fillZero A.rows y
  trmvAcc A t d x y

/-- `blas2_matrix_vector_product.hpp:1177-1222` updating
`triangular_matrix_vector_product`. -/
def trmvUpdate [Add α] [Mul α] (A : MatV α) (t : Triangle) (d : Diag) (x y : VecV α) (z : Vec) :
    Task α Unit := do
  fillFrom A.rows y z
  trmvAcc A t d x z

/-- `blas2_matrix_vector_product.hpp:1322-1356` in-place
`triangular_matrix_vector_product`.  The lower branch runs `k = 0, 1, ...` with
`j = A.extent(1) - (k + 1)`, which is `j` descending. -/
def trmvInPlace [Add α] [Mul α] (A : MatV α) (t : Triangle) (d : Diag) (y : Vec) :
    Task α Unit :=
  match t with
  | .lower =>
    Task.forUp 0 A.cols fun k => do
      let j := A.cols - (k + 1)
      let tmp ← y.rd j
      Task.forUp (j + 1) A.rows fun i => do
        let a ← A.rd i j
        y.plus i (a * tmp)
      if d = .explicit then do
        let v ← y.rd j
        let a ← A.rd j j
        y.wr j (v * a)
      else pure ()
  | .upper =>
    Task.forUp 0 A.cols fun j => do
      let tmp ← y.rd j
      Task.forUp 0 j fun i => do
        let a ← A.rd i j
        y.plus i (a * tmp)
      if d = .explicit then do
        let v ← y.rd j
        let a ← A.rd j j
        y.wr j (v * a)
      else pure ()

/-! ## blas2_matrix_vector_solve.hpp -/

/-- `blas2_matrix_vector_solve.hpp:70-104` `trsv_upper_triangular_left_side`.
`for (ptrdiff_t i = A_num_rows - 1; i >= 0; --i)` is modelled as visiting
`A_num_rows - 1, ..., 0`; when that is right for the index type is `Props/IndexTypes`. -/
def trsvUpper [Sub α] [Mul α] (divide : α → α → α) (A : MatV α) (d : Diag) (B : VecV α)
    (X : Vec) : Task α Unit :=
  Task.forDown A.rows fun i => do
    let b ← B.rd i
    let s ← Task.foldEach (List.range' (i + 1) (A.cols - (i + 1))) b fun s j => do
      let a ← A.rd i j
      let xj ← X.rd j
      pure (s - a * xj)
    if d = .explicit then do
      let a ← A.rd i i
      X.wr i (divide s a)
    else X.wr i s

/-- `blas2_matrix_vector_solve.hpp:145-176` `trsv_lower_triangular_left_side`. -/
def trsvLower [Sub α] [Mul α] (divide : α → α → α) (A : MatV α) (d : Diag) (B : VecV α)
    (X : Vec) : Task α Unit :=
  Task.forUp 0 A.rows fun i => do
    let b ← B.rd i
    let s ← Task.foldEach (List.range' 0 i) b fun s j => do
      let a ← A.rd i j
      let xj ← X.rd j
      pure (s - a * xj)
    if d = .explicit then do
      let a ← A.rd i i
      X.wr i (divide s a)
    else X.wr i s

/-- `blas2_matrix_vector_solve.hpp:245-260` `triangular_matrix_vector_solve`
(277-287 is the overload whose `divide` is `x / y`). -/
def trsv [Sub α] [Mul α] (divide : α → α → α) (A : MatV α) (t : Triangle) (d : Diag)
    (b : VecV α) (x : Vec) : Task α Unit :=
  match t with
  | .lower => trsvLower divide A d b x
  | .upper => trsvUpper divide A d b x

/-! ## blas2_matrix_rank_1_update.hpp -/

/-- `blas2_matrix_rank_1_update.hpp:177-190` `matrix_rank_1_update`. -/
def ger [Add α] [Mul α] (x y : VecV α) (A : Mat) : Task α Unit :=
  Task.forUp 0 A.rows fun i => Task.forUp 0 A.cols fun j => do
    let a ← x.rd i
    let b ← y.rd j
    A.plus i j (a * b)

/-- `blas2_matrix_rank_1_update.hpp:261-267` `matrix_rank_1_update_c`. -/
def gerc [Add α] [Mul α] [ConjOps α] (x y : VecV α) (A : Mat) : Task α Unit :=
  ger x y.conjugated A

/-- The loops over one triangle that all symmetric and Hermitian updates share:
`for j` all columns, `pre(j)`, then `for i` from `j` to the last row (lower) or from 0 to
`j` (upper): e.g. `blas2_matrix_rank_1_update.hpp:322-335`,
`blas2_matrix_rank_2_update.hpp:124-131`. -/
def triangleLoop (rows cols : Nat) (t : Triangle) (pre : Nat → Task α Unit)
    (body : Nat → Nat → Task α Unit) : Task α Unit :=
  Task.forUp 0 cols fun j => do
    pre j
    match t with
    | .lower => Task.forUp j rows fun i => body i j
    | .upper => Task.forUp 0 (j + 1) fun i => body i j

/-- `A(j,j) = real_if_needed(A(j,j))`, e.g. `blas2_matrix_rank_1_update.hpp:537`. -/
def makeDiagReal [ConjOps α] (A : Mat) (j : Nat) : Task α Unit := do
  let v ← A.rd j j
  A.wr j j (ConjOps.re v)

/-- `blas2_matrix_rank_1_update.hpp:313-336` `symmetric_matrix_rank_1_update` with alpha. -/
def syrAlpha [Add α] [Mul α] (alpha : α) (x : VecV α) (A : Mat) (t : Triangle) : Task α Unit :=
  triangleLoop A.rows A.cols t (fun _ => pure ()) fun i j => do
    let a ← x.rd i
    let b ← x.rd j
    A.plus i j (alpha * a * b)

/-- `blas2_matrix_rank_1_update.hpp:421-443` `symmetric_matrix_rank_1_update`. -/
def syr [Add α] [Mul α] (x : VecV α) (A : Mat) (t : Triangle) : Task α Unit :=
  triangleLoop A.rows A.cols t (fun _ => pure ()) fun i j => do
    let a ← x.rd i
    let b ← x.rd j
    A.plus i j (a * b)

/-- `blas2_matrix_rank_1_update.hpp:526-551` `hermitian_matrix_rank_1_update` with alpha. -/
def herAlpha [Add α] [Mul α] [ConjOps α] (alpha : α) (x : VecV α) (A : Mat) (t : Triangle) :
    Task α Unit :=
  triangleLoop A.rows A.cols t (makeDiagReal A) fun i j => do
    let a ← x.rd i
    let b ← x.rd j
    A.plus i j (alpha * a * ConjOps.conj b)

/-- `blas2_matrix_rank_1_update.hpp:636-660` `hermitian_matrix_rank_1_update`. -/
def her [Add α] [Mul α] [ConjOps α] (x : VecV α) (A : Mat) (t : Triangle) : Task α Unit :=
  triangleLoop A.rows A.cols t (makeDiagReal A) fun i j => do
    let a ← x.rd i
    let b ← x.rd j
    A.plus i j (a * ConjOps.conj b)

/-! ## blas2_matrix_rank_2_update.hpp -/

/-- `blas2_matrix_rank_2_update.hpp:114-132` `symmetric_matrix_rank_2_update`. -/
def syr2 [Add α] [Mul α] (x y : VecV α) (A : Mat) (t : Triangle) : Task α Unit :=
  triangleLoop A.rows A.cols t (fun _ => pure ()) fun i j => do
    let xi ← x.rd i
    let yj ← y.rd j
    let yi ← y.rd i
    let xj ← x.rd j
    A.plus i j (xi * yj + yi * xj)

/-- `blas2_matrix_rank_2_update.hpp:205-225` `hermitian_matrix_rank_2_update`. -/
def her2 [Add α] [Mul α] [ConjOps α] (x y : VecV α) (A : Mat) (t : Triangle) : Task α Unit :=
  triangleLoop A.rows A.cols t (makeDiagReal A) fun i j => do
    let xi ← x.rd i
    let yj ← y.rd j
    let yi ← y.rd i
    let xj ← x.rd j
    A.plus i j (xi * ConjOps.conj yj + yi * ConjOps.conj xj)

/-! ## blas3_matrix_rank_k_update.hpp -/

/-- `blas3_matrix_rank_k_update.hpp:143-163` `symmetric_matrix_rank_k_update` with alpha. -/
def syrkAlpha [Add α] [Mul α] (alpha : α) (A : MatV α) (C : Mat) (t : Triangle) : Task α Unit :=
  triangleLoop C.rows C.cols t (fun _ => pure ()) fun i j =>
    Task.forUp 0 A.cols fun k => do
      let a ← A.rd i k
      let b ← A.rd j k
      C.plus i j (alpha * a * b)

/-- `blas3_matrix_rank_k_update.hpp:244-263` `symmetric_matrix_rank_k_update`. -/
def syrk [Add α] [Mul α] (A : MatV α) (C : Mat) (t : Triangle) : Task α Unit :=
  triangleLoop C.rows C.cols t (fun _ => pure ()) fun i j =>
    Task.forUp 0 A.cols fun k => do
      let a ← A.rd i k
      let b ← A.rd j k
      C.plus i j (a * b)

/-- `blas3_matrix_rank_k_update.hpp:342-365` `hermitian_matrix_rank_k_update` with alpha. -/
def herkAlpha [Add α] [Mul α] [ConjOps α] (alpha : α) (A : MatV α) (C : Mat) (t : Triangle) :
    Task α Unit :=
  triangleLoop C.rows C.cols t (makeDiagReal C) fun i j =>
    Task.forUp 0 A.cols fun k => do
      let a ← A.rd i k
      let b ← A.rd j k
      C.plus i j (alpha * a * ConjOps.conj b)

/-- `blas3_matrix_rank_k_update.hpp:446-468` `hermitian_matrix_rank_k_update`. -/
def herk [Add α] [Mul α] [ConjOps α] (A : MatV α) (C : Mat) (t : Triangle) : Task α Unit :=
  triangleLoop C.rows C.cols t (makeDiagReal C) fun i j =>
    Task.forUp 0 A.cols fun k => do
      let a ← A.rd i k
      let b ← A.rd j k
      C.plus i j (a * ConjOps.conj b)

/-! ## blas3_matrix_rank_2k_update.hpp -/

/-- `blas3_matrix_rank_2k_update.hpp:108-128` `symmetric_matrix_rank_2k_update`. -/
def syr2k [Add α] [Mul α] (A B : MatV α) (C : Mat) (t : Triangle) : Task α Unit :=
  triangleLoop C.rows C.cols t (fun _ => pure ()) fun i j =>
    Task.forUp 0 A.cols fun k => do
      let aik ← A.rd i k
      let bjk ← B.rd j k
      let bik ← B.rd i k
      let ajk ← A.rd j k
      C.plus i j (aik * bjk + bik * ajk)

/-- `blas3_matrix_rank_2k_update.hpp:200-221` `hermitian_matrix_rank_2k_update`. -/
def her2k [Add α] [Mul α] [ConjOps α] (A B : MatV α) (C : Mat) (t : Triangle) : Task α Unit :=
  triangleLoop C.rows C.cols t (makeDiagReal C) fun i j =>
    Task.forUp 0 A.cols fun k => do
      let aik ← A.rd i k
      let bjk ← B.rd j k
      let bik ← B.rd i k
      let ajk ← A.rd j k
      C.plus i j (aik * ConjOps.conj bjk + bik * ConjOps.conj ajk)

/-! ## blas3_matrix_product.hpp: general -/

/-- `blas3_matrix_product.hpp:667-732` overwriting `matrix_product` (675-719 is `#if 0`). -/
def gemm [Add α] [Mul α] [Zero α] (A B : MatV α) (C : Mat) : Task α Unit :=
  Task.forUp 0 C.rows fun i => Task.forUp 0 C.cols fun j => do
    C.wr i j 0
    Task.forUp 0 A.cols fun k => do
      let a ← A.rd i k
      let b ← B.rd k j
      C.plus i j (a * b)

/-- `blas3_matrix_product.hpp:802-819` updating `matrix_product`. -/
def gemmUpdate [Add α] [Mul α] (A B E : MatV α) (C : Mat) : Task α Unit :=
  Task.forUp 0 C.rows fun i => Task.forUp 0 C.cols fun j => do
    let e ← E.rd i j
    C.wr i j e
    Task.forUp 0 A.cols fun k => do
      let a ← A.rd i k
      let b ← B.rd k j
      C.plus i j (a * b)

/-! ## blas3_matrix_product.hpp: triangular -/

/-- `blas3_matrix_product.hpp:898-938` `triangular_matrix_product(A, t, d, B, C)`.  The
`ptrdiff_t` bound `k_upper` (`i`, or `i - 1` without explicit diagonal), inclusive, is
modelled as the exclusive bound `k_upper + 1`; see `Props/IndexTypes` for the integer types. -/
def trmmLeft [Add α] [Mul α] [Zero α] (A : MatV α) (t : Triangle) (d : Diag) (B : MatV α)
    (C : Mat) : Task α Unit :=
  match t with
  | .lower =>
    Task.forUp 0 C.cols fun j => Task.forUp 0 C.rows fun i => do
      C.wr i j 0
      let kEnd := if d = .explicit then i + 1 else i
      Task.forUp 0 kEnd fun k => do
        let a ← A.rd i k
        let b ← B.rd k j
        C.plus i j (a * b)
      if d = .explicit then pure () else do
        let b ← B.rd i j
        C.plus i j b
  | .upper =>
    Task.forUp 0 C.cols fun j => Task.forUp 0 C.rows fun i => do
      C.wr i j 0
      let kLower := if d = .explicit then i else i + 1
      Task.forUp kLower C.rows fun k => do
        let a ← A.rd i k
        let b ← B.rd k j
        C.plus i j (a * b)
      if d = .explicit then pure () else do
        let b ← B.rd i j
        C.plus i j b

/-- `blas3_matrix_product.hpp:1012-1052` `triangular_matrix_product(B, A, t, d, C)`. -/
def trmmRight [Add α] [Mul α] [Zero α] (B : MatV α) (A : MatV α) (t : Triangle) (d : Diag)
    (C : Mat) : Task α Unit :=
  match t with
  | .lower =>
    Task.forUp 0 C.cols fun j => Task.forUp 0 C.rows fun i => do
      C.wr i j 0
      let kLower := if d = .explicit then j else j + 1
      Task.forUp kLower C.cols fun k => do
        let b ← B.rd i k
        let a ← A.rd k j
        C.plus i j (b * a)
      if d = .explicit then pure () else do
        let b ← B.rd i j
        C.plus i j b
  | .upper =>
    Task.forUp 0 C.cols fun j => Task.forUp 0 C.rows fun i => do
      C.wr i j 0
      let kEnd := if d = .explicit then j + 1 else j
      Task.forUp 0 kEnd fun k => do
        let b ← B.rd i k
        let a ← A.rd k j
        C.plus i j (b * a)
      if d = .explicit then pure () else do
        let b ← B.rd i j
        C.plus i j b

/-- `blas3_matrix_product.hpp:1125-1160` `triangular_matrix_left_product(A, t, d, C)`.
The lower branch runs `k = C.extent(0), ..., 1` and uses `k - 1`. -/
def trmmLeftInPlace [Add α] [Mul α] (A : MatV α) (t : Triangle) (d : Diag) (C : Mat) :
    Task α Unit :=
  match t with
  | .upper =>
    Task.forUp 0 C.cols fun j => Task.forUp 0 C.rows fun k => do
      Task.forUp 0 k fun i => do
        let a ← A.rd i k
        let c ← C.rd k j
        C.plus i j (a * c)
      if d = .explicit then do
        let a ← A.rd k k
        let c ← C.rd k j
        C.wr k j (a * c)
      else pure ()
  | .lower =>
    Task.forUp 0 C.cols fun j => Task.forDown C.rows fun k => do
      Task.forUp (k + 1) C.rows fun i => do
        let a ← A.rd i k
        let c ← C.rd k j
        C.plus i j (a * c)
      if d = .explicit then do
        let a ← A.rd k k
        let c ← C.rd k j
        C.wr k j (a * c)
      else pure ()

/-- `blas3_matrix_product.hpp:1219-1258` `triangular_matrix_right_product(A, t, d, C)`.
The upper branch runs `j = C.extent(1), ..., 1` and uses `j - 1`. -/
def trmmRightInPlace [Add α] [Mul α] (A : MatV α) (t : Triangle) (d : Diag) (C : Mat) :
    Task α Unit :=
  match t with
  | .upper =>
    Task.forDown C.cols fun j => do
      (if d = .explicit then
        Task.forUp 0 C.rows fun i => do
          let c ← C.rd i j
          let a ← A.rd j j
          C.wr i j (c * a)
      else pure ())
      Task.forUp 0 j fun k => Task.forUp 0 C.rows fun i => do
        let c ← C.rd i k
        let a ← A.rd k j
        C.plus i j (c * a)
  | .lower =>
    Task.forUp 0 C.cols fun j => do
      (if d = .explicit then
        Task.forUp 0 C.rows fun i => do
          let c ← C.rd i j
          let a ← A.rd j j
          C.wr i j (c * a)
      else pure ())
      Task.forUp (j + 1) C.cols fun k => Task.forUp 0 C.rows fun i => do
        let c ← C.rd i k
        let a ← A.rd k j
        C.plus i j (c * a)

/-! ## blas3_matrix_product.hpp: symmetric -/

/-- `blas3_matrix_product.hpp:1323-1354` `symmetric_matrix_product(A, t, B, C)`. -/
def symmLeft [Add α] [Mul α] [Zero α] (A : MatV α) (t : Triangle) (B : MatV α) (C : Mat) :
    Task α Unit :=
  match t with
  | .lower =>
    Task.forUp 0 C.cols fun j => Task.forUp 0 C.rows fun i => do
      C.wr i j 0
      Task.forUp 0 A.cols fun k => do
        let aik ← (if i ≤ k then A.rd k i else A.rd i k)
        let b ← B.rd k j
        C.plus i j (aik * b)
  | .upper =>
    Task.forUp 0 C.cols fun j => Task.forUp 0 C.rows fun i => do
      C.wr i j 0
      Task.forUp 0 A.cols fun k => do
        let aik ← (if i ≥ k then A.rd k i else A.rd i k)
        let b ← B.rd k j
        C.plus i j (aik * b)

/-- `blas3_matrix_product.hpp:1426-1457` `symmetric_matrix_product(B, A, t, C)`. -/
def symmRight [Add α] [Mul α] [Zero α] (B : MatV α) (A : MatV α) (t : Triangle) (C : Mat) :
    Task α Unit :=
  match t with
  | .lower =>
    Task.forUp 0 C.cols fun j => Task.forUp 0 C.rows fun i => do
      C.wr i j 0
      Task.forUp 0 A.cols fun k => do
        let akj ← (if j ≤ k then A.rd k j else A.rd j k)
        let b ← B.rd i k
        C.plus i j (b * akj)
  | .upper =>
    Task.forUp 0 C.cols fun j => Task.forUp 0 C.rows fun i => do
      C.wr i j 0
      Task.forUp 0 A.cols fun k => do
        let akj ← (if j ≥ k then A.rd k j else A.rd j k)
        let b ← B.rd i k
        C.plus i j (b * akj)

/-! ## blas3_matrix_product.hpp: Hermitian -/

/-- `blas3_matrix_product.hpp:1717-1754` `hermitian_matrix_product(A, t, B, C)`. -/
def hemmLeft [Add α] [Mul α] [Zero α] [ConjOps α] (A : MatV α) (t : Triangle) (B : MatV α)
    (C : Mat) : Task α Unit :=
  match t with
  | .lower =>
    Task.forUp 0 C.cols fun j => Task.forUp 0 C.rows fun i => do
      C.wr i j 0
      Task.forUp 0 i fun k => do
        let a ← A.rd i k
        let b ← B.rd k j
        C.plus i j (a * b)
      let aii ← A.rd i i
      let bij ← B.rd i j
      C.plus i j (ConjOps.re aii * bij)
      Task.forUp (i + 1) A.rows fun k => do
        let a ← A.rd k i
        let b ← B.rd k j
        C.plus i j (ConjOps.conj a * b)
  | .upper =>
    Task.forUp 0 C.cols fun j => Task.forUp 0 C.rows fun i => do
      C.wr i j 0
      Task.forUp 0 i fun k => do
        let a ← A.rd k i
        let b ← B.rd k j
        C.plus i j (ConjOps.conj a * b)
      let aii ← A.rd i i
      let bij ← B.rd i j
      C.plus i j (ConjOps.re aii * bij)
      Task.forUp (i + 1) A.cols fun k => do
        let a ← A.rd i k
        let b ← B.rd k j
        C.plus i j (a * b)

/-- `blas3_matrix_product.hpp:1825-1856` `hermitian_matrix_product(B, A, t, C)`. -/
def hemmRight [Add α] [Mul α] [Zero α] [ConjOps α] (B : MatV α) (A : MatV α) (t : Triangle)
    (C : Mat) : Task α Unit :=
  match t with
  | .lower =>
    Task.forUp 0 C.cols fun j => Task.forUp 0 C.rows fun i => do
      C.wr i j 0
      Task.forUp 0 A.cols fun k => do
        let akj ← (if j ≤ k then A.rd k j else (do
          let a ← A.rd j k
          pure (ConjOps.conj a)))
        let b ← B.rd i k
        C.plus i j (b * akj)
  | .upper =>
    Task.forUp 0 C.cols fun j => Task.forUp 0 C.rows fun i => do
      C.wr i j 0
      Task.forUp 0 A.cols fun k => do
        let akj ← (if j ≥ k then A.rd k j else (do
          let a ← A.rd j k
          pure (ConjOps.conj a)))
        let b ← B.rd i k
        C.plus i j (b * akj)

/-! ## blas3_triangular_matrix_matrix_solve.hpp -/

/-- `blas3_triangular_matrix_matrix_solve.hpp:59-94` `trsm_upper_triangular_left_side`.
The `ptrdiff_t i` loop from `A_num_rows - 1` down is modelled as visiting
`A_num_rows - 1, ..., 0`; when that is right for the index type is `Props/IndexTypes`. -/
def trsmUpperLeft [Sub α] [Mul α] [Div α] (A : MatV α) (d : Diag) (B : MatV α) (X : Mat) :
    Task α Unit :=
  Task.forUp 0 B.cols fun k => Task.forDown A.rows fun i => do
    let b ← B.rd i k
    let s ← Task.foldEach (List.range' (i + 1) (A.rows - (i + 1))) b fun s j => do
      let a ← A.rd i j
      let xj ← X.rd j k
      pure (s - a * xj)
    if d = .explicit then do
      let a ← A.rd i i
      X.wr i k (s / a)
    else X.wr i k s

/-- `blas3_triangular_matrix_matrix_solve.hpp:102-132` `trsm_lower_triangular_left_side`. -/
def trsmLowerLeft [Sub α] [Mul α] [Div α] (A : MatV α) (d : Diag) (B : MatV α) (X : Mat) :
    Task α Unit :=
  Task.forUp 0 B.cols fun k => Task.forUp 0 A.rows fun i => do
    let b ← B.rd i k
    let s ← Task.foldEach (List.range' 0 i) b fun s j => do
      let a ← A.rd i j
      let xj ← X.rd j k
      pure (s - a * xj)
    if d = .explicit then do
      let a ← A.rd i i
      X.wr i k (s / a)
    else X.wr i k s

/-- `blas3_triangular_matrix_matrix_solve.hpp:140-168` `trsm_upper_triangular_right_side`. -/
def trsmUpperRight [Sub α] [Mul α] [Div α] (A : MatV α) (d : Diag) (B : MatV α) (X : Mat) :
    Task α Unit :=
  Task.forUp 0 B.rows fun i => Task.forUp 0 A.cols fun j => do
    let b ← B.rd i j
    let s ← Task.foldEach (List.range' 0 j) b fun s k => do
      let a ← A.rd k j
      let xk ← X.rd i k
      pure (s - xk * a)
    if d = .explicit then do
      let a ← A.rd j j
      X.wr i j (s / a)
    else X.wr i j s

/-- `blas3_triangular_matrix_matrix_solve.hpp:176-206` `trsm_lower_triangular_right_side`.
The `ptrdiff_t j` loop from `A_num_cols - 1` down is modelled as for `trsmUpperLeft`. -/
def trsmLowerRight [Sub α] [Mul α] [Div α] (A : MatV α) (d : Diag) (B : MatV α) (X : Mat) :
    Task α Unit :=
  Task.forUp 0 B.rows fun i => Task.forDown A.cols fun j => do
    let b ← B.rd i j
    let s ← Task.foldEach (List.range' (j + 1) (A.rows - (j + 1))) b fun s k => do
      let a ← A.rd k j
      let xk ← X.rd i k
      pure (s - xk * a)
    if d = .explicit then do
      let a ← A.rd j j
      X.wr i j (s / a)
    else X.wr i j s

/-- `blas3_triangular_matrix_matrix_solve.hpp:289-303`
`triangular_matrix_matrix_left_solve(A, t, d, B, X)`. -/
def trsmLeft [Sub α] [Mul α] [Div α] (A : MatV α) (t : Triangle) (d : Diag) (B : MatV α)
    (X : Mat) : Task α Unit :=
  match t with
  | .lower => trsmLowerLeft A d B X
  | .upper => trsmUpperLeft A d B X

/-- `blas3_triangular_matrix_matrix_solve.hpp:358-372`
`triangular_matrix_matrix_right_solve(A, t, d, B, X)`. -/
def trsmRight [Sub α] [Mul α] [Div α] (A : MatV α) (t : Triangle) (d : Diag) (B : MatV α)
    (X : Mat) : Task α Unit :=
  match t with
  | .lower => trsmLowerRight A d B X
  | .upper => trsmUpperRight A d B X

/-- `blas3_triangular_matrix_matrix_solve.hpp:428-443`
`triangular_matrix_matrix_solve(A, t, d, side, B, X)`. -/
def trsm [Sub α] [Mul α] [Div α] (A : MatV α) (t : Triangle) (d : Diag) (side : Side)
    (B : MatV α) (X : Mat) : Task α Unit :=
  match side with
  | .left => trsmLeft A t d B X
  | .right => trsmRight A t d B X

end Steps
end StdBLAS

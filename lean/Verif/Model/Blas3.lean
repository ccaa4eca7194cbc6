import Verif.Model.Blas2

/-!
# BLAS 3: matrix-matrix products and triangular solves with many right-hand sides

All functions model the `inline_exec_t` overloads.  Headers are in
`/repo/include/experimental/__p1673_bits/`.
-/

namespace StdBLAS
variable {α : Type}

/-! ## blas3_matrix_product.hpp: general -/

/-- `blas3_matrix_product.hpp:667-732` overwriting `matrix_product` (675-719 is `#if 0`). -/
def gemm [Add α] [Mul α] [Zero α] (A B : MatV α) (C : Mat) : Prog α Unit :=
  forUp 0 C.rows fun i => forUp 0 C.cols fun j => do
    C.set i j 0
    forUp 0 A.cols fun k => do
      let a ← A.get i k
      let b ← B.get k j
      C.addTo i j (a * b)

/-- `blas3_matrix_product.hpp:802-819` updating `matrix_product`. -/
def gemmUpdate [Add α] [Mul α] (A B E : MatV α) (C : Mat) : Prog α Unit :=
  forUp 0 C.rows fun i => forUp 0 C.cols fun j => do
    let e ← E.get i j
    C.set i j e
    forUp 0 A.cols fun k => do
      let a ← A.get i k
      let b ← B.get k j
      C.addTo i j (a * b)

/-! ## blas3_matrix_product.hpp: triangular -/

/-- `blas3_matrix_product.hpp:898-938` `triangular_matrix_product(A, t, d, B, C)`.  The
`ptrdiff_t` bound `k_upper` (`i`, or `i - 1` without explicit diagonal), inclusive, is
modelled as the exclusive bound `k_upper + 1`; see `Props/IndexTypes` for the integer types. -/
def trmmLeft [Add α] [Mul α] [Zero α] (A : MatV α) (t : Triangle) (d : Diag) (B : MatV α)
    (C : Mat) : Prog α Unit :=
  match t with
  | .lower =>
    forUp 0 C.cols fun j => forUp 0 C.rows fun i => do
      C.set i j 0
      let kEnd := if d = .explicit then i + 1 else i
      forUp 0 kEnd fun k => do
        let a ← A.get i k
        let b ← B.get k j
        C.addTo i j (a * b)
      if d = .explicit then pure () else do
        let b ← B.get i j
        C.addTo i j b
  | .upper =>
    forUp 0 C.cols fun j => forUp 0 C.rows fun i => do
      C.set i j 0
      let kLower := if d = .explicit then i else i + 1
      forUp kLower C.rows fun k => do
        let a ← A.get i k
        let b ← B.get k j
        C.addTo i j (a * b)
      if d = .explicit then pure () else do
        let b ← B.get i j
        C.addTo i j b

/-- `blas3_matrix_product.hpp:1012-1052` `triangular_matrix_product(B, A, t, d, C)`. -/
def trmmRight [Add α] [Mul α] [Zero α] (B : MatV α) (A : MatV α) (t : Triangle) (d : Diag)
    (C : Mat) : Prog α Unit :=
  match t with
  | .lower =>
    forUp 0 C.cols fun j => forUp 0 C.rows fun i => do
      C.set i j 0
      let kLower := if d = .explicit then j else j + 1
      forUp kLower C.cols fun k => do
        let b ← B.get i k
        let a ← A.get k j
        C.addTo i j (b * a)
      if d = .explicit then pure () else do
        let b ← B.get i j
        C.addTo i j b
  | .upper =>
    forUp 0 C.cols fun j => forUp 0 C.rows fun i => do
      C.set i j 0
      let kEnd := if d = .explicit then j + 1 else j
      forUp 0 kEnd fun k => do
        let b ← B.get i k
        let a ← A.get k j
        C.addTo i j (b * a)
      if d = .explicit then pure () else do
        let b ← B.get i j
        C.addTo i j b

/-- `blas3_matrix_product.hpp:1125-1160` `triangular_matrix_left_product(A, t, d, C)`.
The lower branch runs `k = C.extent(0), ..., 1` and uses `k - 1`. -/
def trmmLeftInPlace [Add α] [Mul α] (A : MatV α) (t : Triangle) (d : Diag) (C : Mat) :
    Prog α Unit :=
  match t with
  | .upper =>
    forUp 0 C.cols fun j => forUp 0 C.rows fun k => do
      forUp 0 k fun i => do
        let a ← A.get i k
        let c ← C.get k j
        C.addTo i j (a * c)
      if d = .explicit then do
        let a ← A.get k k
        let c ← C.get k j
        C.set k j (a * c)
      else pure ()
  | .lower =>
    forUp 0 C.cols fun j => forDown C.rows fun k => do
      forUp (k + 1) C.rows fun i => do
        let a ← A.get i k
        let c ← C.get k j
        C.addTo i j (a * c)
      if d = .explicit then do
        let a ← A.get k k
        let c ← C.get k j
        C.set k j (a * c)
      else pure ()

/-- `blas3_matrix_product.hpp:1219-1258` `triangular_matrix_right_product(A, t, d, C)`.
The upper branch runs `j = C.extent(1), ..., 1` and uses `j - 1`. -/
def trmmRightInPlace [Add α] [Mul α] (A : MatV α) (t : Triangle) (d : Diag) (C : Mat) :
    Prog α Unit :=
  match t with
  | .upper =>
    forDown C.cols fun j => do
      (if d = .explicit then
        forUp 0 C.rows fun i => do
          let c ← C.get i j
          let a ← A.get j j
          C.set i j (c * a)
      else pure ())
      forUp 0 j fun k => forUp 0 C.rows fun i => do
        let c ← C.get i k
        let a ← A.get k j
        C.addTo i j (c * a)
  | .lower =>
    forUp 0 C.cols fun j => do
      (if d = .explicit then
        forUp 0 C.rows fun i => do
          let c ← C.get i j
          let a ← A.get j j
          C.set i j (c * a)
      else pure ())
      forUp (j + 1) C.cols fun k => forUp 0 C.rows fun i => do
        let c ← C.get i k
        let a ← A.get k j
        C.addTo i j (c * a)

/-! ## blas3_matrix_product.hpp: symmetric -/

/-- `blas3_matrix_product.hpp:1323-1354` `symmetric_matrix_product(A, t, B, C)`. -/
def symmLeft [Add α] [Mul α] [Zero α] (A : MatV α) (t : Triangle) (B : MatV α) (C : Mat) :
    Prog α Unit :=
  match t with
  | .lower =>
    forUp 0 C.cols fun j => forUp 0 C.rows fun i => do
      C.set i j 0
      forUp 0 A.cols fun k => do
        let aik ← (if i ≤ k then A.get k i else A.get i k)
        let b ← B.get k j
        C.addTo i j (aik * b)
  | .upper =>
    forUp 0 C.cols fun j => forUp 0 C.rows fun i => do
      C.set i j 0
      forUp 0 A.cols fun k => do
        let aik ← (if i ≥ k then A.get k i else A.get i k)
        let b ← B.get k j
        C.addTo i j (aik * b)

/-- `blas3_matrix_product.hpp:1426-1457` `symmetric_matrix_product(B, A, t, C)`. -/
def symmRight [Add α] [Mul α] [Zero α] (B : MatV α) (A : MatV α) (t : Triangle) (C : Mat) :
    Prog α Unit :=
  match t with
  | .lower =>
    forUp 0 C.cols fun j => forUp 0 C.rows fun i => do
      C.set i j 0
      forUp 0 A.cols fun k => do
        let akj ← (if j ≤ k then A.get k j else A.get j k)
        let b ← B.get i k
        C.addTo i j (b * akj)
  | .upper =>
    forUp 0 C.cols fun j => forUp 0 C.rows fun i => do
      C.set i j 0
      forUp 0 A.cols fun k => do
        let akj ← (if j ≥ k then A.get k j else A.get j k)
        let b ← B.get i k
        C.addTo i j (b * akj)

/-- `assert(false)`: aborts, unless compiled with `NDEBUG`, when it does nothing. -/
def assertFalse (ndebug : Bool) : Prog α Unit :=
  if ndebug then pure () else Prog.fail .assertFail

/-- `blas3_matrix_product.hpp:1533-1542` `symmetric_matrix_product(A, t, B, E, C)`: the body
is `assert(false)`. -/
def symmLeftUpdate (ndebug : Bool) (_A : MatV α) (_t : Triangle) (_B _E : MatV α) (_C : Mat) :
    Prog α Unit := assertFalse ndebug

/-- `blas3_matrix_product.hpp:1627-1636` `symmetric_matrix_product(B, A, t, E, C)`: the body
is `assert(false)`. -/
def symmRightUpdate (ndebug : Bool) (_B _A : MatV α) (_t : Triangle) (_E : MatV α) (_C : Mat) :
    Prog α Unit := assertFalse ndebug

/-! ## blas3_matrix_product.hpp: Hermitian -/

/-- `blas3_matrix_product.hpp:1717-1754` `hermitian_matrix_product(A, t, B, C)`. -/
def hemmLeft [Add α] [Mul α] [Zero α] [ConjOps α] (A : MatV α) (t : Triangle) (B : MatV α)
    (C : Mat) : Prog α Unit :=
  match t with
  | .lower =>
    forUp 0 C.cols fun j => forUp 0 C.rows fun i => do
      C.set i j 0
      forUp 0 i fun k => do
        let a ← A.get i k
        let b ← B.get k j
        C.addTo i j (a * b)
      let aii ← A.get i i
      let bij ← B.get i j
      C.addTo i j (ConjOps.re aii * bij)
      forUp (i + 1) A.rows fun k => do
        let a ← A.get k i
        let b ← B.get k j
        C.addTo i j (ConjOps.conj a * b)
  | .upper =>
    forUp 0 C.cols fun j => forUp 0 C.rows fun i => do
      C.set i j 0
      forUp 0 i fun k => do
        let a ← A.get k i
        let b ← B.get k j
        C.addTo i j (ConjOps.conj a * b)
      let aii ← A.get i i
      let bij ← B.get i j
      C.addTo i j (ConjOps.re aii * bij)
      forUp (i + 1) A.cols fun k => do
        let a ← A.get i k
        let b ← B.get k j
        C.addTo i j (a * b)

/-- `blas3_matrix_product.hpp:1825-1856` `hermitian_matrix_product(B, A, t, C)`. -/
def hemmRight [Add α] [Mul α] [Zero α] [ConjOps α] (B : MatV α) (A : MatV α) (t : Triangle)
    (C : Mat) : Prog α Unit :=
  match t with
  | .lower =>
    forUp 0 C.cols fun j => forUp 0 C.rows fun i => do
      C.set i j 0
      forUp 0 A.cols fun k => do
        let akj ← (if j ≤ k then A.get k j else (do
          let a ← A.get j k
          pure (ConjOps.conj a)))
        let b ← B.get i k
        C.addTo i j (b * akj)
  | .upper =>
    forUp 0 C.cols fun j => forUp 0 C.rows fun i => do
      C.set i j 0
      forUp 0 A.cols fun k => do
        let akj ← (if j ≥ k then A.get k j else (do
          let a ← A.get j k
          pure (ConjOps.conj a)))
        let b ← B.get i k
        C.addTo i j (b * akj)

/-- `blas3_matrix_product.hpp:1932-1941` `hermitian_matrix_product(A, t, B, E, C)`: the body
is `assert(false)`. -/
def hemmLeftUpdate (ndebug : Bool) (_A : MatV α) (_t : Triangle) (_B _E : MatV α) (_C : Mat) :
    Prog α Unit := assertFalse ndebug

/-- `blas3_matrix_product.hpp:2026-2035` `hermitian_matrix_product(B, A, t, E, C)`: the body
is `assert(false)`. -/
def hemmRightUpdate (ndebug : Bool) (_B _A : MatV α) (_t : Triangle) (_E : MatV α) (_C : Mat) :
    Prog α Unit := assertFalse ndebug

/-! ## blas3_triangular_matrix_matrix_solve.hpp -/

/-- `blas3_triangular_matrix_matrix_solve.hpp:59-94` `trsm_upper_triangular_left_side`.
The `ptrdiff_t i` loop from `A_num_rows - 1` down is modelled as visiting
`A_num_rows - 1, ..., 0`; when that is right for the index type is `Props/IndexTypes`. -/
def trsmUpperLeft [Sub α] [Mul α] [Div α] (A : MatV α) (d : Diag) (B : MatV α) (X : Mat) :
    Prog α Unit :=
  forUp 0 B.cols fun k => forDown A.rows fun i => do
    let b ← B.get i k
    let s ← foldEach (List.range' (i + 1) (A.rows - (i + 1))) b fun s j => do
      let a ← A.get i j
      let xj ← X.get j k
      pure (s - a * xj)
    if d = .explicit then do
      let a ← A.get i i
      X.set i k (s / a)
    else X.set i k s

/-- `blas3_triangular_matrix_matrix_solve.hpp:102-132` `trsm_lower_triangular_left_side`. -/
def trsmLowerLeft [Sub α] [Mul α] [Div α] (A : MatV α) (d : Diag) (B : MatV α) (X : Mat) :
    Prog α Unit :=
  forUp 0 B.cols fun k => forUp 0 A.rows fun i => do
    let b ← B.get i k
    let s ← foldEach (List.range' 0 i) b fun s j => do
      let a ← A.get i j
      let xj ← X.get j k
      pure (s - a * xj)
    if d = .explicit then do
      let a ← A.get i i
      X.set i k (s / a)
    else X.set i k s

/-- `blas3_triangular_matrix_matrix_solve.hpp:140-168` `trsm_upper_triangular_right_side`. -/
def trsmUpperRight [Sub α] [Mul α] [Div α] (A : MatV α) (d : Diag) (B : MatV α) (X : Mat) :
    Prog α Unit :=
  forUp 0 B.rows fun i => forUp 0 A.cols fun j => do
    let b ← B.get i j
    let s ← foldEach (List.range' 0 j) b fun s k => do
      let a ← A.get k j
      let xk ← X.get i k
      pure (s - xk * a)
    if d = .explicit then do
      let a ← A.get j j
      X.set i j (s / a)
    else X.set i j s

/-- `blas3_triangular_matrix_matrix_solve.hpp:176-206` `trsm_lower_triangular_right_side`.
The `ptrdiff_t j` loop from `A_num_cols - 1` down is modelled as for `trsmUpperLeft`. -/
def trsmLowerRight [Sub α] [Mul α] [Div α] (A : MatV α) (d : Diag) (B : MatV α) (X : Mat) :
    Prog α Unit :=
  forUp 0 B.rows fun i => forDown A.cols fun j => do
    let b ← B.get i j
    let s ← foldEach (List.range' (j + 1) (A.rows - (j + 1))) b fun s k => do
      let a ← A.get k j
      let xk ← X.get i k
      pure (s - xk * a)
    if d = .explicit then do
      let a ← A.get j j
      X.set i j (s / a)
    else X.set i j s

/-- `blas3_triangular_matrix_matrix_solve.hpp:289-303`
`triangular_matrix_matrix_left_solve(A, t, d, B, X)`. -/
def trsmLeft [Sub α] [Mul α] [Div α] (A : MatV α) (t : Triangle) (d : Diag) (B : MatV α)
    (X : Mat) : Prog α Unit :=
  match t with
  | .lower => trsmLowerLeft A d B X
  | .upper => trsmUpperLeft A d B X

/-- `blas3_triangular_matrix_matrix_solve.hpp:358-372`
`triangular_matrix_matrix_right_solve(A, t, d, B, X)`. -/
def trsmRight [Sub α] [Mul α] [Div α] (A : MatV α) (t : Triangle) (d : Diag) (B : MatV α)
    (X : Mat) : Prog α Unit :=
  match t with
  | .lower => trsmLowerRight A d B X
  | .upper => trsmUpperRight A d B X

/-- `blas3_triangular_matrix_matrix_solve.hpp:428-443`
`triangular_matrix_matrix_solve(A, t, d, side, B, X)`. -/
def trsm [Sub α] [Mul α] [Div α] (A : MatV α) (t : Triangle) (d : Diag) (side : Side)
    (B : MatV α) (X : Mat) : Prog α Unit :=
  match side with
  | .left => trsmLeft A t d B X
  | .right => trsmRight A t d B X

end StdBLAS

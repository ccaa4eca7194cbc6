import Verif.Core.IntTypes
import Verif.Model.Blas3

/-!
# The triangular kernels with their C++ integer types

The same kernels as in `Model/Blas2` and `Model/Blas3`, written with the integer types of
the source: `tA`, `tB`, ... are the index types of the mdspans, `size_type` is their
`common_type`, loop counters have the declared type, every `+ 1`, `- 1`, `++`, `--`, comparison
and conversion follows the C++ rules of `Core/IntTypes`.  `fuel` bounds the iterations of
each loop.
-/

namespace StdBLAS
open IntTy
variable {α : Type}

/-- `C(i,j) += v` -/
def Mat.addAt [Add α] (C : Mat) (t : IntTy) (i j : Int) (v : α) : Prog α Unit := do
  let o ← C.at_ t i j
  C.put t i j (o + v)

/-- `common_type_t<T, U, V>` -/
def common3 (t u v : IntTy) : IntTy := common (common t u) v

/-- `blas2_matrix_vector_solve.hpp:70-104` `trsv_upper_triangular_left_side`:
`size_type` 81, `A_num_rows` and `A_num_cols` 83-84, `ptrdiff_t i` 87, `size_type j` 94. -/
def trsvUpperT [Sub α] [Mul α] (fuel : Nat) (tA tB tX : IntTy) (divide : α → α → α) (A : MatV α)
    (d : Diag) (B : VecV α) (X : Vec) : Prog α Unit := do
  let sz := common3 tA tB tX
  let nRows := sz.cast A.rows
  let nCols := sz.cast A.cols
  let start ← sub sz int nRows 1
  cForU (fun i => le int ptrdiff 0 i) (decr ptrdiff) fuel (ptrdiff.cast start) fun i => do
    let b ← B.at_ tB i
    let lo ← add ptrdiff int i 1
    let s ← cFor (fun j => lt sz sz j nCols) (incr sz) fuel (sz.cast lo) b fun s j => do
      let a ← A.at_ tA i j
      let xj ← X.at_ tX j
      pure (s - a * xj)
    if d = .explicit then do
      let a ← A.at_ tA i i
      X.put tX i (divide s a)
    else X.put tX i s

/-- `blas2_matrix_vector_solve.hpp:145-176` `trsv_lower_triangular_left_side`: all counters
have type `size_type`. -/
def trsvLowerT [Sub α] [Mul α] (fuel : Nat) (tA tB tX : IntTy) (divide : α → α → α) (A : MatV α)
    (d : Diag) (B : VecV α) (X : Vec) : Prog α Unit := do
  let sz := common3 tA tB tX
  let nRows := sz.cast A.rows
  cForU (fun i => lt sz sz i nRows) (incr sz) fuel 0 fun i => do
    let b ← B.at_ tB i
    let s ← cFor (fun j => lt sz sz j i) (incr sz) fuel 0 b fun s j => do
      let a ← A.at_ tA i j
      let xj ← X.at_ tX j
      pure (s - a * xj)
    if d = .explicit then do
      let a ← A.at_ tA i i
      X.put tX i (divide s a)
    else X.put tX i s

/-- `blas3_triangular_matrix_matrix_solve.hpp:59-94` `trsm_upper_triangular_left_side`:
`ptrdiff_t i` 76, `size_type j` 83. -/
def trsmUpperLeftT [Sub α] [Mul α] [Div α] (fuel : Nat) (tA tB tX : IntTy) (A : MatV α) (d : Diag)
    (B : MatV α) (X : Mat) : Prog α Unit := do
  let sz := common3 tA tB tX
  let nRows := sz.cast A.rows
  let nCols := sz.cast B.cols
  cForU (fun k => lt sz sz k nCols) (incr sz) fuel 0 fun k => do
    let start ← sub sz int nRows 1
    cForU (fun i => le int ptrdiff 0 i) (decr ptrdiff) fuel (ptrdiff.cast start) fun i => do
      let b ← B.at_ tB i k
      let lo ← add ptrdiff int i 1
      let s ← cFor (fun j => lt sz sz j nRows) (incr sz) fuel (sz.cast lo) b fun s j => do
        let a ← A.at_ tA i j
        let xj ← X.at_ tX j k
        pure (s - a * xj)
      if d = .explicit then do
        let a ← A.at_ tA i i
        X.put tX i k (s / a)
      else X.put tX i k s

/-- `blas3_triangular_matrix_matrix_solve.hpp:102-132` `trsm_lower_triangular_left_side`. -/
def trsmLowerLeftT [Sub α] [Mul α] [Div α] (fuel : Nat) (tA tB tX : IntTy) (A : MatV α) (d : Diag)
    (B : MatV α) (X : Mat) : Prog α Unit := do
  let sz := common3 tA tB tX
  let nRows := sz.cast A.rows
  let nCols := sz.cast B.cols
  cForU (fun k => lt sz sz k nCols) (incr sz) fuel 0 fun k => do
    cForU (fun i => lt sz sz i nRows) (incr sz) fuel 0 fun i => do
      let b ← B.at_ tB i k
      let s ← cFor (fun j => lt sz sz j i) (incr sz) fuel 0 b fun s j => do
        let a ← A.at_ tA i j
        let xj ← X.at_ tX j k
        pure (s - a * xj)
      if d = .explicit then do
        let a ← A.at_ tA i i
        X.put tX i k (s / a)
      else X.put tX i k s

/-- `blas3_triangular_matrix_matrix_solve.hpp:140-168` `trsm_upper_triangular_right_side`. -/
def trsmUpperRightT [Sub α] [Mul α] [Div α] (fuel : Nat) (tA tB tX : IntTy) (A : MatV α) (d : Diag)
    (B : MatV α) (X : Mat) : Prog α Unit := do
  let sz := common3 tA tB tX
  let nRows := sz.cast B.rows
  let nCols := sz.cast A.cols
  cForU (fun i => lt sz sz i nRows) (incr sz) fuel 0 fun i => do
    cForU (fun j => lt sz sz j nCols) (incr sz) fuel 0 fun j => do
      let b ← B.at_ tB i j
      let s ← cFor (fun k => lt sz sz k j) (incr sz) fuel 0 b fun s k => do
        let a ← A.at_ tA k j
        let xk ← X.at_ tX i k
        pure (s - xk * a)
      if d = .explicit then do
        let a ← A.at_ tA j j
        X.put tX i j (s / a)
      else X.put tX i j s

/-- `blas3_triangular_matrix_matrix_solve.hpp:176-206` `trsm_lower_triangular_right_side`:
`signed_index_type` is `make_signed_t<size_type>` (185); `A_num_cols` (189) and `j` (192) have
that type; `size_type k` 195. -/
def trsmLowerRightT [Sub α] [Mul α] [Div α] (fuel : Nat) (tA tB tX : IntTy) (A : MatV α) (d : Diag)
    (B : MatV α) (X : Mat) : Prog α Unit := do
  let sz := common3 tA tB tX
  let sg := sz.makeSigned
  let bRows := sz.cast B.rows
  let nRows := sz.cast A.rows
  let nCols := sg.cast A.cols
  cForU (fun i => lt sz sz i bRows) (incr sz) fuel 0 fun i => do
    let start ← sub sg int nCols 1
    cForU (fun j => le int sg 0 j) (decr sg) fuel (sg.cast start) fun j => do
      let b ← B.at_ tB i j
      let lo ← add sg int j 1
      let s ← cFor (fun k => lt sz sz k nRows) (incr sz) fuel (sz.cast lo) b fun s k => do
        let a ← A.at_ tA k j
        let xk ← X.at_ tX i k
        pure (s - xk * a)
      if d = .explicit then do
        let a ← A.at_ tA j j
        X.put tX i j (s / a)
      else X.put tX i j s

/-- `blas2_matrix_vector_solve.hpp:245-260` `triangular_matrix_vector_solve`. -/
def trsvT [Sub α] [Mul α] (fuel : Nat) (tA tB tX : IntTy) (divide : α → α → α) (A : MatV α)
    (t : Triangle) (d : Diag) (b : VecV α) (x : Vec) : Prog α Unit :=
  match t with
  | .lower => trsvLowerT fuel tA tB tX divide A d b x
  | .upper => trsvUpperT fuel tA tB tX divide A d b x

/-- `blas3_triangular_matrix_matrix_solve.hpp:289-303` `triangular_matrix_matrix_left_solve`. -/
def trsmLeftT [Sub α] [Mul α] [Div α] (fuel : Nat) (tA tB tX : IntTy) (A : MatV α) (t : Triangle)
    (d : Diag) (B : MatV α) (X : Mat) : Prog α Unit :=
  match t with
  | .lower => trsmLowerLeftT fuel tA tB tX A d B X
  | .upper => trsmUpperLeftT fuel tA tB tX A d B X

/-- `blas3_triangular_matrix_matrix_solve.hpp:358-372` `triangular_matrix_matrix_right_solve`. -/
def trsmRightT [Sub α] [Mul α] [Div α] (fuel : Nat) (tA tB tX : IntTy) (A : MatV α) (t : Triangle)
    (d : Diag) (B : MatV α) (X : Mat) : Prog α Unit :=
  match t with
  | .lower => trsmLowerRightT fuel tA tB tX A d B X
  | .upper => trsmUpperRightT fuel tA tB tX A d B X

/-- `k_upper = explicitDiagonal ? i : i - ptrdiff_t(1)` (`blas3_matrix_product.hpp:914`, `1040`)
converted to `ptrdiff_t`.  The conditional expression has the common type of its branches. -/
def kUpper (sz : IntTy) (d : Diag) (i : Int) : Prog α Int := do
  let u := usual sz ptrdiff
  let v ← (if d = .explicit then pure i else sub sz ptrdiff i 1)
  pure (ptrdiff.cast ((common sz u).cast v))

/-- `k_lower = explicitDiagonal ? i : i + 1` (`blas3_matrix_product.hpp:929`, `1025`). -/
def kLower (sz : IntTy) (d : Diag) (i : Int) : Prog α Int := do
  let v ← (if d = .explicit then pure i else add sz int i 1)
  pure (sz.cast v)

/-- `blas3_matrix_product.hpp:898-938` `triangular_matrix_product(A, t, d, B, C)`: the bounds
`C.extent(r)` have type `tC`, `ptrdiff_t k` 915, `size_type k` 930. -/
def trmmLeftT [Add α] [Mul α] [Zero α] (fuel : Nat) (tA tB tC : IntTy) (A : MatV α) (t : Triangle)
    (d : Diag) (B : MatV α) (C : Mat) : Prog α Unit :=
  let sz := common3 tA tB tC
  match t with
  | .lower =>
    cForU (fun j => lt sz tC j C.cols) (incr sz) fuel 0 fun j =>
      cForU (fun i => lt sz tC i C.rows) (incr sz) fuel 0 fun i => do
        C.put tC i j 0
        let hi ← kUpper sz d i
        cForU (fun k => le ptrdiff ptrdiff k hi) (incr ptrdiff) fuel 0 fun k => do
          let a ← A.at_ tA i k
          let b ← B.at_ tB k j
          C.addAt tC i j (a * b)
        if d = .explicit then pure () else do
          let b ← B.at_ tB i j
          C.addAt tC i j b
  | .upper =>
    cForU (fun j => lt sz tC j C.cols) (incr sz) fuel 0 fun j =>
      cForU (fun i => lt sz tC i C.rows) (incr sz) fuel 0 fun i => do
        C.put tC i j 0
        let lo ← kLower sz d i
        cForU (fun k => lt sz tC k C.rows) (incr sz) fuel lo fun k => do
          let a ← A.at_ tA i k
          let b ← B.at_ tB k j
          C.addAt tC i j (a * b)
        if d = .explicit then pure () else do
          let b ← B.at_ tB i j
          C.addAt tC i j b

/-- `blas3_matrix_product.hpp:1012-1052` `triangular_matrix_product(B, A, t, d, C)`. -/
def trmmRightT [Add α] [Mul α] [Zero α] (fuel : Nat) (tA tB tC : IntTy) (B : MatV α) (A : MatV α)
    (t : Triangle) (d : Diag) (C : Mat) : Prog α Unit :=
  let sz := common3 tA tB tC
  match t with
  | .lower =>
    cForU (fun j => lt sz tC j C.cols) (incr sz) fuel 0 fun j => do
      let lo ← kLower sz d j
      cForU (fun i => lt sz tC i C.rows) (incr sz) fuel 0 fun i => do
        C.put tC i j 0
        cForU (fun k => lt sz tC k C.cols) (incr sz) fuel lo fun k => do
          let b ← B.at_ tB i k
          let a ← A.at_ tA k j
          C.addAt tC i j (b * a)
        if d = .explicit then pure () else do
          let b ← B.at_ tB i j
          C.addAt tC i j b
  | .upper =>
    cForU (fun j => lt sz tC j C.cols) (incr sz) fuel 0 fun j => do
      let hi ← kUpper sz d j
      cForU (fun i => lt sz tC i C.rows) (incr sz) fuel 0 fun i => do
        C.put tC i j 0
        cForU (fun k => le ptrdiff ptrdiff k hi) (incr ptrdiff) fuel 0 fun k => do
          let b ← B.at_ tB i k
          let a ← A.at_ tA k j
          C.addAt tC i j (b * a)
        if d = .explicit then pure () else do
          let b ← B.at_ tB i j
          C.addAt tC i j b

/-- `blas3_matrix_product.hpp:1125-1160` `triangular_matrix_left_product(A, t, d, C)`; the
lower branch counts `k` from `C.extent(0)` down to 1 and indexes with `k - 1`. -/
def trmmLeftInPlaceT [Add α] [Mul α] (fuel : Nat) (tA tC : IntTy) (A : MatV α) (t : Triangle)
    (d : Diag) (C : Mat) : Prog α Unit :=
  let sz := common tA tC
  match t with
  | .upper =>
    cForU (fun j => lt sz tC j C.cols) (incr sz) fuel 0 fun j =>
      cForU (fun k => lt sz tC k C.rows) (incr sz) fuel 0 fun k => do
        cForU (fun i => lt sz sz i k) (incr sz) fuel 0 fun i => do
          let a ← A.at_ tA i k
          let c ← C.at_ tC k j
          C.addAt tC i j (a * c)
        if d = .explicit then do
          let a ← A.at_ tA k k
          let c ← C.at_ tC k j
          C.put tC k j (a * c)
        else pure ()
  | .lower =>
    cForU (fun j => lt sz tC j C.cols) (incr sz) fuel 0 fun j =>
      cForU (fun k => lt int sz 0 k) (decr sz) fuel (sz.cast C.rows) fun k => do
        cForU (fun i => lt sz tC i C.rows) (incr sz) fuel k fun i => do
          let k1 ← sub sz int k 1
          let a ← A.at_ tA i k1
          let c ← C.at_ tC k1 j
          C.addAt tC i j (a * c)
        if d = .explicit then do
          let k1 ← sub sz int k 1
          let a ← A.at_ tA k1 k1
          let c ← C.at_ tC k1 j
          C.put tC k1 j (a * c)
        else pure ()

/-- `blas3_matrix_product.hpp:1219-1258` `triangular_matrix_right_product(A, t, d, C)`; the
upper branch counts `j` from `C.extent(1)` down to 1 and compares `k < j-1`. -/
def trmmRightInPlaceT [Add α] [Mul α] (fuel : Nat) (tA tC : IntTy) (A : MatV α) (t : Triangle)
    (d : Diag) (C : Mat) : Prog α Unit :=
  let sz := common tA tC
  match t with
  | .upper =>
    cForU (fun j => lt int sz 0 j) (decr sz) fuel (sz.cast C.cols) fun j => do
      let j1 ← sub sz int j 1
      (if d = .explicit then
        cForU (fun i => lt sz tC i C.rows) (incr sz) fuel 0 fun i => do
          let c ← C.at_ tC i j1
          let a ← A.at_ tA j1 j1
          C.put tC i j1 (c * a)
      else pure ())
      cForU (fun k => lt sz (usual sz int) k j1) (incr sz) fuel 0 fun k =>
        cForU (fun i => lt sz tC i C.rows) (incr sz) fuel 0 fun i => do
          let c ← C.at_ tC i k
          let a ← A.at_ tA k j1
          C.addAt tC i j1 (c * a)
  | .lower =>
    cForU (fun j => lt sz tC j C.cols) (incr sz) fuel 0 fun j => do
      (if d = .explicit then
        cForU (fun i => lt sz tC i C.rows) (incr sz) fuel 0 fun i => do
          let c ← C.at_ tC i j
          let a ← A.at_ tA j j
          C.put tC i j (c * a)
      else pure ())
      let lo ← add sz int j 1
      cForU (fun k => lt sz tC k C.cols) (incr sz) fuel (sz.cast lo) fun k =>
        cForU (fun i => lt sz tC i C.rows) (incr sz) fuel 0 fun i => do
          let c ← C.at_ tC i k
          let a ← A.at_ tA k j
          C.addAt tC i j (c * a)

end StdBLAS

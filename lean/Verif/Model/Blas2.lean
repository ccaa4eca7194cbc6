import Verif.Model.Views

/-!
# BLAS 2: matrix-vector products, triangular solves, rank updates

All functions model the `inline_exec_t` overloads.  Headers are in
`/repo/include/experimental/__p1673_bits/`.
-/

namespace StdBLAS
variable {α : Type}

/-- `y(i) += v` (compound assignment on an element: read, add, write). -/
def Vec.addTo [Add α] (y : Vec) (i : Nat) (v : α) : Prog α Unit := do
  let o ← y.get i
  y.set i (o + v)

/-- `C(i,j) += v` (compound assignment on an element: read, add, write). -/
def Mat.addTo [Add α] (C : Mat) (i j : Nat) (v : α) : Prog α Unit := do
  let o ← C.get i j
  C.set i j (o + v)

/-! ## blas2_matrix_vector_product.hpp: general -/

/-- `blas2_matrix_vector_product.hpp:291-307` overwriting `matrix_vector_product`. -/
def gemv [Add α] [Mul α] [Zero α] (A : MatV α) (x : VecV α) (y : Vec) : Prog α Unit :=
  forUp 0 A.rows fun i => do
    y.set i 0
    forUp 0 A.cols fun j => do
      let a ← A.get i j
      let b ← x.get j
      y.addTo i (a * b)

/-- `blas2_matrix_vector_product.hpp:408-426` updating `matrix_vector_product`. -/
def gemvUpdate [Add α] [Mul α] (A : MatV α) (x y : VecV α) (z : Vec) : Prog α Unit :=
  forUp 0 A.rows fun i => do
    let v ← y.get i
    z.set i v
    forUp 0 A.cols fun j => do
      let a ← A.get i j
      let b ← x.get j
      z.addTo i (a * b)

/-! ## blas2_matrix_vector_product.hpp: symmetric -/

/-- `y(i) = ElementType_y{}` for all rows: `blas2_matrix_vector_product.hpp:534-536`
(the same three lines at 787-789 and 1049-1051). -/
def fillZero [Zero α] (n : Nat) (y : Vec) : Prog α Unit :=
  forUp 0 n fun i => y.set i 0

/-- `z(i) = y(i)` for all rows: `blas2_matrix_vector_product.hpp:657-659`
(the same three lines at 917-919 and 1194-1196). -/
def fillFrom (n : Nat) (y : VecV α) (z : Vec) : Prog α Unit :=
  forUp 0 n fun i => do
    let v ← y.get i
    z.set i v

/-- The accumulating part of `symmetric_matrix_vector_product`:
`blas2_matrix_vector_product.hpp:538-557` (overwriting) and 661-680 (updating). -/
def symvAcc [Add α] [Mul α] (A : MatV α) (t : Triangle) (x : VecV α) (z : Vec) : Prog α Unit :=
  match t with
  | .lower =>
    forUp 0 A.cols fun j => do
      let d ← A.get j j
      let b ← x.get j
      z.addTo j (d * b)
      forUp (j + 1) A.rows fun i => do
        let aij ← A.get i j
        let xj ← x.get j
        z.addTo i (aij * xj)
        let xi ← x.get i
        z.addTo j (aij * xi)
  | .upper =>
    forUp 0 A.cols fun j => do
      forUp 0 j fun i => do
        let aij ← A.get i j
        let xj ← x.get j
        z.addTo i (aij * xj)
        let xi ← x.get i
        z.addTo j (aij * xi)
      let d ← A.get j j
      let b ← x.get j
      z.addTo j (d * b)

/-- `blas2_matrix_vector_product.hpp:523-558` overwriting
`symmetric_matrix_vector_product`. -/
def symv [Add α] [Mul α] [Zero α] (A : MatV α) (t : Triangle) (x : VecV α) (y : Vec) :
    Prog α Unit := do
  fillZero A.rows y
  symvAcc A t x y

/-- `blas2_matrix_vector_product.hpp:643-681` updating `symmetric_matrix_vector_product`. -/
def symvUpdate [Add α] [Mul α] (A : MatV α) (t : Triangle) (x y : VecV α) (z : Vec) :
    Prog α Unit := do
  fillFrom A.rows y z
  symvAcc A t x z

/-! ## blas2_matrix_vector_product.hpp: Hermitian -/

/-- The accumulating part of `hermitian_matrix_vector_product`:
`blas2_matrix_vector_product.hpp:791-810` (overwriting) and 921-940 (updating). -/
def hemvAcc [Add α] [Mul α] [ConjOps α] (A : MatV α) (t : Triangle) (x : VecV α) (z : Vec) :
    Prog α Unit :=
  match t with
  | .lower =>
    forUp 0 A.cols fun j => do
      let d ← A.get j j
      let b ← x.get j
      z.addTo j (ConjOps.re d * b)
      forUp (j + 1) A.rows fun i => do
        let aij ← A.get i j
        let xj ← x.get j
        z.addTo i (aij * xj)
        let xi ← x.get i
        z.addTo j (ConjOps.conj aij * xi)
  | .upper =>
    forUp 0 A.cols fun j => do
      forUp 0 j fun i => do
        let aij ← A.get i j
        let xj ← x.get j
        z.addTo i (aij * xj)
        let xi ← x.get i
        z.addTo j (ConjOps.conj aij * xi)
      let d ← A.get j j
      let b ← x.get j
      z.addTo j (ConjOps.re d * b)

/-- `blas2_matrix_vector_product.hpp:776-811` overwriting
`hermitian_matrix_vector_product`. -/
def hemv [Add α] [Mul α] [Zero α] [ConjOps α] (A : MatV α) (t : Triangle) (x : VecV α)
    (y : Vec) : Prog α Unit := do
  fillZero A.rows y
  hemvAcc A t x y

/-- `blas2_matrix_vector_product.hpp:903-941` updating `hermitian_matrix_vector_product`. -/
def hemvUpdate [Add α] [Mul α] [ConjOps α] (A : MatV α) (t : Triangle) (x y : VecV α)
    (z : Vec) : Prog α Unit := do
  fillFrom A.rows y z
  hemvAcc A t x z

/-! ## blas2_matrix_vector_product.hpp: triangular -/

/-- The accumulating part of `triangular_matrix_vector_product`:
`blas2_matrix_vector_product.hpp:1052-1076` (overwriting) and 1197-1221 (updating). -/
def trmvAcc [Add α] [Mul α] (A : MatV α) (t : Triangle) (d : Diag) (x : VecV α) (z : Vec) :
    Prog α Unit :=
  match t with
  | .lower =>
    forUp 0 A.cols fun j => do
      let iLower := if d = .explicit then j else j + 1
      forUp iLower A.rows fun i => do
        let a ← A.get i j
        let b ← x.get j
        z.addTo i (a * b)
      if d = .explicit then pure () else do
        let b ← x.get j
        z.addTo j b
  | .upper =>
    forUp 0 A.cols fun j => do
      let iUpper := if d = .explicit then j + 1 else j
      forUp 0 iUpper fun i => do
        let a ← A.get i j
        let b ← x.get j
        z.addTo i (a * b)
      if d = .explicit then pure () else do
        let b ← x.get j
        z.addTo j b

/-- `blas2_matrix_vector_product.hpp:1037-1077` overwriting
`triangular_matrix_vector_product`. -/
def trmv [Add α] [Mul α] [Zero α] (A : MatV α) (t : Triangle) (d : Diag) (x : VecV α)
    (y : Vec) : Prog α Unit := do
  fillZero A.rows y
  trmvAcc A t d x y

/-- `blas2_matrix_vector_product.hpp:1177-1222` updating
`triangular_matrix_vector_product`. -/
def trmvUpdate [Add α] [Mul α] (A : MatV α) (t : Triangle) (d : Diag) (x y : VecV α) (z : Vec) :
    Prog α Unit := do
  fillFrom A.rows y z
  trmvAcc A t d x z

/-- `blas2_matrix_vector_product.hpp:1322-1356` in-place
`triangular_matrix_vector_product`.  The lower branch runs `k = 0, 1, ...` with
`j = A.extent(1) - (k + 1)`, which is `j` descending. -/
def trmvInPlace [Add α] [Mul α] (A : MatV α) (t : Triangle) (d : Diag) (y : Vec) :
    Prog α Unit :=
  match t with
  | .lower =>
    forUp 0 A.cols fun k => do
      let j := A.cols - (k + 1)
      let tmp ← y.get j
      forUp (j + 1) A.rows fun i => do
        let a ← A.get i j
        y.addTo i (a * tmp)
      if d = .explicit then do
        let v ← y.get j
        let a ← A.get j j
        y.set j (v * a)
      else pure ()
  | .upper =>
    forUp 0 A.cols fun j => do
      let tmp ← y.get j
      forUp 0 j fun i => do
        let a ← A.get i j
        y.addTo i (a * tmp)
      if d = .explicit then do
        let v ← y.get j
        let a ← A.get j j
        y.set j (v * a)
      else pure ()

/-! ## blas2_matrix_vector_solve.hpp -/

/-- `blas2_matrix_vector_solve.hpp:70-104` `trsv_upper_triangular_left_side`.
`for (ptrdiff_t i = A_num_rows - 1; i >= 0; --i)` is modelled as visiting
`A_num_rows - 1, ..., 0`; when that is right for the index type is `Props/IndexTypes`. -/
def trsvUpper [Sub α] [Mul α] (divide : α → α → α) (A : MatV α) (d : Diag) (B : VecV α)
    (X : Vec) : Prog α Unit :=
  forDown A.rows fun i => do
    let b ← B.get i
    let s ← foldEach (List.range' (i + 1) (A.cols - (i + 1))) b fun s j => do
      let a ← A.get i j
      let xj ← X.get j
      pure (s - a * xj)
    if d = .explicit then do
      let a ← A.get i i
      X.set i (divide s a)
    else X.set i s

/-- `blas2_matrix_vector_solve.hpp:145-176` `trsv_lower_triangular_left_side`. -/
def trsvLower [Sub α] [Mul α] (divide : α → α → α) (A : MatV α) (d : Diag) (B : VecV α)
    (X : Vec) : Prog α Unit :=
  forUp 0 A.rows fun i => do
    let b ← B.get i
    let s ← foldEach (List.range' 0 i) b fun s j => do
      let a ← A.get i j
      let xj ← X.get j
      pure (s - a * xj)
    if d = .explicit then do
      let a ← A.get i i
      X.set i (divide s a)
    else X.set i s

/-- `blas2_matrix_vector_solve.hpp:245-260` `triangular_matrix_vector_solve`
(277-287 is the overload whose `divide` is `x / y`). -/
def trsv [Sub α] [Mul α] (divide : α → α → α) (A : MatV α) (t : Triangle) (d : Diag)
    (b : VecV α) (x : Vec) : Prog α Unit :=
  match t with
  | .lower => trsvLower divide A d b x
  | .upper => trsvUpper divide A d b x

/-! ## blas2_matrix_rank_1_update.hpp -/

/-- `blas2_matrix_rank_1_update.hpp:177-190` `matrix_rank_1_update`. -/
def ger [Add α] [Mul α] (x y : VecV α) (A : Mat) : Prog α Unit :=
  forUp 0 A.rows fun i => forUp 0 A.cols fun j => do
    let a ← x.get i
    let b ← y.get j
    A.addTo i j (a * b)

/-- `blas2_matrix_rank_1_update.hpp:261-267` `matrix_rank_1_update_c`. -/
def gerc [Add α] [Mul α] [ConjOps α] (x y : VecV α) (A : Mat) : Prog α Unit :=
  ger x y.conjugated A

/-- The loops over one triangle that all symmetric and Hermitian updates share:
`for j` all columns, `pre(j)`, then `for i` from `j` to the last row (lower) or from 0 to
`j` (upper): e.g. `blas2_matrix_rank_1_update.hpp:322-335`,
`blas2_matrix_rank_2_update.hpp:124-131`. -/
def triangleLoop (rows cols : Nat) (t : Triangle) (pre : Nat → Prog α Unit)
    (body : Nat → Nat → Prog α Unit) : Prog α Unit :=
  forUp 0 cols fun j => do
    pre j
    match t with
    | .lower => forUp j rows fun i => body i j
    | .upper => forUp 0 (j + 1) fun i => body i j

/-- `A(j,j) = real_if_needed(A(j,j))`, e.g. `blas2_matrix_rank_1_update.hpp:537`. -/
def makeDiagReal [ConjOps α] (A : Mat) (j : Nat) : Prog α Unit := do
  let v ← A.get j j
  A.set j j (ConjOps.re v)

/-- `blas2_matrix_rank_1_update.hpp:313-336` `symmetric_matrix_rank_1_update` with alpha. -/
def syrAlpha [Add α] [Mul α] (alpha : α) (x : VecV α) (A : Mat) (t : Triangle) : Prog α Unit :=
  triangleLoop A.rows A.cols t (fun _ => pure ()) fun i j => do
    let a ← x.get i
    let b ← x.get j
    A.addTo i j (alpha * a * b)

/-- `blas2_matrix_rank_1_update.hpp:421-443` `symmetric_matrix_rank_1_update`. -/
def syr [Add α] [Mul α] (x : VecV α) (A : Mat) (t : Triangle) : Prog α Unit :=
  triangleLoop A.rows A.cols t (fun _ => pure ()) fun i j => do
    let a ← x.get i
    let b ← x.get j
    A.addTo i j (a * b)

/-- `blas2_matrix_rank_1_update.hpp:526-551` `hermitian_matrix_rank_1_update` with alpha. -/
def herAlpha [Add α] [Mul α] [ConjOps α] (alpha : α) (x : VecV α) (A : Mat) (t : Triangle) :
    Prog α Unit :=
  triangleLoop A.rows A.cols t (makeDiagReal A) fun i j => do
    let a ← x.get i
    let b ← x.get j
    A.addTo i j (alpha * a * ConjOps.conj b)

/-- `blas2_matrix_rank_1_update.hpp:636-660` `hermitian_matrix_rank_1_update`. -/
def her [Add α] [Mul α] [ConjOps α] (x : VecV α) (A : Mat) (t : Triangle) : Prog α Unit :=
  triangleLoop A.rows A.cols t (makeDiagReal A) fun i j => do
    let a ← x.get i
    let b ← x.get j
    A.addTo i j (a * ConjOps.conj b)

/-! ## blas2_matrix_rank_2_update.hpp -/

/-- `blas2_matrix_rank_2_update.hpp:114-132` `symmetric_matrix_rank_2_update`. -/
def syr2 [Add α] [Mul α] (x y : VecV α) (A : Mat) (t : Triangle) : Prog α Unit :=
  triangleLoop A.rows A.cols t (fun _ => pure ()) fun i j => do
    let xi ← x.get i
    let yj ← y.get j
    let yi ← y.get i
    let xj ← x.get j
    A.addTo i j (xi * yj + yi * xj)

/-- `blas2_matrix_rank_2_update.hpp:205-225` `hermitian_matrix_rank_2_update`. -/
def her2 [Add α] [Mul α] [ConjOps α] (x y : VecV α) (A : Mat) (t : Triangle) : Prog α Unit :=
  triangleLoop A.rows A.cols t (makeDiagReal A) fun i j => do
    let xi ← x.get i
    let yj ← y.get j
    let yi ← y.get i
    let xj ← x.get j
    A.addTo i j (xi * ConjOps.conj yj + yi * ConjOps.conj xj)

/-! ## blas3_matrix_rank_k_update.hpp -/

/-- `blas3_matrix_rank_k_update.hpp:143-163` `symmetric_matrix_rank_k_update` with alpha. -/
def syrkAlpha [Add α] [Mul α] (alpha : α) (A : MatV α) (C : Mat) (t : Triangle) : Prog α Unit :=
  triangleLoop C.rows C.cols t (fun _ => pure ()) fun i j =>
    forUp 0 A.cols fun k => do
      let a ← A.get i k
      let b ← A.get j k
      C.addTo i j (alpha * a * b)

/-- `blas3_matrix_rank_k_update.hpp:244-263` `symmetric_matrix_rank_k_update`. -/
def syrk [Add α] [Mul α] (A : MatV α) (C : Mat) (t : Triangle) : Prog α Unit :=
  triangleLoop C.rows C.cols t (fun _ => pure ()) fun i j =>
    forUp 0 A.cols fun k => do
      let a ← A.get i k
      let b ← A.get j k
      C.addTo i j (a * b)

/-- `blas3_matrix_rank_k_update.hpp:342-365` `hermitian_matrix_rank_k_update` with alpha. -/
def herkAlpha [Add α] [Mul α] [ConjOps α] (alpha : α) (A : MatV α) (C : Mat) (t : Triangle) :
    Prog α Unit :=
  triangleLoop C.rows C.cols t (makeDiagReal C) fun i j =>
    forUp 0 A.cols fun k => do
      let a ← A.get i k
      let b ← A.get j k
      C.addTo i j (alpha * a * ConjOps.conj b)

/-- `blas3_matrix_rank_k_update.hpp:446-468` `hermitian_matrix_rank_k_update`. -/
def herk [Add α] [Mul α] [ConjOps α] (A : MatV α) (C : Mat) (t : Triangle) : Prog α Unit :=
  triangleLoop C.rows C.cols t (makeDiagReal C) fun i j =>
    forUp 0 A.cols fun k => do
      let a ← A.get i k
      let b ← A.get j k
      C.addTo i j (a * ConjOps.conj b)

/-! ## blas3_matrix_rank_2k_update.hpp -/

/-- `blas3_matrix_rank_2k_update.hpp:108-128` `symmetric_matrix_rank_2k_update`. -/
def syr2k [Add α] [Mul α] (A B : MatV α) (C : Mat) (t : Triangle) : Prog α Unit :=
  triangleLoop C.rows C.cols t (fun _ => pure ()) fun i j =>
    forUp 0 A.cols fun k => do
      let aik ← A.get i k
      let bjk ← B.get j k
      let bik ← B.get i k
      let ajk ← A.get j k
      C.addTo i j (aik * bjk + bik * ajk)

/-- `blas3_matrix_rank_2k_update.hpp:200-221` `hermitian_matrix_rank_2k_update`. -/
def her2k [Add α] [Mul α] [ConjOps α] (A B : MatV α) (C : Mat) (t : Triangle) : Prog α Unit :=
  triangleLoop C.rows C.cols t (makeDiagReal C) fun i j =>
    forUp 0 A.cols fun k => do
      let aik ← A.get i k
      let bjk ← B.get j k
      let bik ← B.get i k
      let ajk ← A.get j k
      C.addTo i j (aik * ConjOps.conj bjk + bik * ConjOps.conj ajk)

end StdBLAS

import Verif.Core.MixedTypes
import Verif.Model.Blas3
import Verif.Model.FloatReductions

/-!
# The algorithms for mdspans of different element types

The functions of `Blas1.lean`, `Blas2.lean` and `Blas3.lean` once more, with the conversions of C++
at each assignment.  Headers are in `/repo/include/experimental/__p1673_bits/`.
-/

namespace StdBLAS.Mixed
open StdBLAS
variable {D T : Type} [MixedOps D T]

/-- `blas1_linalg_copy.hpp:63-74` `copy_rank_1`. -/
def copy1 (x : VecV D) (y : TVec T) : Prog D Unit :=
  forUp 0 y.ext fun i => do
    let v ← x.get i
    y.set i v

/-- `blas1_linalg_copy.hpp:88-104` `copy_rank_2`. -/
def copy2 (x : MatV D) (y : TMat T) : Prog D Unit :=
  forUp 0 y.cols fun j => forUp 0 y.rows fun i => do
    let v ← x.get i j
    y.set i j v

/-- `blas1_linalg_add.hpp:68-87` `add_rank_1`. -/
def add1 (x y : VecV D) (z : TVec T) : Prog D Unit :=
  forUp 0 z.ext fun i => do
    let a ← x.get i
    let b ← y.get i
    z.set i (a + b)

/-- `blas1_linalg_add.hpp:107-138` `add_rank_2`: loops over the extents of `x`. -/
def add2 (x y : MatV D) (z : TMat T) : Prog D Unit :=
  forUp 0 x.cols fun j => forUp 0 x.rows fun i => do
    let a ← x.get i j
    let b ← y.get i j
    z.set i j (a + b)

/-- `blas1_scale.hpp:59-66` `linalg_scale_rank_1`: `x(i) *= alpha`. -/
def scale1 (alpha : D) (x : TVec T) : Prog D Unit :=
  forUp 0 x.ext fun i => do
    let v ← x.get i
    x.set i (v * alpha)

/-- `blas1_scale.hpp:75-84` `linalg_scale_rank_2`: columns outside, rows inside. -/
def scale2 (alpha : D) (A : TMat T) : Prog D Unit :=
  forUp 0 A.cols fun j => forUp 0 A.rows fun i => do
    let v ← A.get i j
    A.set i j (v * alpha)

/-- `blas1_dot.hpp:92-107` `dot` with `init`: `init += v1(k) * v2(k)`, where `init` has type
`Scalar`. -/
def dot (v1 v2 : VecV D) (init : D) : Prog D D :=
  foldEach (List.range' 0 v1.ext) init fun s k => do
    let a ← v1.get k
    let b ← v2.get k
    pure (MixedOps.conv (MixedOps.ty init) (s + a * b))

/-- `blas1_dot.hpp:172-178` `dotc` with `init`: `dot(conjugated(v1), v2, init)`. -/
def dotc [ConjOps D] (v1 v2 : VecV D) (init : D) : Prog D D :=
  dot v1.conjugated v2 init

/-- `blas2_matrix_vector_product.hpp:291-307` overwriting `matrix_vector_product`. -/
def gemv (A : MatV D) (x : VecV D) (y : TVec T) : Prog D Unit :=
  forUp 0 A.rows fun i => do
    y.setZero i
    forUp 0 A.cols fun j => do
      let a ← A.get i j
      let b ← x.get j
      y.addTo i (a * b)

/-- `blas2_matrix_vector_product.hpp:408-426` updating `matrix_vector_product`. -/
def gemvUpdate (A : MatV D) (x y : VecV D) (z : TVec T) : Prog D Unit :=
  forUp 0 A.rows fun i => do
    let v ← y.get i
    z.set i v
    forUp 0 A.cols fun j => do
      let a ← A.get i j
      let b ← x.get j
      z.addTo i (a * b)

/-- `y(i) = ElementType_y{}` for all rows: `blas2_matrix_vector_product.hpp:534-536`
(the same three lines at 787-789 and 1049-1051). -/
def fillZero (n : Nat) (y : TVec T) : Prog D Unit :=
  forUp 0 n fun i => y.setZero i

/-- `z(i) = y(i)` for all rows: `blas2_matrix_vector_product.hpp:657-659`
(the same three lines at 917-919 and 1194-1196). -/
def fillFrom (n : Nat) (y : VecV D) (z : TVec T) : Prog D Unit :=
  forUp 0 n fun i => do
    let v ← y.get i
    z.set i v

/-- The accumulating part of `symmetric_matrix_vector_product`:
`blas2_matrix_vector_product.hpp:538-557` (overwriting) and 661-680 (updating). -/
def symvAcc (A : MatV D) (t : Triangle) (x : VecV D) (z : TVec T) : Prog D Unit :=
  match t with
  | .lower =>
    forUp 0 A.cols fun j => do
      let d ← A.get j j
      let b ← x.get j
      z.addTo j (d * b)
      forUp (j + 1) A.rows fun i => do
        let aij ← A.get i j
        let xj ← x.get j
        z.addTo i (aij * xj)
        let xi ← x.get i
        z.addTo j (aij * xi)
  | .upper =>
    forUp 0 A.cols fun j => do
      forUp 0 j fun i => do
        let aij ← A.get i j
        let xj ← x.get j
        z.addTo i (aij * xj)
        let xi ← x.get i
        z.addTo j (aij * xi)
      let d ← A.get j j
      let b ← x.get j
      z.addTo j (d * b)

/-- `blas2_matrix_vector_product.hpp:523-558` overwriting
`symmetric_matrix_vector_product`. -/
def symv (A : MatV D) (t : Triangle) (x : VecV D) (y : TVec T) :
    Prog D Unit := do
  fillZero A.rows y
  symvAcc A t x y

/-- `blas2_matrix_vector_product.hpp:643-681` updating `symmetric_matrix_vector_product`. -/
def symvUpdate (A : MatV D) (t : Triangle) (x y : VecV D) (z : TVec T) :
    Prog D Unit := do
  fillFrom A.rows y z
  symvAcc A t x z

/-- The accumulating part of `hermitian_matrix_vector_product`:
`blas2_matrix_vector_product.hpp:791-810` (overwriting) and 921-940 (updating). -/
def hemvAcc [ConjOps D] (A : MatV D) (t : Triangle) (x : VecV D) (z : TVec T) :
    Prog D Unit :=
  match t with
  | .lower =>
    forUp 0 A.cols fun j => do
      let d ← A.get j j
      let b ← x.get j
      z.addTo j (ConjOps.re d * b)
      forUp (j + 1) A.rows fun i => do
        let aij ← A.get i j
        let xj ← x.get j
        z.addTo i (aij * xj)
        let xi ← x.get i
        z.addTo j (ConjOps.conj aij * xi)
  | .upper =>
    forUp 0 A.cols fun j => do
      forUp 0 j fun i => do
        let aij ← A.get i j
        let xj ← x.get j
        z.addTo i (aij * xj)
        let xi ← x.get i
        z.addTo j (ConjOps.conj aij * xi)
      let d ← A.get j j
      let b ← x.get j
      z.addTo j (ConjOps.re d * b)

/-- `blas2_matrix_vector_product.hpp:776-811` overwriting
`hermitian_matrix_vector_product`. -/
def hemv [ConjOps D] (A : MatV D) (t : Triangle) (x : VecV D)
    (y : TVec T) : Prog D Unit := do
  fillZero A.rows y
  hemvAcc A t x y

/-- `blas2_matrix_vector_product.hpp:903-941` updating `hermitian_matrix_vector_product`. -/
def hemvUpdate [ConjOps D] (A : MatV D) (t : Triangle) (x y : VecV D)
    (z : TVec T) : Prog D Unit := do
  fillFrom A.rows y z
  hemvAcc A t x z

/-- The accumulating part of `triangular_matrix_vector_product`:
`blas2_matrix_vector_product.hpp:1052-1076` (overwriting) and 1197-1221 (updating). -/
def trmvAcc (A : MatV D) (t : Triangle) (d : Diag) (x : VecV D) (z : TVec T) :
    Prog D Unit :=
  match t with
  | .lower =>
    forUp 0 A.cols fun j => do
      let iLower := if d = .explicit then j else j + 1
      forUp iLower A.rows fun i => do
        let a ← A.get i j
        let b ← x.get j
        z.addTo i (a * b)
      if d = .explicit then pure () else do
        let b ← x.get j
        z.addTo j b
  | .upper =>
    forUp 0 A.cols fun j => do
      let iUpper := if d = .explicit then j + 1 else j
      forUp 0 iUpper fun i => do
        let a ← A.get i j
        let b ← x.get j
        z.addTo i (a * b)
      if d = .explicit then pure () else do
        let b ← x.get j
        z.addTo j b

/-- `blas2_matrix_vector_product.hpp:1037-1077` overwriting
`triangular_matrix_vector_product`. -/
def trmv (A : MatV D) (t : Triangle) (d : Diag) (x : VecV D)
    (y : TVec T) : Prog D Unit := do
  fillZero A.rows y
  trmvAcc A t d x y

/-- `blas2_matrix_vector_product.hpp:1177-1222` updating
`triangular_matrix_vector_product`. -/
def trmvUpdate (A : MatV D) (t : Triangle) (d : Diag) (x y : VecV D) (z : TVec T) :
    Prog D Unit := do
  fillFrom A.rows y z
  trmvAcc A t d x z

/-- `blas2_matrix_vector_product.hpp:1322-1356` in-place
`triangular_matrix_vector_product`.  The lower branch runs `k = 0, 1, ...` with
`j = A.extent(1) - (k + 1)`, which is `j` descending. -/
def trmvInPlace (A : MatV D) (t : Triangle) (d : Diag) (y : TVec T) :
    Prog D Unit :=
  match t with
  | .lower =>
    forUp 0 A.cols fun k => do
      let j := A.cols - (k + 1)
      let tmp ← y.get j
      forUp (j + 1) A.rows fun i => do
        let a ← A.get i j
        y.addTo i (a * tmp)
      if d = .explicit then do
        let v ← y.get j
        let a ← A.get j j
        y.set j (v * a)
      else pure ()
  | .upper =>
    forUp 0 A.cols fun j => do
      let tmp ← y.get j
      forUp 0 j fun i => do
        let a ← A.get i j
        y.addTo i (a * tmp)
      if d = .explicit then do
        let v ← y.get j
        let a ← A.get j j
        y.set j (v * a)
      else pure ()

/-- `blas2_matrix_rank_1_update.hpp:177-190` `matrix_rank_1_update`. -/
def ger (x y : VecV D) (A : TMat T) : Prog D Unit :=
  forUp 0 A.rows fun i => forUp 0 A.cols fun j => do
    let a ← x.get i
    let b ← y.get j
    A.addTo i j (a * b)

/-- `blas2_matrix_rank_1_update.hpp:261-267` `matrix_rank_1_update_c`. -/
def gerc [ConjOps D] (x y : VecV D) (A : TMat T) : Prog D Unit :=
  ger x y.conjugated A

/-- `A(j,j) = real_if_needed(A(j,j))`, e.g. `blas2_matrix_rank_1_update.hpp:537`. -/
def makeDiagReal [ConjOps D] (A : TMat T) (j : Nat) : Prog D Unit := do
  let v ← A.get j j
  A.set j j (ConjOps.re v)

/-- `blas2_matrix_rank_1_update.hpp:313-336` `symmetric_matrix_rank_1_update` with alpha. -/
def syrAlpha (alpha : D) (x : VecV D) (A : TMat T) (t : Triangle) : Prog D Unit :=
  triangleLoop A.rows A.cols t (fun _ => pure ()) fun i j => do
    let a ← x.get i
    let b ← x.get j
    A.addTo i j (alpha * a * b)

/-- `blas2_matrix_rank_1_update.hpp:421-443` `symmetric_matrix_rank_1_update`. -/
def syr (x : VecV D) (A : TMat T) (t : Triangle) : Prog D Unit :=
  triangleLoop A.rows A.cols t (fun _ => pure ()) fun i j => do
    let a ← x.get i
    let b ← x.get j
    A.addTo i j (a * b)

/-- `blas2_matrix_rank_1_update.hpp:526-551` `hermitian_matrix_rank_1_update` with alpha. -/
def herAlpha [ConjOps D] (alpha : D) (x : VecV D) (A : TMat T) (t : Triangle) :
    Prog D Unit :=
  triangleLoop A.rows A.cols t (makeDiagReal A) fun i j => do
    let a ← x.get i
    let b ← x.get j
    A.addTo i j (alpha * a * ConjOps.conj b)

/-- `blas2_matrix_rank_1_update.hpp:636-660` `hermitian_matrix_rank_1_update`. -/
def her [ConjOps D] (x : VecV D) (A : TMat T) (t : Triangle) : Prog D Unit :=
  triangleLoop A.rows A.cols t (makeDiagReal A) fun i j => do
    let a ← x.get i
    let b ← x.get j
    A.addTo i j (a * ConjOps.conj b)

/-- `blas2_matrix_rank_2_update.hpp:114-132` `symmetric_matrix_rank_2_update`. -/
def syr2 (x y : VecV D) (A : TMat T) (t : Triangle) : Prog D Unit :=
  triangleLoop A.rows A.cols t (fun _ => pure ()) fun i j => do
    let xi ← x.get i
    let yj ← y.get j
    let yi ← y.get i
    let xj ← x.get j
    A.addTo i j (xi * yj + yi * xj)

/-- `blas2_matrix_rank_2_update.hpp:205-225` `hermitian_matrix_rank_2_update`. -/
def her2 [ConjOps D] (x y : VecV D) (A : TMat T) (t : Triangle) : Prog D Unit :=
  triangleLoop A.rows A.cols t (makeDiagReal A) fun i j => do
    let xi ← x.get i
    let yj ← y.get j
    let yi ← y.get i
    let xj ← x.get j
    A.addTo i j (xi * ConjOps.conj yj + yi * ConjOps.conj xj)

/-- `blas3_matrix_rank_k_update.hpp:143-163` `symmetric_matrix_rank_k_update` with alpha. -/
def syrkAlpha (alpha : D) (A : MatV D) (C : TMat T) (t : Triangle) : Prog D Unit :=
  triangleLoop C.rows C.cols t (fun _ => pure ()) fun i j =>
    forUp 0 A.cols fun k => do
      let a ← A.get i k
      let b ← A.get j k
      C.addTo i j (alpha * a * b)

/-- `blas3_matrix_rank_k_update.hpp:244-263` `symmetric_matrix_rank_k_update`. -/
def syrk (A : MatV D) (C : TMat T) (t : Triangle) : Prog D Unit :=
  triangleLoop C.rows C.cols t (fun _ => pure ()) fun i j =>
    forUp 0 A.cols fun k => do
      let a ← A.get i k
      let b ← A.get j k
      C.addTo i j (a * b)

/-- `blas3_matrix_rank_k_update.hpp:342-365` `hermitian_matrix_rank_k_update` with alpha. -/
def herkAlpha [ConjOps D] (alpha : D) (A : MatV D) (C : TMat T) (t : Triangle) :
    Prog D Unit :=
  triangleLoop C.rows C.cols t (makeDiagReal C) fun i j =>
    forUp 0 A.cols fun k => do
      let a ← A.get i k
      let b ← A.get j k
      C.addTo i j (alpha * a * ConjOps.conj b)

/-- `blas3_matrix_rank_k_update.hpp:446-468` `hermitian_matrix_rank_k_update`. -/
def herk [ConjOps D] (A : MatV D) (C : TMat T) (t : Triangle) : Prog D Unit :=
  triangleLoop C.rows C.cols t (makeDiagReal C) fun i j =>
    forUp 0 A.cols fun k => do
      let a ← A.get i k
      let b ← A.get j k
      C.addTo i j (a * ConjOps.conj b)

/-- `blas3_matrix_rank_2k_update.hpp:108-128` `symmetric_matrix_rank_2k_update`. -/
def syr2k (A B : MatV D) (C : TMat T) (t : Triangle) : Prog D Unit :=
  triangleLoop C.rows C.cols t (fun _ => pure ()) fun i j =>
    forUp 0 A.cols fun k => do
      let aik ← A.get i k
      let bjk ← B.get j k
      let bik ← B.get i k
      let ajk ← A.get j k
      C.addTo i j (aik * bjk + bik * ajk)

/-- `blas3_matrix_rank_2k_update.hpp:200-221` `hermitian_matrix_rank_2k_update`. -/
def her2k [ConjOps D] (A B : MatV D) (C : TMat T) (t : Triangle) : Prog D Unit :=
  triangleLoop C.rows C.cols t (makeDiagReal C) fun i j =>
    forUp 0 A.cols fun k => do
      let aik ← A.get i k
      let bjk ← B.get j k
      let bik ← B.get i k
      let ajk ← A.get j k
      C.addTo i j (aik * ConjOps.conj bjk + bik * ConjOps.conj ajk)

/-- `blas3_matrix_product.hpp:667-732` overwriting `matrix_product` (675-719 is `#if 0`). -/
def gemm (A B : MatV D) (C : TMat T) : Prog D Unit :=
  forUp 0 C.rows fun i => forUp 0 C.cols fun j => do
    C.setZero i j
    forUp 0 A.cols fun k => do
      let a ← A.get i k
      let b ← B.get k j
      C.addTo i j (a * b)

/-- `blas3_matrix_product.hpp:802-819` updating `matrix_product`. -/
def gemmUpdate (A B E : MatV D) (C : TMat T) : Prog D Unit :=
  forUp 0 C.rows fun i => forUp 0 C.cols fun j => do
    let e ← E.get i j
    C.set i j e
    forUp 0 A.cols fun k => do
      let a ← A.get i k
      let b ← B.get k j
      C.addTo i j (a * b)

/-- `blas3_matrix_product.hpp:898-938` `triangular_matrix_product(A, t, d, B, C)`.  The
`ptrdiff_t` bound `k_upper` (`i`, or `i - 1` without explicit diagonal), inclusive, is
modelled as the exclusive bound `k_upper + 1`; see `Props/IndexTypes` for the integer types. -/
def trmmLeft (A : MatV D) (t : Triangle) (d : Diag) (B : MatV D)
    (C : TMat T) : Prog D Unit :=
  match t with
  | .lower =>
    forUp 0 C.cols fun j => forUp 0 C.rows fun i => do
      C.setZero i j
      let kEnd := if d = .explicit then i + 1 else i
      forUp 0 kEnd fun k => do
        let a ← A.get i k
        let b ← B.get k j
        C.addTo i j (a * b)
      if d = .explicit then pure () else do
        let b ← B.get i j
        C.addTo i j b
  | .upper =>
    forUp 0 C.cols fun j => forUp 0 C.rows fun i => do
      C.setZero i j
      let kLower := if d = .explicit then i else i + 1
      forUp kLower C.rows fun k => do
        let a ← A.get i k
        let b ← B.get k j
        C.addTo i j (a * b)
      if d = .explicit then pure () else do
        let b ← B.get i j
        C.addTo i j b

/-- `blas3_matrix_product.hpp:1012-1052` `triangular_matrix_product(B, A, t, d, C)`. -/
def trmmRight (B : MatV D) (A : MatV D) (t : Triangle) (d : Diag)
    (C : TMat T) : Prog D Unit :=
  match t with
  | .lower =>
    forUp 0 C.cols fun j => forUp 0 C.rows fun i => do
      C.setZero i j
      let kLower := if d = .explicit then j else j + 1
      forUp kLower C.cols fun k => do
        let b ← B.get i k
        let a ← A.get k j
        C.addTo i j (b * a)
      if d = .explicit then pure () else do
        let b ← B.get i j
        C.addTo i j b
  | .upper =>
    forUp 0 C.cols fun j => forUp 0 C.rows fun i => do
      C.setZero i j
      let kEnd := if d = .explicit then j + 1 else j
      forUp 0 kEnd fun k => do
        let b ← B.get i k
        let a ← A.get k j
        C.addTo i j (b * a)
      if d = .explicit then pure () else do
        let b ← B.get i j
        C.addTo i j b

/-- `blas3_matrix_product.hpp:1125-1160` `triangular_matrix_left_product(A, t, d, C)`.
The lower branch runs `k = C.extent(0), ..., 1` and uses `k - 1`. -/
def trmmLeftInPlace (A : MatV D) (t : Triangle) (d : Diag) (C : TMat T) :
    Prog D Unit :=
  match t with
  | .upper =>
    forUp 0 C.cols fun j => forUp 0 C.rows fun k => do
      forUp 0 k fun i => do
        let a ← A.get i k
        let c ← C.get k j
        C.addTo i j (a * c)
      if d = .explicit then do
        let a ← A.get k k
        let c ← C.get k j
        C.set k j (a * c)
      else pure ()
  | .lower =>
    forUp 0 C.cols fun j => forDown C.rows fun k => do
      forUp (k + 1) C.rows fun i => do
        let a ← A.get i k
        let c ← C.get k j
        C.addTo i j (a * c)
      if d = .explicit then do
        let a ← A.get k k
        let c ← C.get k j
        C.set k j (a * c)
      else pure ()

/-- `blas3_matrix_product.hpp:1219-1258` `triangular_matrix_right_product(A, t, d, C)`.
The upper branch runs `j = C.extent(1), ..., 1` and uses `j - 1`. -/
def trmmRightInPlace (A : MatV D) (t : Triangle) (d : Diag) (C : TMat T) :
    Prog D Unit :=
  match t with
  | .upper =>
    forDown C.cols fun j => do
      (if d = .explicit then
        forUp 0 C.rows fun i => do
          let c ← C.get i j
          let a ← A.get j j
          C.set i j (c * a)
      else pure ())
      forUp 0 j fun k => forUp 0 C.rows fun i => do
        let c ← C.get i k
        let a ← A.get k j
        C.addTo i j (c * a)
  | .lower =>
    forUp 0 C.cols fun j => do
      (if d = .explicit then
        forUp 0 C.rows fun i => do
          let c ← C.get i j
          let a ← A.get j j
          C.set i j (c * a)
      else pure ())
      forUp (j + 1) C.cols fun k => forUp 0 C.rows fun i => do
        let c ← C.get i k
        let a ← A.get k j
        C.addTo i j (c * a)

/-- `blas3_matrix_product.hpp:1323-1354` `symmetric_matrix_product(A, t, B, C)`. -/
def symmLeft (A : MatV D) (t : Triangle) (B : MatV D) (C : TMat T) :
    Prog D Unit :=
  match t with
  | .lower =>
    forUp 0 C.cols fun j => forUp 0 C.rows fun i => do
      C.setZero i j
      forUp 0 A.cols fun k => do
        let aik ← (if i ≤ k then A.get k i else A.get i k)
        let b ← B.get k j
        C.addTo i j (aik * b)
  | .upper =>
    forUp 0 C.cols fun j => forUp 0 C.rows fun i => do
      C.setZero i j
      forUp 0 A.cols fun k => do
        let aik ← (if i ≥ k then A.get k i else A.get i k)
        let b ← B.get k j
        C.addTo i j (aik * b)

/-- `blas3_matrix_product.hpp:1426-1457` `symmetric_matrix_product(B, A, t, C)`. -/
def symmRight (B : MatV D) (A : MatV D) (t : Triangle) (C : TMat T) :
    Prog D Unit :=
  match t with
  | .lower =>
    forUp 0 C.cols fun j => forUp 0 C.rows fun i => do
      C.setZero i j
      forUp 0 A.cols fun k => do
        let akj ← (if j ≤ k then A.get k j else A.get j k)
        let b ← B.get i k
        C.addTo i j (b * akj)
  | .upper =>
    forUp 0 C.cols fun j => forUp 0 C.rows fun i => do
      C.setZero i j
      forUp 0 A.cols fun k => do
        let akj ← (if j ≥ k then A.get k j else A.get j k)
        let b ← B.get i k
        C.addTo i j (b * akj)

/-- `blas3_matrix_product.hpp:1717-1754` `hermitian_matrix_product(A, t, B, C)`. -/
def hemmLeft [ConjOps D] (A : MatV D) (t : Triangle) (B : MatV D)
    (C : TMat T) : Prog D Unit :=
  match t with
  | .lower =>
    forUp 0 C.cols fun j => forUp 0 C.rows fun i => do
      C.setZero i j
      forUp 0 i fun k => do
        let a ← A.get i k
        let b ← B.get k j
        C.addTo i j (a * b)
      let aii ← A.get i i
      let bij ← B.get i j
      C.addTo i j (ConjOps.re aii * bij)
      forUp (i + 1) A.rows fun k => do
        let a ← A.get k i
        let b ← B.get k j
        C.addTo i j (ConjOps.conj a * b)
  | .upper =>
    forUp 0 C.cols fun j => forUp 0 C.rows fun i => do
      C.setZero i j
      forUp 0 i fun k => do
        let a ← A.get k i
        let b ← B.get k j
        C.addTo i j (ConjOps.conj a * b)
      let aii ← A.get i i
      let bij ← B.get i j
      C.addTo i j (ConjOps.re aii * bij)
      forUp (i + 1) A.cols fun k => do
        let a ← A.get i k
        let b ← B.get k j
        C.addTo i j (a * b)

/-- `blas3_matrix_product.hpp:1825-1856` `hermitian_matrix_product(B, A, t, C)`. -/
def hemmRight [ConjOps D] (B : MatV D) (A : MatV D) (t : Triangle)
    (C : TMat T) : Prog D Unit :=
  match t with
  | .lower =>
    forUp 0 C.cols fun j => forUp 0 C.rows fun i => do
      C.setZero i j
      forUp 0 A.cols fun k => do
        let akj ← (if j ≤ k then A.get k j else (do
          let a ← A.get j k
          pure (ConjOps.conj a)))
        let b ← B.get i k
        C.addTo i j (b * akj)
  | .upper =>
    forUp 0 C.cols fun j => forUp 0 C.rows fun i => do
      C.setZero i j
      forUp 0 A.cols fun k => do
        let akj ← (if j ≥ k then A.get k j else (do
          let a ← A.get j k
          pure (ConjOps.conj a)))
        let b ← B.get i k
        C.addTo i j (b * akj)

/-- `decltype(B(i) - A(0,0) * X(0))`, `blas2_matrix_vector_solve.hpp:91` and 163: the type of the
local variable `t`.  `tA` and `tB` are the value types of `A` and `B`. -/
def sumTy (tA tB tX : T) : T := MixedOps.subTy D tB (MixedOps.mulTy D tA tX)

/-- `blas2_matrix_vector_solve.hpp:70-104` `trsv_upper_triangular_left_side`. -/
def trsvUpper (divide : D → D → D) (tA tB : T) (A : MatV D) (d : Diag) (B : VecV D) (X : TVec T) :
    Prog D Unit :=
  forDown A.rows fun i => do
    let b ← B.get i
    let s ← foldEach (List.range' (i + 1) (A.cols - (i + 1)))
        (MixedOps.conv (sumTy (D := D) tA tB X.elt) b) fun s j => do
      let a ← A.get i j
      let xj ← X.get j
      pure (MixedOps.conv (sumTy (D := D) tA tB X.elt) (s - a * xj))
    if d = .explicit then do
      let a ← A.get i i
      X.set i (divide s a)
    else X.set i s

/-- `blas2_matrix_vector_solve.hpp:145-176` `trsv_lower_triangular_left_side`. -/
def trsvLower (divide : D → D → D) (tA tB : T) (A : MatV D) (d : Diag) (B : VecV D) (X : TVec T) :
    Prog D Unit :=
  forUp 0 A.rows fun i => do
    let b ← B.get i
    let s ← foldEach (List.range' 0 i) (MixedOps.conv (sumTy (D := D) tA tB X.elt) b) fun s j => do
      let a ← A.get i j
      let xj ← X.get j
      pure (MixedOps.conv (sumTy (D := D) tA tB X.elt) (s - a * xj))
    if d = .explicit then do
      let a ← A.get i i
      X.set i (divide s a)
    else X.set i s

/-- `blas2_matrix_vector_solve.hpp:245-260` `triangular_matrix_vector_solve`. -/
def trsv (divide : D → D → D) (tA tB : T) (A : MatV D) (t : Triangle) (d : Diag) (b : VecV D)
    (x : TVec T) : Prog D Unit :=
  match t with
  | .lower => trsvLower divide tA tB A d b x
  | .upper => trsvUpper divide tA tB A d b x

/-- `blas3_triangular_matrix_matrix_solve.hpp:59-94` `trsm_upper_triangular_left_side`: the local
variable `t` has type `sum_type`. -/
def trsmUpperLeft (tA tB : T) (A : MatV D) (d : Diag) (B : MatV D) (X : TMat T) : Prog D Unit :=
  forUp 0 B.cols fun k => forDown A.rows fun i => do
    let b ← B.get i k
    let s ← foldEach (List.range' (i + 1) (A.rows - (i + 1)))
        (MixedOps.conv (sumTy (D := D) tA tB X.elt) b) fun s j => do
      let a ← A.get i j
      let xj ← X.get j k
      pure (MixedOps.conv (sumTy (D := D) tA tB X.elt) (s - a * xj))
    if d = .explicit then do
      let a ← A.get i i
      X.set i k (s / a)
    else X.set i k s

/-- `blas3_triangular_matrix_matrix_solve.hpp:102-132` `trsm_lower_triangular_left_side`: here the
local variable is `ElementType_X t`, not `sum_type`. -/
def trsmLowerLeft (A : MatV D) (d : Diag) (B : MatV D) (X : TMat T) : Prog D Unit :=
  forUp 0 B.cols fun k => forUp 0 A.rows fun i => do
    let b ← B.get i k
    let s ← foldEach (List.range' 0 i) (MixedOps.conv X.elt b) fun s j => do
      let a ← A.get i j
      let xj ← X.get j k
      pure (MixedOps.conv X.elt (s - a * xj))
    if d = .explicit then do
      let a ← A.get i i
      X.set i k (s / a)
    else X.set i k s

/-- `blas3_triangular_matrix_matrix_solve.hpp:140-168` `trsm_upper_triangular_right_side`. -/
def trsmUpperRight (tA tB : T) (A : MatV D) (d : Diag) (B : MatV D) (X : TMat T) : Prog D Unit :=
  forUp 0 B.rows fun i => forUp 0 A.cols fun j => do
    let b ← B.get i j
    let s ← foldEach (List.range' 0 j) (MixedOps.conv (sumTy (D := D) tA tB X.elt) b) fun s k => do
      let a ← A.get k j
      let xk ← X.get i k
      pure (MixedOps.conv (sumTy (D := D) tA tB X.elt) (s - xk * a))
    if d = .explicit then do
      let a ← A.get j j
      X.set i j (s / a)
    else X.set i j s

/-- `blas3_triangular_matrix_matrix_solve.hpp:176-206` `trsm_lower_triangular_right_side`. -/
def trsmLowerRight (tA tB : T) (A : MatV D) (d : Diag) (B : MatV D) (X : TMat T) : Prog D Unit :=
  forUp 0 B.rows fun i => forDown A.cols fun j => do
    let b ← B.get i j
    let s ← foldEach (List.range' (j + 1) (A.rows - (j + 1)))
        (MixedOps.conv (sumTy (D := D) tA tB X.elt) b) fun s k => do
      let a ← A.get k j
      let xk ← X.get i k
      pure (MixedOps.conv (sumTy (D := D) tA tB X.elt) (s - xk * a))
    if d = .explicit then do
      let a ← A.get j j
      X.set i j (s / a)
    else X.set i j s

/-- `blas3_triangular_matrix_matrix_solve.hpp:289-303`
`triangular_matrix_matrix_left_solve(A, t, d, B, X)`. -/
def trsmLeft (tA tB : T) (A : MatV D) (t : Triangle) (d : Diag) (B : MatV D) (X : TMat T) :
    Prog D Unit :=
  match t with
  | .lower => trsmLowerLeft A d B X
  | .upper => trsmUpperLeft tA tB A d B X

/-- `blas3_triangular_matrix_matrix_solve.hpp:358-372`
`triangular_matrix_matrix_right_solve(A, t, d, B, X)`. -/
def trsmRight (tA tB : T) (A : MatV D) (t : Triangle) (d : Diag) (B : MatV D) (X : TMat T) :
    Prog D Unit :=
  match t with
  | .lower => trsmLowerRight tA tB A d B X
  | .upper => trsmUpperRight tA tB A d B X

/-! ## Reductions -/

variable [MixedMag D T]

/-- `blas1_vector_sum_of_squares.hpp:91-126` `vector_sum_of_squares`; `scale` and `ssq` have type
`Scalar`, which is `R`; `absxi` and `quotient` have the types of their initialisers. -/
def vectorSumOfSquares (R : T) (x : VecV D) (init : SumOfSquaresOf D) : Prog D (SumOfSquaresOf D) :=
  if x.ext = 0 then pure init else
  foldEach (List.range' 0 x.ext) init fun s i => do
    let v ← x.get i
    if MixedMag.isZero (MixedMag.abs v) then pure s else do
      let v ← x.get i
      let absxi := MixedMag.abs v
      if MixedMag.lt s.scalingFactor absxi then
        let quotient := s.scalingFactor / absxi
        pure ⟨MixedOps.conv R absxi,
          MixedOps.conv R (MixedMag.one R + s.scaledSumOfSquares * quotient * quotient)⟩
      else
        let quotient := absxi / s.scalingFactor
        pure ⟨s.scalingFactor, MixedOps.conv R (s.scaledSumOfSquares + quotient * quotient)⟩

/-- `blas1_vector_norm2.hpp:83-100` `vector_two_norm` with `init` of type `Scalar`, which is `R`. -/
def vectorTwoNorm (R : T) (x : VecV D) (init : D) : Prog D D := do
  let r ← vectorSumOfSquares R x ⟨MixedOps.zero R, MixedMag.one R⟩
  pure (MixedOps.conv R (init + r.scalingFactor * MixedMag.sqrt r.scaledSumOfSquares))

/-- `blas1_vector_norm2.hpp:157-163` `vector_two_norm` without `init`: `Scalar` is
`decltype(abs(x(0)) * abs(x(0)))`; `tx` is the type of `abs(x(0))`. -/
def vectorTwoNorm0 (tx : T) (x : VecV D) : Prog D D :=
  vectorTwoNorm (MixedOps.mulTy D tx tx) x (MixedOps.zero (MixedOps.mulTy D tx tx))

/-- `blas1_vector_abs_sum.hpp:82-108` `vector_abs_sum` with `init`, for arithmetic element types. -/
def vectorAbsSum (R : T) (v : VecV D) (init : D) : Prog D D :=
  foldEach (List.range' 0 v.ext) init fun s i => do
    let a ← v.get i
    pure (MixedOps.conv R (s + MixedMag.abs a))

end StdBLAS.Mixed

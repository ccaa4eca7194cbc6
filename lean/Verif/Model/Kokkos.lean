import Verif.Core.Parallel
import Verif.Core.Scalar
import Verif.Model.Blas1
import Verif.Model.Views

/-!
# The Kokkos backend

`tpl-implementations/include/experimental/__p1673_bits/kokkos-kernels/`, called `kk/` below.

Modelled: the algorithms whose loops are written in the repository (`Kokkos::parallel_for`,
`Kokkos::parallel_reduce`).  Not modelled: the algorithms that only forward to the external
library KokkosKernels (`add`, `scale`, `dot` with a conjugated argument,
`vector_idx_abs_max`, overwriting `matrix_vector_product` and `matrix_product`, the
triangular solves, the triangular products with explicit diagonal) and `copy` between equal
layouts (`Kokkos::deep_copy`).

All these overloads take mdspans with `default_accessor`, except the second one of
`matrix_rank_1_update`.
-/

namespace StdBLAS
variable {α : Type}

/-! ## kk/mdspan_to_view_mapper_kk.hpp -/

/-- A rank-1 mdspan as the backend sees it: data handle, extent, and the stride of its
layout (`layout_left`, `layout_right`: 1; `layout_stride`: any). -/
structure KVec where
  ext : Nat
  base : Nat
  stride : Nat

/-- The mdspan that the caller passes. -/
def KVec.mdspan (x : KVec) : Vec := ⟨x.ext, fun i => x.base + x.stride * i⟩

/-- `kk/mdspan_to_view_mapper_kk.hpp:60-69` `mdspan_to_view` for rank 1:
`Kokkos::View<T*>(data_handle, extent(0))`, contiguous whatever the layout of the mdspan. -/
def KVec.view (x : KVec) : Vec := ⟨x.ext, fun i => x.base + i⟩

/-- A rank-2 mdspan as the backend sees it: the mdspan, and whether its layout is a
`layout_transpose`.  Generalisation: the nested layout can only be `layout_left` or
`layout_right` (`LayoutMapper`); here it is any layout. -/
structure KMat extends Mat where
  transposed : Bool

/-- `kk/mdspan_to_view_mapper_kk.hpp:77-89` and `131-145` `mdspan_to_view` for rank 2: the
view of the mdspan, or of the nested mdspan if the layout is a `layout_transpose`. -/
def KMat.view (A : KMat) : Mat := if A.transposed then A.toMat.transposed else A.toMat

/-! ## kk/parallel_matrix.hpp -/

/-- `kk/parallel_matrix.hpp:60-80` `for_each_matrix_element`. -/
def forEachMatrixElement (A : Mat) (action : Nat → Nat → Task α Unit) : Sched α Unit :=
  if A.rows > A.cols then
    parFor A.rows fun i => Task.forUp 0 A.cols fun j => action i j
  else
    parFor A.cols fun j => Task.forUp 0 A.rows fun i => action i j

/-- `kk/parallel_matrix.hpp:82-92` `for_each_triangle_matrix_element(upper_triangle, ...)`. -/
def forEachUpperElement (A : Mat) (action : Nat → Nat → Task α Unit) : Sched α Unit :=
  parFor A.cols fun j => Task.forUp 0 (j + 1) fun i => action i j

/-- `kk/parallel_matrix.hpp:82-100` `for_each_triangle_matrix_element`. -/
def forEachTriangleElement (A : Mat) (t : Triangle) (action : Nat → Nat → Task α Unit) :
    Sched α Unit :=
  match t with
  | .upper => forEachUpperElement A action
  | .lower => forEachUpperElement A fun i j => action j i

/-- `C(i, j) += v`: the compound assignment of the kernels. -/
def Mat.incr [Add α] (C : Mat) (i j : Nat) (v : α) : Task α Unit := do
  let c ← C.rd i j
  C.wr i j (c + v)

/-- A run-time check of extents: `if (!c) throw std::runtime_error(...)`. -/
def require (c : Prop) [Decidable c] : Sched α Unit := if c then pure () else Sched.throw

/-! ## kk/blas1_copy_kk.hpp, kk/blas1_swap_elements_kk.hpp -/

/-- `kk/blas1_copy_kk.hpp:17-64`, the branch for rank 2 and different layouts (49-54).
There is no check of the extents. -/
def kkCopy2 (x y : KMat) : Sched α Unit :=
  parFor x.view.rows fun i => Task.forUp 0 x.view.cols fun j => do
    let v ← x.view.rd i j
    y.view.wr i j v

/-- `kk/blas1_swap_elements_kk.hpp:47-104`, rank 1 (85-90, and 14-21 for the swap). -/
def kkSwap1 (x y : KVec) : Sched α Unit := do
  require (x.ext = y.ext)
  parFor x.view.ext fun i => do
    let tmp ← x.view.rd i
    let b ← y.view.rd i
    x.view.wr i b
    y.view.wr i tmp

/-- `kk/blas1_swap_elements_kk.hpp:47-104`, rank 2 (92-99). -/
def kkSwap2 (x y : KMat) : Sched α Unit := do
  require (x.rows = y.rows)
  require (x.cols = y.cols)
  parFor x.view.rows fun i => Task.forUp 0 x.view.cols fun j => do
    let tmp ← x.view.rd i j
    let b ← y.view.rd i j
    x.view.wr i j b
    y.view.wr i j tmp

/-! ## Reductions -/

/-- `kk/blas1_dot_kk.hpp:20-68` `dot`. -/
def kkDot [Add α] [Mul α] [Zero α] (x y : KVec) (init : α) : Sched α α := do
  require (x.ext = y.ext)
  let result ← parReduce x.view.ext (fun i (update : α) => do
    let a ← x.view.look i
    let b ← y.view.look i
    pure (update + a * b)) 0 (fun a b => a + b)
  pure (result + init)

/-- `kk/blas1_vector_abs_sum_kk.hpp:16-38` `vector_abs_sum`.  Simplification: `Scalar` is
the reals. -/
noncomputable def kkAbsSum [AbsOps α] (x : KVec) (init : ℝ) : Sched α ℝ := do
  let result ← parReduce x.view.ext (fun i (update : ℝ) => do
    let a ← x.view.look i
    pure (update + AbsOps.abs a)) 0 (fun a b => a + b)
  pure (result + init)

/-- `kk/blas1_vector_norm2_kk.hpp:14-43` `vector_norm2`. -/
noncomputable def kkNorm2 [AbsOps α] (x : KVec) (init : ℝ) : Sched α ℝ := do
  let result ← parReduce x.view.ext (fun i (update : ℝ) => do
    let a ← x.view.look i
    let tmp := AbsOps.abs a
    pure (update + tmp * tmp)) 0 (fun a b => a + b)
  pure (Real.sqrt (result + init))

/-- Division that reports division by zero. -/
noncomputable def divLook (a b : ℝ) : Rd α ℝ :=
  open Classical in if b = 0 then Rd.fail .divZero else pure (a / b)

/-- `kk/blas1_vector_sum_of_squares_kk.hpp:15-54` `vector_sum_of_squares`.  `low` is the
identity value of `Kokkos::Max<Scalar>` (the lowest value of the type). -/
noncomputable def kkSumOfSquares [AbsOps α] (low : ℝ) (x : KVec) (init : SumOfSquares) :
    Sched α SumOfSquares := do
  let scalingFactor ← parReduce x.view.ext (fun i (lmax : ℝ) => do
    let a ← x.view.look i
    pure (max lmax (AbsOps.abs a))) low max
  let resultScaling := max scalingFactor init.scalingFactor
  let ssq ← parReduce x.view.ext (fun i (update : ℝ) => do
    let a ← x.view.look i
    let tmp ← divLook (AbsOps.abs a) resultScaling
    pure (update + tmp * tmp)) 0 (fun a b => a + b)
  let old ← Sched.lift (divChecked
    (init.scalingFactor * init.scalingFactor * init.scaledSumOfSquares)
    (scalingFactor * scalingFactor))
  pure ⟨resultScaling, ssq + old⟩

/-- `kk/blas1_matrix_frob_norm_kk.hpp:16-71` `matrix_frob_norm`. -/
noncomputable def kkFrobNorm [AbsOps α] (low : ℝ) (A : KMat) (init : ℝ) : Sched α ℝ :=
  if A.rows = 0 ∨ A.cols = 0 then pure init
  else if A.rows = 1 ∧ A.cols = 1 then do
    let a ← Sched.lift (A.toMat.get 0 0)
    pure (init + AbsOps.abs a)
  else do
    let scalingFactor ← parReduce (A.view.rows * A.view.cols) (fun k (lmax : ℝ) => do
      let a ← A.view.look (k / A.view.cols) (k % A.view.cols)
      pure (max lmax (AbsOps.abs a))) low max
    let ssq ← parReduce (A.view.rows * A.view.cols) (fun k (update : ℝ) => do
      let a ← A.view.look (k / A.view.cols) (k % A.view.cols)
      let tmp ← divLook (AbsOps.abs a) scalingFactor
      pure (update + tmp * tmp)) 0 (fun a b => a + b)
    pure (Real.sqrt (init + scalingFactor * scalingFactor * ssq))

/-- `kk/blas1_matrix_inf_norm_kk.hpp:16-49` `matrix_inf_norm`. -/
noncomputable def kkInfNorm [AbsOps α] (low : ℝ) (A : KMat) (init : ℝ) : Sched α ℝ :=
  if A.rows = 0 ∨ A.cols = 0 then pure init
  else do
    let result ← parReduce A.view.rows (fun i (update : ℝ) => do
      let a ← A.view.look i 0
      let mysum ← Rd.foldUp 1 A.view.cols (AbsOps.abs a) fun s j => do
        let b ← A.view.look i j
        pure (s + AbsOps.abs b)
      pure (max update mysum)) low max
    pure (init + result)

/-- `kk/blas1_matrix_one_norm_kk.hpp:16-49` `matrix_one_norm`.  Only `extent(1)` is tested
for zero. -/
noncomputable def kkOneNorm [AbsOps α] (low : ℝ) (A : KMat) (init : ℝ) : Sched α ℝ :=
  if A.cols = 0 then pure init
  else do
    let result ← parReduce A.view.cols (fun j (update : ℝ) => do
      let a ← A.view.look 0 j
      let mysum ← Rd.foldUp 1 A.view.rows (AbsOps.abs a) fun s i => do
        let b ← A.view.look i j
        pure (s + AbsOps.abs b)
      pure (max update mysum)) low max
    pure (init + result)

/-! ## Matrix-vector products -/

/-- `kk/blas2_gemv_kk.hpp:108-172` updating `matrix_vector_product`: `y(i)` is added in every
iteration of the inner loop. -/
def kkGemvUpdate [Add α] [Mul α] [Zero α] (A : KMat) (x y z : KVec) : Sched α Unit := do
  require (A.cols = x.ext)
  require (A.rows = y.ext)
  require (A.rows = z.ext)
  parFor z.view.ext fun i => do
    let zi ← Task.foldUp 0 A.view.cols (0 : α) fun s j => do
      let yi ← y.view.rd i
      let a ← A.view.rd i j
      let xj ← x.view.rd j
      pure (s + (yi + a * xj))
    z.view.wr i zi

/-- The inner loops of the symmetric and Hermitian products, `kk/blas2_symv_kk.hpp:79-85`,
`102-108` (`c` the identity) and `kk/blas2_hemv_kk.hpp:96-104`, `119-127` (`c` is `conj`). -/
def kkSymRow [Add α] [Mul α] [Zero α] (c : α → α) (A : Mat) (t : Triangle) (x : Vec) (i : Nat) :
    Task α α :=
  match t with
  | .upper => do
    let s ← Task.foldUp i A.cols (0 : α) fun s j => do
      let a ← A.rd i j
      let xj ← x.rd j
      pure (s + a * xj)
    Task.foldUp 0 i s fun s j => do
      let a ← A.rd j i
      let xj ← x.rd j
      pure (s + c a * xj)
  | .lower => do
    let s ← Task.foldUp 0 (i + 1) (0 : α) fun s j => do
      let a ← A.rd i j
      let xj ← x.rd j
      pure (s + a * xj)
    Task.foldUp (i + 1) A.cols s fun s j => do
      let a ← A.rd j i
      let xj ← x.rd j
      pure (s + c a * xj)

/-- The run-time checks of the square matrix-vector products, `kk/blas2_symv_kk.hpp:50-58`,
`kk/blas2_hemv_kk.hpp:59-67`, `kk/blas2_triangular_mat_vec_product.hpp:51-59`. -/
def kkCheckSquare (A : KMat) (x y : KVec) : Sched α Unit := do
  require (A.rows = A.cols)
  require (A.cols = x.ext)
  require (A.rows = y.ext)

/-- `kk/blas2_symv_kk.hpp:29-118` `symmetric_matrix_vector_product(A, t, x, y)`. -/
def kkSymv [Add α] [Mul α] [Zero α] (A : KMat) (t : Triangle) (x y : KVec) : Sched α Unit := do
  kkCheckSquare A x y
  parFor A.view.rows fun i => do
    let lsum ← kkSymRow id A.view t x.view i
    y.view.wr i lsum

/-- `kk/blas2_symv_kk.hpp:143-238` `symmetric_matrix_vector_product(A, t, x, y, z)`. -/
def kkSymvUpdate [Add α] [Mul α] [Zero α] (A : KMat) (t : Triangle) (x y z : KVec) :
    Sched α Unit := do
  kkCheckSquare A x y
  require (A.rows = z.ext)
  parFor A.view.rows fun i => do
    let lsum ← kkSymRow id A.view t x.view i
    let yi ← y.view.rd i
    z.view.wr i (yi + lsum)

/-- `kk/blas2_hemv_kk.hpp:39-134` `hermitian_matrix_vector_product(A, t, x, y)`.  For element
types other than `std::complex` it calls `symmetric_matrix_vector_product` (75-76), which is
the same function when `conj` is the identity. -/
def kkHemv [Add α] [Mul α] [Zero α] [ConjOps α] (A : KMat) (t : Triangle) (x y : KVec) :
    Sched α Unit := do
  kkCheckSquare A x y
  parFor A.view.rows fun i => do
    let lsum ← kkSymRow ConjOps.conj A.view t x.view i
    y.view.wr i lsum

/-- `kk/blas2_hemv_kk.hpp:159-264` `hermitian_matrix_vector_product(A, t, x, y, z)`. -/
def kkHemvUpdate [Add α] [Mul α] [Zero α] [ConjOps α] (A : KMat) (t : Triangle) (x y z : KVec) :
    Sched α Unit := do
  kkCheckSquare A x y
  require (A.rows = z.ext)
  parFor A.view.rows fun i => do
    let lsum ← kkSymRow ConjOps.conj A.view t x.view i
    let yi ← y.view.rd i
    z.view.wr i (yi + lsum)

/-- The inner loops of the triangular products,
`kk/blas2_triangular_mat_vec_product.hpp:82-91`, `106-115`. -/
def kkTriRow [Add α] [Mul α] [Zero α] (A : Mat) (t : Triangle) (d : Diag) (x : Vec) (i : Nat) :
    Task α α := do
  let lsum ← match t with
    | .upper =>
      Task.foldUp (if d = .implicitUnit then i + 1 else i) A.cols (0 : α) fun s j => do
        let a ← A.rd i j
        let xj ← x.rd j
        pure (s + a * xj)
    | .lower =>
      Task.foldUp 0 (if d = .implicitUnit then i else i + 1) (0 : α) fun s j => do
        let a ← A.rd i j
        let xj ← x.rd j
        pure (s + a * xj)
  if d = .implicitUnit then do
    let xi ← x.rd i
    pure (lsum + xi)
  else pure lsum

/-- `kk/blas2_triangular_mat_vec_product.hpp:30-123`
`triangular_matrix_vector_product(A, t, d, x, y)`. -/
def kkTrmv [Add α] [Mul α] [Zero α] (A : KMat) (t : Triangle) (d : Diag) (x y : KVec) :
    Sched α Unit := do
  kkCheckSquare A x y
  parFor A.view.rows fun i => do
    let lsum ← kkTriRow A.view t d x.view i
    y.view.wr i lsum

/-- `kk/blas2_triangular_mat_vec_product.hpp:149-258`
`triangular_matrix_vector_product(A, t, d, x, y, z)`. -/
def kkTrmvUpdate [Add α] [Mul α] [Zero α] (A : KMat) (t : Triangle) (d : Diag) (x y z : KVec) :
    Sched α Unit := do
  kkCheckSquare A x y
  require (A.rows = z.ext)
  parFor A.view.rows fun i => do
    let lsum ← kkTriRow A.view t d x.view i
    let yi ← y.view.rd i
    z.view.wr i (yi + lsum)

/-! ## Rank-1 and rank-2 updates -/

/-- `kk/blas2_matrix_rank_1_update.hpp:69-105` `matrix_rank_1_update`. -/
def kkGer [Add α] [Mul α] (x y : KVec) (A : KMat) : Sched α Unit := do
  require (A.rows = x.ext)
  require (A.cols = y.ext)
  forEachMatrixElement A.view fun i j => do
    let a ← x.view.rd i
    let b ← y.view.rd j
    A.view.incr i j (a * b)

/-- `kk/blas2_matrix_rank_1_update.hpp:119-158` `matrix_rank_1_update` with a conjugated `y`
(called by `matrix_rank_1_update_c`); `y` is the mdspan without its conjugation. -/
def kkGerc [Add α] [Mul α] [ConjOps α] (x y : KVec) (A : KMat) : Sched α Unit := do
  require (A.rows = x.ext)
  require (A.cols = y.ext)
  forEachMatrixElement A.view fun i j => do
    let a ← x.view.rd i
    let b ← y.view.rd j
    A.view.incr i j (a * ConjOps.conj b)

/-- `kk/blas2_matrix_rank_1_update.hpp:174-207` `symmetric_matrix_rank_1_update`. -/
def kkSyr [Add α] [Mul α] (x : KVec) (A : KMat) (t : Triangle) : Sched α Unit := do
  require (A.rows = A.cols)
  require (A.rows = x.ext)
  forEachTriangleElement A.view t fun i j => do
    let a ← x.view.rd i
    let b ← x.view.rd j
    A.view.incr i j (a * b)

/-- `kk/blas2_matrix_rank_1_update.hpp:224-259` `hermitian_matrix_rank_1_update`.  The
diagonal is not made real. -/
def kkHer [Add α] [Mul α] [ConjOps α] (x : KVec) (A : KMat) (t : Triangle) : Sched α Unit := do
  require (A.rows = A.cols)
  require (A.rows = x.ext)
  forEachTriangleElement A.view t fun i j => do
    let a ← x.view.rd i
    let b ← x.view.rd j
    A.view.incr i j (a * ConjOps.conj b)

/-- `kk/blas2_matrix_rank_2_update.hpp:72-114` `symmetric_matrix_rank_2_update`. -/
def kkSyr2 [Add α] [Mul α] (x y : KVec) (A : KMat) (t : Triangle) : Sched α Unit := do
  require (A.rows = A.cols)
  require (A.rows = x.ext)
  require (A.rows = y.ext)
  forEachTriangleElement A.view t fun i j => do
    let a ← x.view.rd i
    let b ← y.view.rd j
    let c ← y.view.rd i
    let d ← x.view.rd j
    A.view.incr i j (a * b + c * d)

/-- `kk/blas2_matrix_rank_2_update.hpp:133-178` `hermitian_matrix_rank_2_update`. -/
def kkHer2 [Add α] [Mul α] [ConjOps α] (x y : KVec) (A : KMat) (t : Triangle) :
    Sched α Unit := do
  require (A.rows = A.cols)
  require (A.rows = x.ext)
  require (A.rows = y.ext)
  forEachTriangleElement A.view t fun i j => do
    let a ← x.view.rd i
    let b ← y.view.rd j
    let c ← y.view.rd i
    let d ← x.view.rd j
    A.view.incr i j (a * ConjOps.conj b + c * ConjOps.conj d)

/-! ## Rank-k and rank-2k updates -/

/-- `kk/blas3_matrix_rank_k_update.hpp:28-69` `symmetric_matrix_rank_k_update`. -/
def kkSyrk [Add α] [Mul α] (alpha : α) (A C : KMat) (t : Triangle) : Sched α Unit := do
  require (A.rows = C.rows)
  require (C.rows = C.cols)
  forEachTriangleElement C.view t fun i j =>
    Task.forUp 0 A.cols fun k => do
      let a ← A.view.rd i k
      let b ← A.view.rd j k
      C.view.incr i j (alpha * a * b)

/-- `kk/blas3_matrix_rank_k_update.hpp:87-129` `hermitian_matrix_rank_k_update`. -/
def kkHerk [Add α] [Mul α] [ConjOps α] (alpha : α) (A C : KMat) (t : Triangle) :
    Sched α Unit := do
  require (A.rows = C.rows)
  require (C.rows = C.cols)
  forEachTriangleElement C.view t fun i j =>
    Task.forUp 0 A.cols fun k => do
      let a ← A.view.rd i k
      let b ← A.view.rd j k
      C.view.incr i j (alpha * a * ConjOps.conj b)

/-- `kk/blas3_matrix_rank_2k_update.hpp:32-84` `symmetric_matrix_rank_2k_update`. -/
def kkSyr2k [Add α] [Mul α] (A B C : KMat) (t : Triangle) : Sched α Unit := do
  require (A.rows = C.rows)
  require (B.rows = C.rows)
  require (C.rows = C.cols)
  require (A.cols = B.cols)
  forEachTriangleElement C.view t fun i j =>
    Task.forUp 0 A.cols fun k => do
      let a ← A.view.rd i k
      let b ← B.view.rd j k
      let c ← B.view.rd i k
      let d ← A.view.rd j k
      C.view.incr i j (a * b + c * d)

/-- `kk/blas3_matrix_rank_2k_update.hpp:105-159` `hermitian_matrix_rank_2k_update`. -/
def kkHer2k [Add α] [Mul α] [ConjOps α] (A B C : KMat) (t : Triangle) : Sched α Unit := do
  require (A.rows = C.rows)
  require (B.rows = C.rows)
  require (C.rows = C.cols)
  require (A.cols = B.cols)
  forEachTriangleElement C.view t fun i j =>
    Task.forUp 0 A.cols fun k => do
      let a ← A.view.rd i k
      let b ← B.view.rd j k
      let c ← B.view.rd i k
      let d ← A.view.rd j k
      C.view.incr i j (a * ConjOps.conj b + c * ConjOps.conj d)

/-! ## Matrix-matrix products -/

/-- `kk/blas3_matrix_product_kk.hpp:104-125` `check_left_product` (with `check_product`,
65-84). -/
def kkCheckLeft (A B C : KMat) : Sched α Unit := do
  require (A.rows = A.cols)
  require (A.cols = B.rows)
  require (A.rows = C.rows)
  require (B.cols = C.cols)

/-- `kk/blas3_matrix_product_kk.hpp:135-156` `check_right_product`. -/
def kkCheckRight (A B C : KMat) : Sched α Unit := do
  require (A.rows = A.cols)
  require (B.cols = A.rows)
  require (B.rows = C.rows)
  require (A.cols = C.cols)

/-- `kk/blas3_matrix_product_kk.hpp:85-102` `check_E`. -/
def kkCheckE (E C : KMat) : Sched α Unit := do
  require (E.rows = C.rows)
  require (E.cols = C.cols)

/-- `kk/blas3_matrix_product_kk.hpp:172-189` `product_impl`: `init` gives the first value of
`C(i,j)` (191-203 zero, 205-218 `E(i,j)`); `term i j k` is what `update` adds. -/
def kkProduct [Add α] (A C : KMat) (init : Nat → Nat → Task α α)
    (term : Nat → Nat → Nat → Task α α) : Sched α Unit :=
  forEachMatrixElement C.view fun i j => do
    let c0 ← init i j
    C.view.wr i j c0
    Task.forUp 0 A.view.cols fun k => do
      let v ← term i j k
      C.view.incr i j v

/-- `kk/blas3_matrix_product_kk.hpp:363-365`, `416-418` (symmetric, `c` the identity) and
`562-564`, `616-618` (Hermitian, `c` is `conj`): `A(i,k) * B(k,j)` from one triangle of `A`. -/
def kkLeftTerm [Mul α] (c : α → α) (t : Triangle) (A B : KMat) (i j k : Nat) : Task α α := do
  let flip : Bool := match t with
    | .lower => i ≤ k
    | .upper => i ≥ k
  let aik ← if flip then do let v ← A.view.rd k i; pure (c v) else A.view.rd i k
  let b ← B.view.rd k j
  pure (aik * b)

/-- `kk/blas3_matrix_product_kk.hpp:462-464`, `515-517`, `663-665`, `717-719`:
`B(i,k) * A(k,j)` from one triangle of `A`.  `B` is accessed through the mdspan, not through
its view. -/
def kkRightTerm [Mul α] (c : α → α) (t : Triangle) (A B : KMat) (i j k : Nat) : Task α α := do
  let flip : Bool := match t with
    | .lower => j ≥ k
    | .upper => j ≤ k
  let akj ← if flip then do let v ← A.view.rd j k; pure (c v) else A.view.rd k j
  let b ← B.toMat.rd i k
  pure (b * akj)

/-- `kk/blas3_matrix_product_kk.hpp:344-367` `symmetric_matrix_left_product(A, t, B, C)`. -/
def kkSymmLeft [Add α] [Mul α] [Zero α] (A : KMat) (t : Triangle) (B C : KMat) :
    Sched α Unit := do
  kkCheckLeft A B C
  kkProduct A C (fun _ _ => pure 0) (kkLeftTerm id t A B)

/-- `kk/blas3_matrix_product_kk.hpp:395-420` `symmetric_matrix_left_product(A, t, B, E, C)`. -/
def kkSymmLeftUpdate [Add α] [Mul α] (A : KMat) (t : Triangle) (B E C : KMat) :
    Sched α Unit := do
  kkCheckLeft A B C
  kkCheckE E C
  kkProduct A C (fun i j => E.view.rd i j) (kkLeftTerm id t A B)

/-- `kk/blas3_matrix_product_kk.hpp:443-466` `symmetric_matrix_right_product(A, t, B, C)`. -/
def kkSymmRight [Add α] [Mul α] [Zero α] (A : KMat) (t : Triangle) (B C : KMat) :
    Sched α Unit := do
  kkCheckRight A B C
  kkProduct A C (fun _ _ => pure 0) (kkRightTerm id t A B)

/-- `kk/blas3_matrix_product_kk.hpp:494-519` `symmetric_matrix_right_product(A, t, B, E, C)`. -/
def kkSymmRightUpdate [Add α] [Mul α] (A : KMat) (t : Triangle) (B E C : KMat) :
    Sched α Unit := do
  kkCheckRight A B C
  kkCheckE E C
  kkProduct A C (fun i j => E.view.rd i j) (kkRightTerm id t A B)

/-- `kk/blas3_matrix_product_kk.hpp:542-566` `hermitian_matrix_left_product(A, t, B, C)`. -/
def kkHemmLeft [Add α] [Mul α] [Zero α] [ConjOps α] (A : KMat) (t : Triangle) (B C : KMat) :
    Sched α Unit := do
  kkCheckLeft A B C
  kkProduct A C (fun _ _ => pure 0) (kkLeftTerm ConjOps.conj t A B)

/-- `kk/blas3_matrix_product_kk.hpp:594-620` `hermitian_matrix_left_product(A, t, B, E, C)`. -/
def kkHemmLeftUpdate [Add α] [Mul α] [ConjOps α] (A : KMat) (t : Triangle) (B E C : KMat) :
    Sched α Unit := do
  kkCheckLeft A B C
  kkCheckE E C
  kkProduct A C (fun i j => E.view.rd i j) (kkLeftTerm ConjOps.conj t A B)

/-- `kk/blas3_matrix_product_kk.hpp:643-667` `hermitian_matrix_right_product(A, t, B, C)`. -/
def kkHemmRight [Add α] [Mul α] [Zero α] [ConjOps α] (A : KMat) (t : Triangle) (B C : KMat) :
    Sched α Unit := do
  kkCheckRight A B C
  kkProduct A C (fun _ _ => pure 0) (kkRightTerm ConjOps.conj t A B)

/-- `kk/blas3_matrix_product_kk.hpp:695-721` `hermitian_matrix_right_product(A, t, B, E, C)`.
The extents of `E` are not checked (707). -/
def kkHemmRightUpdate [Add α] [Mul α] [ConjOps α] (A : KMat) (t : Triangle) (B E C : KMat) :
    Sched α Unit := do
  kkCheckRight A B C
  kkProduct A C (fun i j => E.view.rd i j) (kkRightTerm ConjOps.conj t A B)

/-- `kk/blas3_matrix_product_kk.hpp:248-279` `trmm_left`: a sequential loop over the rows
around a parallel loop over the columns.  Assumption: kernels submitted to one execution
space run in the order of submission (there is no fence between them). -/
def kkTrmmLeftViews [Add α] [Mul α] [Zero α] (t : Triangle) (d : Diag) (A B C : Mat) :
    Sched α Unit :=
  Sched.forEach (List.range C.rows) fun ii =>
    let i := if t = .lower then C.rows - 1 - ii else ii
    parFor C.cols fun j => do
      let k0 := if t = .lower then 0 else (if d = .explicit then i else i + 1)
      let k1 := if t = .lower then (if d = .explicit then i + 1 else i) else C.rows
      let s ← Task.foldUp k0 k1 (0 : α) fun s k => do
        let a ← A.rd i k
        let b ← B.rd k j
        pure (s + a * b)
      let s ← if d = .implicitUnit then do
          let b ← B.rd i j
          pure (s + b)
        else pure s
      C.wr i j s

/-- `kk/blas3_matrix_product_kk.hpp:287-319` `trmm_right`. -/
def kkTrmmRightViews [Add α] [Mul α] [Zero α] (t : Triangle) (d : Diag) (A B C : Mat) :
    Sched α Unit :=
  Sched.forEach (List.range C.cols) fun jj =>
    let j := if t = .lower then jj else C.cols - 1 - jj
    parFor C.rows fun i => do
      let k0 := if t = .lower then (if d = .explicit then j else j + 1) else 0
      let k1 := if t = .lower then C.cols else (if d = .explicit then j + 1 else j)
      let s ← Task.foldUp k0 k1 (0 : α) fun s k => do
        let b ← B.rd i k
        let a ← A.rd k j
        pure (s + b * a)
      let s ← if d = .implicitUnit then do
          let b ← B.rd i j
          pure (s + b)
        else pure s
      C.wr i j s

/-- `kk/blas3_matrix_product_kk.hpp:745-774` `triangular_matrix_left_product(A, t, d, B, C)`
with `d` the implicit unit diagonal (with an explicit diagonal it calls KokkosBlas). -/
def kkTrmmLeft [Add α] [Mul α] [Zero α] (A : KMat) (t : Triangle) (B C : KMat) :
    Sched α Unit := do
  kkCheckLeft A B C
  kkTrmmLeftViews t .implicitUnit A.view B.view C.view

/-- `kk/blas3_matrix_product_kk.hpp:793-818` `triangular_matrix_left_product(A, t, d, C)`, in
place, with the implicit unit diagonal. -/
def kkTrmmLeftInPlace [Add α] [Mul α] [Zero α] (A : KMat) (t : Triangle) (C : KMat) :
    Sched α Unit := do
  kkCheckLeft A C C
  kkTrmmLeftViews t .implicitUnit A.view C.view C.view

/-- `kk/blas3_matrix_product_kk.hpp:842-871` `triangular_matrix_right_product(A, t, d, B, C)`
with the implicit unit diagonal. -/
def kkTrmmRight [Add α] [Mul α] [Zero α] (A : KMat) (t : Triangle) (B C : KMat) :
    Sched α Unit := do
  kkCheckRight A B C
  kkTrmmRightViews t .implicitUnit A.view B.view C.view

/-- `kk/blas3_matrix_product_kk.hpp:890-915` `triangular_matrix_right_product(A, t, d, C)`, in
place, with the implicit unit diagonal. -/
def kkTrmmRightInPlace [Add α] [Mul α] [Zero α] (A : KMat) (t : Triangle) (C : KMat) :
    Sched α Unit := do
  kkCheckRight A C C
  kkTrmmRightViews t .implicitUnit A.view C.view C.view

end StdBLAS

import Verif.Core.Async
import Verif.Model.KokkosKernels

/-!
# The Kokkos backend: what is submitted and what is waited for

The functions of `Model/Kokkos.lean` and `Model/KokkosKernels.lean` once more, as programs of the host: which
loops they submit to the execution space, and where they wait (`ex.fence()`).  Paths as in
`Model/Kokkos.lean`.  `C79_same_work` and `C79_same_work_library` say that apart from the waiting they are
the functions of those two files.
-/

namespace StdBLAS
variable {α : Type}

/-- A run-time check of extents: `if (!c) throw std::runtime_error(...)`. -/
def Host.require (c : Prop) [Decidable c] : Host α Unit := if c then pure () else Host.throw

/-! ## kk/parallel_matrix.hpp -/

/-- `kk/parallel_matrix.hpp:60-80` `for_each_matrix_element`; the fence is in line 79. -/
def hostEachMatrixElement (A : Mat) (action : Nat → Nat → Task α Unit) : Host α Unit := do
  if A.rows > A.cols then
    Host.launch (parFor A.rows fun i => Task.forUp 0 A.cols fun j => action i j)
  else
    Host.launch (parFor A.cols fun j => Task.forUp 0 A.rows fun i => action i j)
  Host.fenced

/-- `kk/parallel_matrix.hpp:82-92` `for_each_triangle_matrix_element(upper_triangle, ...)`; the fence is in
line 91. -/
def hostEachUpperElement (A : Mat) (action : Nat → Nat → Task α Unit) : Host α Unit := do
  Host.launch (parFor A.cols fun j => Task.forUp 0 (j + 1) fun i => action i j)
  Host.fenced

/-- `kk/parallel_matrix.hpp:82-100` `for_each_triangle_matrix_element`. -/
def hostEachTriangleElement (A : Mat) (t : Triangle) (action : Nat → Nat → Task α Unit) :
    Host α Unit :=
  match t with
  | .upper => hostEachUpperElement A action
  | .lower => hostEachUpperElement A fun i j => action j i

/-! ## Loops with a fence

The fences: `kk/blas1_copy_kk.hpp:61`, `kk/blas1_swap_elements_kk.hpp:102`, `kk/blas2_gemv_kk.hpp:170`,
`kk/blas2_symv_kk.hpp:91`, `114`, `213`, `234`, `kk/blas2_hemv_kk.hpp:109`, `131`, `239`, `261`,
`kk/blas2_triangular_mat_vec_product.hpp:96`, `120`, `229`, `255`; all others in
`kk/parallel_matrix.hpp`. -/

/-- `kk/blas1_copy_kk.hpp:17-64`, the branch for rank 2 and different layouts (49-54).
There is no check of the extents. -/
def hostCopy2 (x y : KMat) : Host α Unit := do
  Host.launch (parFor x.view.rows fun i => Task.forUp 0 x.view.cols fun j => do
    let v ← x.view.rd i j
    y.view.wr i j v)
  Host.fenced

/-- `kk/blas1_swap_elements_kk.hpp:47-104`, rank 1 (85-90, and 14-21 for the swap). -/
def hostSwap1 (x y : KVec) : Host α Unit := do
  Host.require (x.ext = y.ext)
  Host.launch (parFor x.view.ext fun i => do
    let tmp ← x.view.rd i
    let b ← y.view.rd i
    x.view.wr i b
    y.view.wr i tmp)
  Host.fenced

/-- `kk/blas1_swap_elements_kk.hpp:47-104`, rank 2 (92-99). -/
def hostSwap2 (x y : KMat) : Host α Unit := do
  Host.require (x.rows = y.rows)
  Host.require (x.cols = y.cols)
  Host.launch (parFor x.view.rows fun i => Task.forUp 0 x.view.cols fun j => do
    let tmp ← x.view.rd i j
    let b ← y.view.rd i j
    x.view.wr i j b
    y.view.wr i j tmp)
  Host.fenced

/-- `kk/blas2_gemv_kk.hpp:108-172` updating `matrix_vector_product`: `y(i)` is added in every
iteration of the inner loop. -/
def hostGemvUpdate [Add α] [Mul α] [Zero α] (A : KMat) (x y z : KVec) : Host α Unit := do
  Host.require (A.cols = x.ext)
  Host.require (A.rows = y.ext)
  Host.require (A.rows = z.ext)
  Host.launch (parFor z.view.ext fun i => do
    let zi ← Task.foldUp 0 A.view.cols (0 : α) fun s j => do
      let yi ← y.view.rd i
      let a ← A.view.rd i j
      let xj ← x.view.rd j
      pure (s + (yi + a * xj))
    z.view.wr i zi)
  Host.fenced

/-- The run-time checks of the square matrix-vector products, `kk/blas2_symv_kk.hpp:50-58`,
`kk/blas2_hemv_kk.hpp:59-67`, `kk/blas2_triangular_mat_vec_product.hpp:51-59`. -/
def hostCheckSquare (A : KMat) (x y : KVec) : Host α Unit := do
  Host.require (A.rows = A.cols)
  Host.require (A.cols = x.ext)
  Host.require (A.rows = y.ext)

/-- `kk/blas2_symv_kk.hpp:29-118` `symmetric_matrix_vector_product(A, t, x, y)`. -/
def hostSymv [Add α] [Mul α] [Zero α] (A : KMat) (t : Triangle) (x y : KVec) : Host α Unit := do
  hostCheckSquare A x y
  Host.launch (parFor A.view.rows fun i => do
    let lsum ← kkSymRow id A.view t x.view i
    y.view.wr i lsum)
  Host.fenced

/-- `kk/blas2_symv_kk.hpp:143-238` `symmetric_matrix_vector_product(A, t, x, y, z)`. -/
def hostSymvUpdate [Add α] [Mul α] [Zero α] (A : KMat) (t : Triangle) (x y z : KVec) :
    Host α Unit := do
  hostCheckSquare A x y
  Host.require (A.rows = z.ext)
  Host.launch (parFor A.view.rows fun i => do
    let lsum ← kkSymRow id A.view t x.view i
    let yi ← y.view.rd i
    z.view.wr i (yi + lsum))
  Host.fenced

/-- `kk/blas2_hemv_kk.hpp:39-134` `hermitian_matrix_vector_product(A, t, x, y)`.  For element
types other than `std::complex` it calls `symmetric_matrix_vector_product` (75-76), which is
the same function when `conj` is the identity. -/
def hostHemv [Add α] [Mul α] [Zero α] [ConjOps α] (A : KMat) (t : Triangle) (x y : KVec) :
    Host α Unit := do
  hostCheckSquare A x y
  Host.launch (parFor A.view.rows fun i => do
    let lsum ← kkSymRow ConjOps.conj A.view t x.view i
    y.view.wr i lsum)
  Host.fenced

/-- `kk/blas2_hemv_kk.hpp:159-264` `hermitian_matrix_vector_product(A, t, x, y, z)`. -/
def hostHemvUpdate [Add α] [Mul α] [Zero α] [ConjOps α] (A : KMat) (t : Triangle) (x y z : KVec) :
    Host α Unit := do
  hostCheckSquare A x y
  Host.require (A.rows = z.ext)
  Host.launch (parFor A.view.rows fun i => do
    let lsum ← kkSymRow ConjOps.conj A.view t x.view i
    let yi ← y.view.rd i
    z.view.wr i (yi + lsum))
  Host.fenced

/-- `kk/blas2_triangular_mat_vec_product.hpp:30-123`
`triangular_matrix_vector_product(A, t, d, x, y)`. -/
def hostTrmv [Add α] [Mul α] [Zero α] (A : KMat) (t : Triangle) (d : Diag) (x y : KVec) :
    Host α Unit := do
  hostCheckSquare A x y
  Host.launch (parFor A.view.rows fun i => do
    let lsum ← kkTriRow A.view t d x.view i
    y.view.wr i lsum)
  Host.fenced

/-- `kk/blas2_triangular_mat_vec_product.hpp:149-258`
`triangular_matrix_vector_product(A, t, d, x, y, z)`. -/
def hostTrmvUpdate [Add α] [Mul α] [Zero α] (A : KMat) (t : Triangle) (d : Diag) (x y z : KVec) :
    Host α Unit := do
  hostCheckSquare A x y
  Host.require (A.rows = z.ext)
  Host.launch (parFor A.view.rows fun i => do
    let lsum ← kkTriRow A.view t d x.view i
    let yi ← y.view.rd i
    z.view.wr i (yi + lsum))
  Host.fenced

/-- `kk/blas2_matrix_rank_1_update.hpp:69-105` `matrix_rank_1_update`. -/
def hostGer [Add α] [Mul α] (x y : KVec) (A : KMat) : Host α Unit := do
  Host.require (A.rows = x.ext)
  Host.require (A.cols = y.ext)
  hostEachMatrixElement A.view fun i j => do
    let a ← x.view.rd i
    let b ← y.view.rd j
    A.view.incr i j (a * b)

/-- `kk/blas2_matrix_rank_1_update.hpp:119-158` `matrix_rank_1_update` with a conjugated `y`
(called by `matrix_rank_1_update_c`); `y` is the mdspan without its conjugation. -/
def hostGerc [Add α] [Mul α] [ConjOps α] (x y : KVec) (A : KMat) : Host α Unit := do
  Host.require (A.rows = x.ext)
  Host.require (A.cols = y.ext)
  hostEachMatrixElement A.view fun i j => do
    let a ← x.view.rd i
    let b ← y.view.rd j
    A.view.incr i j (a * ConjOps.conj b)

/-- `kk/blas2_matrix_rank_1_update.hpp:174-207` `symmetric_matrix_rank_1_update`. -/
def hostSyr [Add α] [Mul α] (x : KVec) (A : KMat) (t : Triangle) : Host α Unit := do
  Host.require (A.rows = A.cols)
  Host.require (A.rows = x.ext)
  hostEachTriangleElement A.view t fun i j => do
    let a ← x.view.rd i
    let b ← x.view.rd j
    A.view.incr i j (a * b)

/-- `kk/blas2_matrix_rank_1_update.hpp:224-259` `hermitian_matrix_rank_1_update`.  The
diagonal is not made real. -/
def hostHer [Add α] [Mul α] [ConjOps α] (x : KVec) (A : KMat) (t : Triangle) : Host α Unit := do
  Host.require (A.rows = A.cols)
  Host.require (A.rows = x.ext)
  hostEachTriangleElement A.view t fun i j => do
    let a ← x.view.rd i
    let b ← x.view.rd j
    A.view.incr i j (a * ConjOps.conj b)

/-- `kk/blas2_matrix_rank_2_update.hpp:72-114` `symmetric_matrix_rank_2_update`. -/
def hostSyr2 [Add α] [Mul α] (x y : KVec) (A : KMat) (t : Triangle) : Host α Unit := do
  Host.require (A.rows = A.cols)
  Host.require (A.rows = x.ext)
  Host.require (A.rows = y.ext)
  hostEachTriangleElement A.view t fun i j => do
    let a ← x.view.rd i
    let b ← y.view.rd j
    let c ← y.view.rd i
    let d ← x.view.rd j
    A.view.incr i j (a * b + c * d)

/-- `kk/blas2_matrix_rank_2_update.hpp:133-178` `hermitian_matrix_rank_2_update`. -/
def hostHer2 [Add α] [Mul α] [ConjOps α] (x y : KVec) (A : KMat) (t : Triangle) :
    Host α Unit := do
  Host.require (A.rows = A.cols)
  Host.require (A.rows = x.ext)
  Host.require (A.rows = y.ext)
  hostEachTriangleElement A.view t fun i j => do
    let a ← x.view.rd i
    let b ← y.view.rd j
    let c ← y.view.rd i
    let d ← x.view.rd j
    A.view.incr i j (a * ConjOps.conj b + c * ConjOps.conj d)

/-- `kk/blas3_matrix_rank_k_update.hpp:28-69` `symmetric_matrix_rank_k_update`. -/
def hostSyrk [Add α] [Mul α] (alpha : α) (A C : KMat) (t : Triangle) : Host α Unit := do
  Host.require (A.rows = C.rows)
  Host.require (C.rows = C.cols)
  hostEachTriangleElement C.view t fun i j =>
    Task.forUp 0 A.cols fun k => do
      let a ← A.view.rd i k
      let b ← A.view.rd j k
      C.view.incr i j (alpha * a * b)

/-- `kk/blas3_matrix_rank_k_update.hpp:87-129` `hermitian_matrix_rank_k_update`. -/
def hostHerk [Add α] [Mul α] [ConjOps α] (alpha : α) (A C : KMat) (t : Triangle) :
    Host α Unit := do
  Host.require (A.rows = C.rows)
  Host.require (C.rows = C.cols)
  hostEachTriangleElement C.view t fun i j =>
    Task.forUp 0 A.cols fun k => do
      let a ← A.view.rd i k
      let b ← A.view.rd j k
      C.view.incr i j (alpha * a * ConjOps.conj b)

/-- `kk/blas3_matrix_rank_2k_update.hpp:32-84` `symmetric_matrix_rank_2k_update`. -/
def hostSyr2k [Add α] [Mul α] (A B C : KMat) (t : Triangle) : Host α Unit := do
  Host.require (A.rows = C.rows)
  Host.require (B.rows = C.rows)
  Host.require (C.rows = C.cols)
  Host.require (A.cols = B.cols)
  hostEachTriangleElement C.view t fun i j =>
    Task.forUp 0 A.cols fun k => do
      let a ← A.view.rd i k
      let b ← B.view.rd j k
      let c ← B.view.rd i k
      let d ← A.view.rd j k
      C.view.incr i j (a * b + c * d)

/-- `kk/blas3_matrix_rank_2k_update.hpp:105-159` `hermitian_matrix_rank_2k_update`. -/
def hostHer2k [Add α] [Mul α] [ConjOps α] (A B C : KMat) (t : Triangle) : Host α Unit := do
  Host.require (A.rows = C.rows)
  Host.require (B.rows = C.rows)
  Host.require (C.rows = C.cols)
  Host.require (A.cols = B.cols)
  hostEachTriangleElement C.view t fun i j =>
    Task.forUp 0 A.cols fun k => do
      let a ← A.view.rd i k
      let b ← B.view.rd j k
      let c ← B.view.rd i k
      let d ← A.view.rd j k
      C.view.incr i j (a * ConjOps.conj b + c * ConjOps.conj d)

/-- `kk/blas3_matrix_product_kk.hpp:104-125` `check_left_product` (with `check_product`,
65-84). -/
def hostCheckLeft (A B C : KMat) : Host α Unit := do
  Host.require (A.rows = A.cols)
  Host.require (A.cols = B.rows)
  Host.require (A.rows = C.rows)
  Host.require (B.cols = C.cols)

/-- `kk/blas3_matrix_product_kk.hpp:135-156` `check_right_product`. -/
def hostCheckRight (A B C : KMat) : Host α Unit := do
  Host.require (A.rows = A.cols)
  Host.require (B.cols = A.rows)
  Host.require (B.rows = C.rows)
  Host.require (A.cols = C.cols)

/-- `kk/blas3_matrix_product_kk.hpp:85-102` `check_E`. -/
def hostCheckE (E C : KMat) : Host α Unit := do
  Host.require (E.rows = C.rows)
  Host.require (E.cols = C.cols)

/-- `kk/blas3_matrix_product_kk.hpp:172-189` `product_impl`: `init` gives the first value of
`C(i,j)` (191-203 zero, 205-218 `E(i,j)`); `term i j k` is what `update` adds. -/
def hostProduct [Add α] (A C : KMat) (init : Nat → Nat → Task α α)
    (term : Nat → Nat → Nat → Task α α) : Host α Unit :=
  hostEachMatrixElement C.view fun i j => do
    let c0 ← init i j
    C.view.wr i j c0
    Task.forUp 0 A.view.cols fun k => do
      let v ← term i j k
      C.view.incr i j v

/-- `kk/blas3_matrix_product_kk.hpp:344-367` `symmetric_matrix_left_product(A, t, B, C)`. -/
def hostSymmLeft [Add α] [Mul α] [Zero α] (A : KMat) (t : Triangle) (B C : KMat) :
    Host α Unit := do
  hostCheckLeft A B C
  hostProduct A C (fun _ _ => pure 0) (kkLeftTerm id t A B)

/-- `kk/blas3_matrix_product_kk.hpp:395-420` `symmetric_matrix_left_product(A, t, B, E, C)`. -/
def hostSymmLeftUpdate [Add α] [Mul α] (A : KMat) (t : Triangle) (B E C : KMat) :
    Host α Unit := do
  hostCheckLeft A B C
  hostCheckE E C
  hostProduct A C (fun i j => E.view.rd i j) (kkLeftTerm id t A B)

/-- `kk/blas3_matrix_product_kk.hpp:443-466` `symmetric_matrix_right_product(A, t, B, C)`. -/
def hostSymmRight [Add α] [Mul α] [Zero α] (A : KMat) (t : Triangle) (B C : KMat) :
    Host α Unit := do
  hostCheckRight A B C
  hostProduct A C (fun _ _ => pure 0) (kkRightTerm id t A B)

/-- `kk/blas3_matrix_product_kk.hpp:494-519` `symmetric_matrix_right_product(A, t, B, E, C)`. -/
def hostSymmRightUpdate [Add α] [Mul α] (A : KMat) (t : Triangle) (B E C : KMat) :
    Host α Unit := do
  hostCheckRight A B C
  hostCheckE E C
  hostProduct A C (fun i j => E.view.rd i j) (kkRightTerm id t A B)

/-- `kk/blas3_matrix_product_kk.hpp:542-566` `hermitian_matrix_left_product(A, t, B, C)`. -/
def hostHemmLeft [Add α] [Mul α] [Zero α] [ConjOps α] (A : KMat) (t : Triangle) (B C : KMat) :
    Host α Unit := do
  hostCheckLeft A B C
  hostProduct A C (fun _ _ => pure 0) (kkLeftTerm ConjOps.conj t A B)

/-- `kk/blas3_matrix_product_kk.hpp:594-620` `hermitian_matrix_left_product(A, t, B, E, C)`. -/
def hostHemmLeftUpdate [Add α] [Mul α] [ConjOps α] (A : KMat) (t : Triangle) (B E C : KMat) :
    Host α Unit := do
  hostCheckLeft A B C
  hostCheckE E C
  hostProduct A C (fun i j => E.view.rd i j) (kkLeftTerm ConjOps.conj t A B)

/-- `kk/blas3_matrix_product_kk.hpp:643-667` `hermitian_matrix_right_product(A, t, B, C)`. -/
def hostHemmRight [Add α] [Mul α] [Zero α] [ConjOps α] (A : KMat) (t : Triangle) (B C : KMat) :
    Host α Unit := do
  hostCheckRight A B C
  hostProduct A C (fun _ _ => pure 0) (kkRightTerm ConjOps.conj t A B)

/-- `kk/blas3_matrix_product_kk.hpp:695-721` `hermitian_matrix_right_product(A, t, B, E, C)`.
The extents of `E` are not checked (707). -/
def hostHemmRightUpdate [Add α] [Mul α] [ConjOps α] (A : KMat) (t : Triangle) (B E C : KMat) :
    Host α Unit := do
  hostCheckRight A B C
  hostProduct A C (fun i j => E.view.rd i j) (kkRightTerm ConjOps.conj t A B)

/-! ## Loops without a fence -/

/-- `kk/blas3_matrix_product_kk.hpp:248-279` `trmm_left`.  No fence. -/
def hostTrmmLeftViews [Add α] [Mul α] [Zero α] (t : Triangle) (d : Diag) (A B C : Mat) :
    Host α Unit :=
  Host.forEach (List.range C.rows) fun ii =>
    let i := if t = .lower then C.rows - 1 - ii else ii
    Host.launch (parFor C.cols fun j => do
      let k0 := if t = .lower then 0 else (if d = .explicit then i else i + 1)
      let k1 := if t = .lower then (if d = .explicit then i + 1 else i) else C.rows
      let s ← Task.foldUp k0 k1 (0 : α) fun s k => do
        let a ← A.rd i k
        let b ← B.rd k j
        pure (s + a * b)
      let s ← if d = .implicitUnit then do
          let b ← B.rd i j
          pure (s + b)
        else pure s
      C.wr i j s)

/-- `kk/blas3_matrix_product_kk.hpp:287-319` `trmm_right`.  No fence. -/
def hostTrmmRightViews [Add α] [Mul α] [Zero α] (t : Triangle) (d : Diag) (A B C : Mat) :
    Host α Unit :=
  Host.forEach (List.range C.cols) fun jj =>
    let j := if t = .lower then jj else C.cols - 1 - jj
    Host.launch (parFor C.rows fun i => do
      let k0 := if t = .lower then (if d = .explicit then j else j + 1) else 0
      let k1 := if t = .lower then C.cols else (if d = .explicit then j + 1 else j)
      let s ← Task.foldUp k0 k1 (0 : α) fun s k => do
        let b ← B.rd i k
        let a ← A.rd k j
        pure (s + b * a)
      let s ← if d = .implicitUnit then do
          let b ← B.rd i j
          pure (s + b)
        else pure s
      C.wr i j s)

/-- `kk/blas3_matrix_product_kk.hpp:745-774` `triangular_matrix_left_product(A, t, d, B, C)`
with `d` the implicit unit diagonal (with an explicit diagonal it calls KokkosBlas). -/
def hostTrmmLeft [Add α] [Mul α] [Zero α] (A : KMat) (t : Triangle) (B C : KMat) :
    Host α Unit := do
  hostCheckLeft A B C
  hostTrmmLeftViews t .implicitUnit A.view B.view C.view

/-- `kk/blas3_matrix_product_kk.hpp:793-818` `triangular_matrix_left_product(A, t, d, C)`, in
place, with the implicit unit diagonal. -/
def hostTrmmLeftInPlace [Add α] [Mul α] [Zero α] (A : KMat) (t : Triangle) (C : KMat) :
    Host α Unit := do
  hostCheckLeft A C C
  hostTrmmLeftViews t .implicitUnit A.view C.view C.view

/-- `kk/blas3_matrix_product_kk.hpp:842-871` `triangular_matrix_right_product(A, t, d, B, C)`
with the implicit unit diagonal. -/
def hostTrmmRight [Add α] [Mul α] [Zero α] (A : KMat) (t : Triangle) (B C : KMat) :
    Host α Unit := do
  hostCheckRight A B C
  hostTrmmRightViews t .implicitUnit A.view B.view C.view

/-- `kk/blas3_matrix_product_kk.hpp:890-915` `triangular_matrix_right_product(A, t, d, C)`, in
place, with the implicit unit diagonal. -/
def hostTrmmRightInPlace [Add α] [Mul α] [Zero α] (A : KMat) (t : Triangle) (C : KMat) :
    Host α Unit := do
  hostCheckRight A C C
  hostTrmmRightViews t .implicitUnit A.view C.view C.view

/-! ## Reductions

The host waits for the number (`kk/blas1_dot_kk.hpp:64` and the others: "fence not needed because
reducing into result"). -/

/-- `kk/blas1_dot_kk.hpp:20-68` `dot`. -/
def hostDot [Add α] [Mul α] [Zero α] (x y : KVec) (init : α) : Host α α := do
  Host.require (x.ext = y.ext)
  let result ← Host.await (parReduce x.view.ext (fun i (update : α) => do
    let a ← x.view.look i
    let b ← y.view.look i
    pure (update + a * b)) 0 (fun a b => a + b))
  pure (result + init)

/-- `kk/blas1_vector_abs_sum_kk.hpp:16-38` `vector_abs_sum`.  Simplification: `Scalar` is
the reals. -/
noncomputable def hostAbsSum [AbsOps α] (x : KVec) (init : ℝ) : Host α ℝ := do
  let result ← Host.await (parReduce x.view.ext (fun i (update : ℝ) => do
    let a ← x.view.look i
    pure (update + AbsOps.abs a)) 0 (fun a b => a + b))
  pure (result + init)

/-- `kk/blas1_vector_norm2_kk.hpp:14-43` `vector_norm2`. -/
noncomputable def hostNorm2 [AbsOps α] (x : KVec) (init : ℝ) : Host α ℝ := do
  let result ← Host.await (parReduce x.view.ext (fun i (update : ℝ) => do
    let a ← x.view.look i
    let tmp := AbsOps.abs a
    pure (update + tmp * tmp)) 0 (fun a b => a + b))
  pure (Real.sqrt (result + init))

/-- `kk/blas1_vector_sum_of_squares_kk.hpp:15-54` `vector_sum_of_squares`.  `low` is the
identity value of `Kokkos::Max<Scalar>` (the lowest value of the type). -/
noncomputable def hostSumOfSquares [AbsOps α] (low : ℝ) (x : KVec) (init : SumOfSquares) :
    Host α SumOfSquares := do
  let scalingFactor ← Host.await (parReduce x.view.ext (fun i (lmax : ℝ) => do
    let a ← x.view.look i
    pure (max lmax (AbsOps.abs a))) low max)
  let resultScaling := max scalingFactor init.scalingFactor
  let ssq ← Host.await (parReduce x.view.ext (fun i (update : ℝ) => do
    let a ← x.view.look i
    let tmp ← divLook (AbsOps.abs a) resultScaling
    pure (update + tmp * tmp)) 0 (fun a b => a + b))
  let old ← Host.here (divChecked
    (init.scalingFactor * init.scalingFactor * init.scaledSumOfSquares)
    (scalingFactor * scalingFactor))
  pure ⟨resultScaling, ssq + old⟩

/-- `kk/blas1_matrix_frob_norm_kk.hpp:16-71` `matrix_frob_norm`. -/
noncomputable def hostFrobNorm [AbsOps α] (low : ℝ) (A : KMat) (init : ℝ) : Host α ℝ :=
  if A.rows = 0 ∨ A.cols = 0 then pure init
  else if A.rows = 1 ∧ A.cols = 1 then do
    let a ← Host.here (A.toMat.get 0 0)
    pure (init + AbsOps.abs a)
  else do
    let scalingFactor ← Host.await (parReduce (A.view.rows * A.view.cols) (fun k (lmax : ℝ) => do
      let a ← A.view.look (k / A.view.cols) (k % A.view.cols)
      pure (max lmax (AbsOps.abs a))) low max)
    let ssq ← Host.await (parReduce (A.view.rows * A.view.cols) (fun k (update : ℝ) => do
      let a ← A.view.look (k / A.view.cols) (k % A.view.cols)
      let tmp ← divLook (AbsOps.abs a) scalingFactor
      pure (update + tmp * tmp)) 0 (fun a b => a + b))
    pure (Real.sqrt (init + scalingFactor * scalingFactor * ssq))

/-- `kk/blas1_matrix_inf_norm_kk.hpp:16-49` `matrix_inf_norm`. -/
noncomputable def hostInfNorm [AbsOps α] (low : ℝ) (A : KMat) (init : ℝ) : Host α ℝ :=
  if A.rows = 0 ∨ A.cols = 0 then pure init
  else do
    let result ← Host.await (parReduce A.view.rows (fun i (update : ℝ) => do
      let a ← A.view.look i 0
      let mysum ← Rd.foldUp 1 A.view.cols (AbsOps.abs a) fun s j => do
        let b ← A.view.look i j
        pure (s + AbsOps.abs b)
      pure (max update mysum)) low max)
    pure (init + result)

/-- `kk/blas1_matrix_one_norm_kk.hpp:16-49` `matrix_one_norm`.  Only `extent(1)` is tested
for zero. -/
noncomputable def hostOneNorm [AbsOps α] (low : ℝ) (A : KMat) (init : ℝ) : Host α ℝ :=
  if A.cols = 0 then pure init
  else do
    let result ← Host.await (parReduce A.view.cols (fun j (update : ℝ) => do
      let a ← A.view.look 0 j
      let mysum ← Rd.foldUp 1 A.view.rows (AbsOps.abs a) fun s i => do
        let b ← A.view.look i j
        pure (s + AbsOps.abs b)
      pure (max update mysum)) low max)
    pure (init + result)

/-! ## Calls of the libraries -/

variable (K : KokkosLib α)

/-- `kk/blas1_add_kk.hpp:37-91` `add`, rank 1. -/
def hostAdd1 [One α] [Zero α] (x y z : KVec) : Host α Unit := do
  Host.require (x.ext = y.ext)
  Host.require (y.ext = z.ext)
  Host.launch (K.update1 1 x.view 1 y.view 0 z.view)

/-- `kk/blas1_add_kk.hpp:37-91` `add`, rank 2; the checks run over the ranks (60-70). -/
def hostAdd2 [One α] [Zero α] (x y z : KMat) : Host α Unit := do
  Host.require (x.rows = y.rows)
  Host.require (y.rows = z.rows)
  Host.require (x.cols = y.cols)
  Host.require (y.cols = z.cols)
  Host.launch (K.update2 1 x.view 1 y.view 0 z.view)

/-- `kk/blas1_scale_kk.hpp:19-32` `scale`, rank 1. -/
def hostScale1 (alpha : α) (x : KVec) : Host α Unit :=
  Host.launch (K.scal1 x.view alpha x.view)

/-- `kk/blas1_scale_kk.hpp:19-32` `scale`, rank 2. -/
def hostScale2 (alpha : α) (x : KMat) : Host α Unit :=
  Host.launch (K.scal2 x.view alpha x.view)

/-- `kk/blas1_dot_kk.hpp:78-112` `dot` with a conjugated first argument (called by `dotc`);
`x` is the mdspan without its conjugation. -/
def hostDotc [Add α] (x y : KVec) (init : α) : Host α α := do
  Host.require (x.ext = y.ext)
  let r ← Host.await (K.dot x.view y.view)
  pure (r + init)

/-- `kk/blas1_idx_abs_max_kk.hpp:17-31` `vector_idx_abs_max`: `iamax(v_view) - 1` in the
unsigned `size_type`, whose largest value is `sizeMax`. -/
def hostIdxAbsMax (sizeMax : Nat) (v : KVec) : Host α Nat := do
  let r ← Host.await (K.iamax v.view)
  pure ((r + sizeMax) % (sizeMax + 1))

/-- `kk/blas1_copy_kk.hpp:17-64` `copy`, rank 1: the layouts of the two views are always the
same (37). -/
def hostCopy1 (x y : KVec) : Host α Unit := do
  Host.launch (K.deepCopy1 y.view x.view)
  Host.fenced

/-- `kk/blas1_copy_kk.hpp:17-64` `copy`, rank 2, the branch for equal layouts (37-38).
(`kkCopy2` is the other branch.) -/
def hostCopySame2 (x y : KMat) : Host α Unit := do
  Host.launch (K.deepCopy2 y.view x.view)
  Host.fenced

/-- `kk/blas2_gemv_kk.hpp:32-86` overwriting `matrix_vector_product`. -/
def hostGemv [One α] [Zero α] (A : KMat) (x y : KVec) : Host α Unit := do
  Host.require (A.cols = x.ext)
  Host.require (A.rows = y.ext)
  Host.launch (K.gemv .N 1 A.view x.view 0 y.view)

/-- The checks of `matrix_product`, `kk/blas3_overwriting_gemm_kk.hpp:48-57`, `131-140`,
`217-226`. -/
def hostCheckGemm (A B C : Mat) : Host α Unit := do
  Host.require (A.cols = B.rows)
  Host.require (A.rows = C.rows)
  Host.require (B.cols = C.cols)

/-- `kk/blas3_overwriting_gemm_kk.hpp:35-88` `matrix_product`, all accessors
`default_accessor`. -/
def hostGemm [One α] [Zero α] (A B C : KMat) : Host α Unit := do
  hostCheckGemm A.toMat B.toMat C.toMat
  Host.launch (K.gemm .N .N 1 A.view B.view 0 C.view)

/-- `kk/blas3_overwriting_gemm_kk.hpp:93-173` `matrix_product` with a first argument whose
layout is a `layout_transpose`. -/
def hostGemmTransA [One α] [Zero α] (AT B C : KMat) : Host α Unit := do
  hostCheckGemm AT.toMat B.toMat C.toMat
  Host.launch (K.gemm .T .N 1 AT.view B.view 0 C.view)

/-- `kk/blas3_overwriting_gemm_kk.hpp:179-259` `matrix_product` with a second argument whose
layout is a `layout_transpose`. -/
def hostGemmTransB [One α] [Zero α] (A BT C : KMat) : Host α Unit := do
  hostCheckGemm A.toMat BT.toMat C.toMat
  Host.launch (K.gemm .N .T 1 A.view BT.view 0 C.view)

/-- `kk/blas3_overwriting_gemm_kk.hpp:84-87`, `169-172`, `255-258`: with another accessor, all
three overloads call `linalg::matrix_product` without policy, which runs the native loops. -/
def hostGemmFallback [Add α] [Mul α] [Zero α] (A B : MatV α) (C : Mat) : Host α Unit := do
  hostCheckGemm A.toMat B.toMat C
  Host.here (gemm A B C)

/-- `kk/blas3_matrix_product_kk.hpp:745-774` `triangular_matrix_left_product(A, t, d, B, C)`
with `d` the explicit diagonal. -/
def hostTrmmLeftExplicit [One α] (A : KMat) (t : Triangle) (B C : KMat) : Host α Unit := do
  hostCheckLeft A B C
  Host.await (K.deepCopy2 C.view B.view)
  Host.launch (trmmKK K .left t A.view C.view)

/-- `kk/blas3_matrix_product_kk.hpp:793-818`, in place, explicit diagonal. -/
def hostTrmmLeftInPlaceExplicit [One α] (A : KMat) (t : Triangle) (C : KMat) : Host α Unit := do
  hostCheckLeft A C C
  Host.launch (trmmKK K .left t A.view C.view)

/-- `kk/blas3_matrix_product_kk.hpp:842-871` `triangular_matrix_right_product(A, t, d, B, C)`,
explicit diagonal. -/
def hostTrmmRightExplicit [One α] (A : KMat) (t : Triangle) (B C : KMat) : Host α Unit := do
  hostCheckRight A B C
  Host.await (K.deepCopy2 C.view B.view)
  Host.launch (trmmKK K .right t A.view C.view)

/-- `kk/blas3_matrix_product_kk.hpp:890-915`, in place, explicit diagonal. -/
def hostTrmmRightInPlaceExplicit [One α] (A : KMat) (t : Triangle) (C : KMat) : Host α Unit := do
  hostCheckRight A C C
  Host.launch (trmmKK K .right t A.view C.view)

/-- `kk/blas2_triangular_matrix_vector_solve.hpp:70-122` `triangular_matrix_vector_solve`. -/
def hostTrsv [One α] (A : KMat) (t : Triangle) (d : Diag) (b x : KVec) : Host α Unit := do
  Host.require (A.rows = A.cols)
  Host.require (A.cols = b.ext)
  Host.require (A.rows = x.ext)
  Host.await (K.deepCopy1 x.view b.view)
  Host.launch (trsmKK K .left t d A.view x.asColumn)

/-- `kk/blas3_triangular_matrix_matrix_solve.hpp:101-147`
`triangular_matrix_matrix_left_solve`. -/
def hostTrsmLeft [One α] (A : KMat) (t : Triangle) (d : Diag) (B X : KMat) : Host α Unit := do
  Host.require (A.rows = A.cols)
  Host.require (A.cols = B.rows)
  Host.require (X.rows = B.rows)
  Host.require (X.cols = B.cols)
  Host.await (K.deepCopy2 X.view B.view)
  Host.launch (trsmKK K .left t d A.view X.view)

/-- `kk/blas3_triangular_matrix_matrix_solve.hpp:169-215`
`triangular_matrix_matrix_right_solve`. -/
def hostTrsmRight [One α] (A : KMat) (t : Triangle) (d : Diag) (B X : KMat) : Host α Unit := do
  Host.require (A.rows = A.cols)
  Host.require (A.cols = B.cols)
  Host.require (X.rows = B.rows)
  Host.require (X.cols = B.cols)
  Host.await (K.deepCopy2 X.view B.view)
  Host.launch (trsmKK K .right t d A.view X.view)

end StdBLAS

import Verif.Model.Kokkos
import Verif.Model.Blas3

/-!
# The Kokkos backend: algorithms that call KokkosKernels

Paths as in `Model/Kokkos.lean`.  The functions of the external libraries Kokkos and
KokkosKernels that these algorithms call are a parameter, `KokkosLib`; what they are assumed
to do is in `Spec/KokkosLib.lean`.

Not modelled: the third overload of `matrix_vector_product` (`kk/blas2_gemv_kk.hpp:174-254`).
It cannot be called: it uses a member `scale_factor` that no accessor has
(`scaled.hpp:99` calls it `scaling_factor`).
-/

namespace StdBLAS
variable {α : Type}

/-- The flags `"N"` (no transposition) and `"T"` (transposed). -/
inductive Op where
  | N
  | T
  deriving DecidableEq, Repr

/-- The flags `"U"` and `"L"` for a triangle. -/
inductive Uplo where
  | U
  | L
  deriving DecidableEq, Repr

/-- The flags `"U"` (unit diagonal) and `"N"` for the diagonal. -/
inductive UnitFlag where
  | U
  | N
  deriving DecidableEq, Repr

/-- The functions of Kokkos and KokkosKernels that the backend calls. -/
structure KokkosLib (α : Type) where
  /-- `Kokkos::deep_copy(dst, src)`, rank 1 -/
  deepCopy1 (dst src : Vec) : Sched α Unit
  /-- `Kokkos::deep_copy(dst, src)`, rank 2 -/
  deepCopy2 (dst src : Mat) : Sched α Unit
  /-- `KokkosBlas::update(alpha, x, beta, y, gamma, z)`, rank 1 -/
  update1 (alpha : α) (x : Vec) (beta : α) (y : Vec) (gamma : α) (z : Vec) : Sched α Unit
  /-- `KokkosBlas::update(alpha, x, beta, y, gamma, z)`, rank 2 -/
  update2 (alpha : α) (x : Mat) (beta : α) (y : Mat) (gamma : α) (z : Mat) : Sched α Unit
  /-- `KokkosBlas::scal(r, alpha, x)`, rank 1 -/
  scal1 (r : Vec) (alpha : α) (x : Vec) : Sched α Unit
  /-- `KokkosBlas::scal(r, alpha, x)`, rank 2 -/
  scal2 (r : Mat) (alpha : α) (x : Mat) : Sched α Unit
  /-- `KokkosBlas::dot(x, y)` -/
  dot (x y : Vec) : Sched α α
  /-- `KokkosBlas::iamax(x)` -/
  iamax (x : Vec) : Sched α Nat
  /-- `KokkosBlas::gemv(trans, alpha, A, x, beta, y)` -/
  gemv (trans : Op) (alpha : α) (A : Mat) (x : Vec) (beta : α) (y : Vec) : Sched α Unit
  /-- `KokkosBlas::gemm(transA, transB, alpha, A, B, beta, C)` -/
  gemm (transA transB : Op) (alpha : α) (A B : Mat) (beta : α) (C : Mat) : Sched α Unit
  /-- `KokkosBlas::trsm(side, uplo, trans, diag, alpha, A, B)` -/
  trsm (side : Side) (uplo : Uplo) (trans : Op) (diag : UnitFlag) (alpha : α) (A B : Mat) :
    Sched α Unit
  /-- `KokkosBlas::trmm(side, uplo, trans, diag, alpha, A, B)` -/
  trmm (side : Side) (uplo : Uplo) (trans : Op) (diag : UnitFlag) (alpha : α) (A B : Mat) :
    Sched α Unit

variable (K : KokkosLib α)

/-! ## BLAS 1 -/

/-- `kk/blas1_add_kk.hpp:37-91` `add`, rank 1. -/
def kkAdd1 [One α] [Zero α] (x y z : KVec) : Sched α Unit := do
  require (x.ext = y.ext)
  require (y.ext = z.ext)
  K.update1 1 x.view 1 y.view 0 z.view

/-- `kk/blas1_add_kk.hpp:37-91` `add`, rank 2; the checks run over the ranks (60-70). -/
def kkAdd2 [One α] [Zero α] (x y z : KMat) : Sched α Unit := do
  require (x.rows = y.rows)
  require (y.rows = z.rows)
  require (x.cols = y.cols)
  require (y.cols = z.cols)
  K.update2 1 x.view 1 y.view 0 z.view

/-- `kk/blas1_scale_kk.hpp:19-32` `scale`, rank 1. -/
def kkScale1 (alpha : α) (x : KVec) : Sched α Unit := K.scal1 x.view alpha x.view

/-- `kk/blas1_scale_kk.hpp:19-32` `scale`, rank 2. -/
def kkScale2 (alpha : α) (x : KMat) : Sched α Unit := K.scal2 x.view alpha x.view

/-- `kk/blas1_dot_kk.hpp:78-112` `dot` with a conjugated first argument (called by `dotc`);
`x` is the mdspan without its conjugation. -/
def kkDotc [Add α] (x y : KVec) (init : α) : Sched α α := do
  require (x.ext = y.ext)
  let r ← K.dot x.view y.view
  pure (r + init)

/-- `kk/blas1_idx_abs_max_kk.hpp:17-31` `vector_idx_abs_max`: `iamax(v_view) - 1` in the
unsigned `size_type`, whose largest value is `sizeMax`. -/
def kkIdxAbsMax (sizeMax : Nat) (v : KVec) : Sched α Nat := do
  let r ← K.iamax v.view
  pure ((r + sizeMax) % (sizeMax + 1))

/-- `kk/blas1_copy_kk.hpp:17-64` `copy`, rank 1: the layouts of the two views are always the
same (37). -/
def kkCopy1 (x y : KVec) : Sched α Unit := K.deepCopy1 y.view x.view

/-- `kk/blas1_copy_kk.hpp:17-64` `copy`, rank 2, the branch for equal layouts (37-38).
(`kkCopy2` is the other branch.) -/
def kkCopySame2 (x y : KMat) : Sched α Unit := K.deepCopy2 y.view x.view

/-! ## Products -/

/-- `kk/blas2_gemv_kk.hpp:32-86` overwriting `matrix_vector_product`. -/
def kkGemv [One α] [Zero α] (A : KMat) (x y : KVec) : Sched α Unit := do
  require (A.cols = x.ext)
  require (A.rows = y.ext)
  K.gemv .N 1 A.view x.view 0 y.view

/-- The checks of `matrix_product`, `kk/blas3_overwriting_gemm_kk.hpp:48-57`, `131-140`,
`217-226`. -/
def kkCheckGemm (A B C : Mat) : Sched α Unit := do
  require (A.cols = B.rows)
  require (A.rows = C.rows)
  require (B.cols = C.cols)

/-- `kk/blas3_overwriting_gemm_kk.hpp:35-88` `matrix_product`, all accessors
`default_accessor`. -/
def kkGemm [One α] [Zero α] (A B C : KMat) : Sched α Unit := do
  kkCheckGemm A.toMat B.toMat C.toMat
  K.gemm .N .N 1 A.view B.view 0 C.view

/-- `kk/blas3_overwriting_gemm_kk.hpp:93-173` `matrix_product` with a first argument whose
layout is a `layout_transpose`. -/
def kkGemmTransA [One α] [Zero α] (AT B C : KMat) : Sched α Unit := do
  kkCheckGemm AT.toMat B.toMat C.toMat
  K.gemm .T .N 1 AT.view B.view 0 C.view

/-- `kk/blas3_overwriting_gemm_kk.hpp:179-259` `matrix_product` with a second argument whose
layout is a `layout_transpose`. -/
def kkGemmTransB [One α] [Zero α] (A BT C : KMat) : Sched α Unit := do
  kkCheckGemm A.toMat BT.toMat C.toMat
  K.gemm .N .T 1 A.view BT.view 0 C.view

/-- `kk/blas3_overwriting_gemm_kk.hpp:84-87`, `169-172`, `255-258`: with another accessor, all
three overloads call `linalg::matrix_product` without policy, which runs the native loops. -/
def kkGemmFallback [Add α] [Mul α] [Zero α] (A B : MatV α) (C : Mat) : Sched α Unit := do
  kkCheckGemm A.toMat B.toMat C
  Sched.lift (gemm A B C)

/-- `kk/blas3_matrix_product_kk.hpp:225-240` `trmm_kk`: the flag for the triangle is reversed
("KK and stdBLAS use REVERSED triangle definitions"), the diagonal is never unit. -/
def trmmKK [One α] (side : Side) (t : Triangle) (A C : Mat) : Sched α Unit :=
  K.trmm side (if t = .lower then .U else .L) .N .N 1 A C

/-- `kk/blas3_matrix_product_kk.hpp:745-774` `triangular_matrix_left_product(A, t, d, B, C)`
with `d` the explicit diagonal. -/
def kkTrmmLeftExplicit [One α] (A : KMat) (t : Triangle) (B C : KMat) : Sched α Unit := do
  kkCheckLeft A B C
  K.deepCopy2 C.view B.view
  trmmKK K .left t A.view C.view

/-- `kk/blas3_matrix_product_kk.hpp:793-818`, in place, explicit diagonal. -/
def kkTrmmLeftInPlaceExplicit [One α] (A : KMat) (t : Triangle) (C : KMat) : Sched α Unit := do
  kkCheckLeft A C C
  trmmKK K .left t A.view C.view

/-- `kk/blas3_matrix_product_kk.hpp:842-871` `triangular_matrix_right_product(A, t, d, B, C)`,
explicit diagonal. -/
def kkTrmmRightExplicit [One α] (A : KMat) (t : Triangle) (B C : KMat) : Sched α Unit := do
  kkCheckRight A B C
  K.deepCopy2 C.view B.view
  trmmKK K .right t A.view C.view

/-- `kk/blas3_matrix_product_kk.hpp:890-915`, in place, explicit diagonal. -/
def kkTrmmRightInPlaceExplicit [One α] (A : KMat) (t : Triangle) (C : KMat) : Sched α Unit := do
  kkCheckRight A C C
  trmmKK K .right t A.view C.view

/-! ## Triangular solves -/

/-- `kk/blas3_triangular_matrix_matrix_solve.hpp:62-74` `trimatmatsolve_impl::trsm`. -/
def trsmKK [One α] (side : Side) (t : Triangle) (d : Diag) (A X : Mat) : Sched α Unit :=
  K.trsm side (if t = .lower then .L else .U) .N (if d = .explicit then .N else .U) 1 A X

/-- `kk/blas2_triangular_matrix_vector_solve.hpp:112-119`: the N×1 view on the data of `x`. -/
def KVec.asColumn (x : KVec) : Mat := ⟨x.ext, 1, fun i _ => x.base + i⟩

/-- `kk/blas2_triangular_matrix_vector_solve.hpp:70-122` `triangular_matrix_vector_solve`. -/
def kkTrsv [One α] (A : KMat) (t : Triangle) (d : Diag) (b x : KVec) : Sched α Unit := do
  require (A.rows = A.cols)
  require (A.cols = b.ext)
  require (A.rows = x.ext)
  K.deepCopy1 x.view b.view
  trsmKK K .left t d A.view x.asColumn

/-- `kk/blas3_triangular_matrix_matrix_solve.hpp:101-147`
`triangular_matrix_matrix_left_solve`. -/
def kkTrsmLeft [One α] (A : KMat) (t : Triangle) (d : Diag) (B X : KMat) : Sched α Unit := do
  require (A.rows = A.cols)
  require (A.cols = B.rows)
  require (X.rows = B.rows)
  require (X.cols = B.cols)
  K.deepCopy2 X.view B.view
  trsmKK K .left t d A.view X.view

/-- `kk/blas3_triangular_matrix_matrix_solve.hpp:169-215`
`triangular_matrix_matrix_right_solve`. -/
def kkTrsmRight [One α] (A : KMat) (t : Triangle) (d : Diag) (B X : KMat) : Sched α Unit := do
  require (A.rows = A.cols)
  require (A.cols = B.cols)
  require (X.rows = B.rows)
  require (X.cols = B.cols)
  K.deepCopy2 X.view B.view
  trsmKK K .right t d A.view X.view

end StdBLAS

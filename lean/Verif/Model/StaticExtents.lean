import Verif.Spec.StaticExtents
import Verif.Core.Scalar

/-!
# The compile-time checks of sizes

A call is well-formed if the condition of every `static_assert` in the instantiated function is
true.  The statement `Impl::static_extent_match(...);` without `static_assert` evaluates a function
and discards the value.

File names without a directory: native checks in `include/experimental/__p1673_bits/`, Kokkos
checks in `tpl-implementations/include/experimental/__p1673_bits/kokkos-kernels/`.
-/

namespace StdBLAS.Extents
open Arg

/-- A statement of a function body that is evaluated at compile time. -/
inductive Check
  | staticAssert (condition : Bool)
  | discarded (value : Bool)

/-- The function can be instantiated: no `static_assert` fails. -/
def WellFormed (body : List Check) : Prop := ∀ c, Check.staticAssert c ∈ body → c = true

/-- `static_extent_match.hpp:50-56` `static_extent_match`; the native headers write the same
condition inline (for example `blas1_dot.hpp:98-100`). -/
def staticExtentMatch (extent1 extent2 : Option Nat) : Bool :=
  extent1 == none || extent2 == none || extent1 == extent2

/-- `static_assert(static_extent_match(u.static_extent(r), v.static_extent(s)))` -/
def Statics.mustMatch (st : Statics) (u : Arg) (r : Nat) (v : Arg) (s : Nat) : Check :=
  .staticAssert (staticExtentMatch (st u r) (st v s))

/-- `Impl::static_extent_match(u.static_extent(r), v.static_extent(s));` as a statement -/
def Statics.computeMatch (st : Statics) (u : Arg) (r : Nat) (v : Arg) (s : Nat) : Check :=
  .discarded (staticExtentMatch (st u r) (st v s))

/-- `triangle.hpp:69-83` `triangle_layout_match_v<Layout, Triangle>`; `packed` is the triangle of
`layout_blas_packed`, `none` for all other layouts. -/
def triangleLayoutMatch (packed : Option Triangle) (t : Triangle) : Bool :=
  match packed with
  | none => true
  | some t' => t' == t

/-! ## Native implementation -/

namespace Native

/-- `blas1_linalg_copy.hpp:67-69` `copy_rank_1` -/
def copy1 (st : Statics) : List Check := [st.mustMatch x 0 y 0]

/-- `blas1_linalg_copy.hpp:92-97` `copy_rank_2` -/
def copy2 (st : Statics) : List Check := [st.mustMatch x 0 y 0, st.mustMatch x 1 y 1]

/-- `blas1_linalg_swap.hpp:69-71` `swap_rank_1` -/
def swap1 (st : Statics) : List Check := [st.mustMatch x 0 y 0]

/-- `blas1_linalg_swap.hpp:97-102` `swap_rank_2` -/
def swap2 (st : Statics) : List Check := [st.mustMatch x 0 y 0, st.mustMatch x 1 y 1]

/-- `blas1_linalg_add.hpp:73-81` `add_rank_1` -/
def add1 (st : Statics) : List Check :=
  [st.mustMatch x 0 z 0, st.mustMatch y 0 z 0, st.mustMatch x 0 y 0]

/-- `blas1_linalg_add.hpp:112-130` `add_rank_2` -/
def add2 (st : Statics) : List Check :=
  [st.mustMatch x 0 z 0, st.mustMatch y 0 z 0, st.mustMatch x 0 y 0,
   st.mustMatch x 1 z 1, st.mustMatch y 1 z 1, st.mustMatch x 1 y 1]

/-- `blas1_dot.hpp:98-100,127-129` `dot` (`v1` is `x`, `v2` is `y`); `dotc` (160-199) calls it
with `conjugated(v1)`, which has the extents of `v1`. -/
def dot (st : Statics) : List Check := [st.mustMatch x 0 y 0]

/-- `blas1_givens.hpp:395-397,490-492` `apply_givens_rotation` -/
def applyGivens (st : Statics) : List Check := [st.mustMatch x 0 y 0]

/-- `blas2_matrix_vector_product.hpp:291-308` `matrix_vector_product`: the header, like all the
other native headers for matrices with vectors or matrices, contains no `static_assert` about
extents. -/
def gemv (_ : Statics) : List Check := []

/-- `blas3_matrix_product.hpp:667-720` `matrix_product`: no `static_assert` about extents. -/
def gemm (_ : Statics) : List Check := []

/-- `blas2_matrix_vector_solve.hpp:245-260` `triangular_matrix_vector_solve`: no `static_assert` about
extents. -/
def trsv (_ : Statics) : List Check := []

/-- `blas2_matrix_rank_1_update.hpp:177-190` (native) `matrix_rank_1_update`: no `static_assert`
about extents. -/
def ger (_ : Statics) : List Check := []

end Native

/-! ## Kokkos implementation -/

namespace Kk

/-- `blas1_add_kk.hpp:73-78` `add` for ranks 1 and 2: the loop over `r < x.rank()` -/
def add (rank : Nat) (st : Statics) : List Check :=
  (List.range' 0 rank).flatMap fun r =>
    [st.computeMatch x r z r, st.computeMatch y r z r, st.computeMatch x r y r]

/-- `blas1_swap_elements_kk.hpp:74-77` `swap_elements` -/
def swap (rank : Nat) (st : Statics) : List Check :=
  (List.range' 0 rank).map fun r => st.computeMatch x r y r

/-- `blas1_dot_kk.hpp:41,101` `dot`, both overloads -/
def dot (st : Statics) : List Check := [st.mustMatch x 0 y 0]

/-- `blas2_gemv_kk.hpp:73-74` `matrix_vector_product` -/
def gemv (st : Statics) : List Check := [st.computeMatch A 1 x 0, st.computeMatch A 0 y 0]

/-- `blas2_gemv_kk.hpp:147-149` `matrix_vector_product` with update -/
def gemvUpdate (st : Statics) : List Check :=
  [st.computeMatch A 1 x 0, st.computeMatch A 0 y 0, st.computeMatch y 0 z 0]

/-- `blas2_symv_kk.hpp:60-62` `symmetric_matrix_vector_product`.  (The third line compares `A` with
`x` a second time, not with `y`.) -/
def symv (st : Statics) : List Check :=
  [st.computeMatch A 0 A 1, st.computeMatch A 1 x 0, st.computeMatch A 0 x 0]

/-- `blas2_triangular_mat_vec_product.hpp:61-63` `triangular_matrix_vector_product` -/
def trmv (st : Statics) : List Check :=
  [st.computeMatch A 1 A 0, st.computeMatch A 0 y 0, st.computeMatch A 1 x 0]

/-- `blas3_overwriting_gemm_kk.hpp:60-62,143-145,229-231` `matrix_product`, all overloads -/
def gemm (st : Statics) : List Check :=
  [st.computeMatch A 1 B 0, st.computeMatch A 0 C 0, st.computeMatch B 1 C 1]

/-- `blas2_matrix_rank_1_update.hpp:83-84,134-135` `matrix_rank_1_update`,
`matrix_rank_1_update_c` -/
def ger (st : Statics) : List Check := [st.mustMatch A 0 x 0, st.mustMatch A 1 y 0]

/-- `blas2_matrix_rank_1_update.hpp:184-188,234-238` `symmetric_matrix_rank_1_update`,
`hermitian_matrix_rank_1_update` -/
def syr (packed : Option Triangle) (t : Triangle) (st : Statics) : List Check :=
  [.staticAssert (triangleLayoutMatch packed t), st.mustMatch A 0 A 1, st.mustMatch A 0 x 0]

/-- `blas2_matrix_rank_2_update.hpp:85-90,146-151` `symmetric_matrix_rank_2_update`,
`hermitian_matrix_rank_2_update` -/
def syr2 (packed : Option Triangle) (t : Triangle) (st : Statics) : List Check :=
  [.staticAssert (triangleLayoutMatch packed t),
   st.mustMatch A 0 A 1, st.mustMatch A 0 x 0, st.mustMatch A 0 y 0]

/-- `blas2_triangular_matrix_vector_solve.hpp:84-89` `triangular_matrix_vector_solve` -/
def trsv (packed : Option Triangle) (t : Triangle) (st : Statics) : List Check :=
  [.staticAssert (triangleLayoutMatch packed t),
   st.mustMatch A 0 A 1, st.mustMatch A 0 x 0, st.mustMatch A 1 b 0]

/-- `blas3_matrix_product_kk.hpp:66-84` `check_product` -/
def checkProduct (packed : Option Triangle) (t : Triangle) (st : Statics) : List Check :=
  [.staticAssert (triangleLayoutMatch packed t), st.mustMatch A 0 A 1]

/-- `blas3_matrix_product_kk.hpp:85-102` `check_E` -/
def checkE (st : Statics) : List Check := [st.mustMatch E 0 C 0, st.mustMatch E 1 C 1]

/-- `blas3_matrix_product_kk.hpp:104-125` `check_left_product(A, t, M, C)`; `M` is `B` except
that the in-place triangular product passes `C` (`blas3_matrix_product_kk.hpp:802`). -/
def checkLeft (packed : Option Triangle) (t : Triangle) (M : Arg) (st : Statics) : List Check :=
  checkProduct packed t st ++ [st.mustMatch A 1 M 0, st.mustMatch A 0 C 0, st.mustMatch M 1 C 1]

/-- `blas3_matrix_product_kk.hpp:135-156` `check_right_product(A, t, M, C)` -/
def checkRight (packed : Option Triangle) (t : Triangle) (M : Arg) (st : Statics) : List Check :=
  checkProduct packed t st ++ [st.mustMatch M 1 A 0, st.mustMatch M 0 C 0, st.mustMatch A 1 C 1]

/-- `blas3_matrix_product_kk.hpp:354,552,756` the overwriting symmetric, Hermitian and triangular
left products -/
def leftProduct (packed : Option Triangle) (t : Triangle) (st : Statics) : List Check :=
  checkLeft packed t B st

/-- `blas3_matrix_product_kk.hpp:407,606` the updating symmetric and Hermitian left products;
`check_left_product` with `E` (127-133) -/
def leftProductUpdate (packed : Option Triangle) (t : Triangle) (st : Statics) : List Check :=
  checkLeft packed t B st ++ checkE st

/-- `blas3_matrix_product_kk.hpp:453,653,853` the overwriting right products -/
def rightProduct (packed : Option Triangle) (t : Triangle) (st : Statics) : List Check :=
  checkRight packed t B st

/-- `blas3_matrix_product_kk.hpp:506` the updating symmetric right product; `check_right_product`
with `E` (158-164) -/
def rightProductUpdate (packed : Option Triangle) (t : Triangle) (st : Statics) : List Check :=
  checkRight packed t B st ++ checkE st

/-- `blas3_matrix_product_kk.hpp:707` the updating Hermitian right product: the check without
`E` -/
def hermitianRightProductUpdate (packed : Option Triangle) (t : Triangle) (st : Statics) :
    List Check :=
  checkRight packed t B st

/-- `blas3_matrix_product_kk.hpp:802` `triangular_matrix_left_product` in place -/
def leftProductInPlace (packed : Option Triangle) (t : Triangle) (st : Statics) : List Check :=
  checkLeft packed t C st

/-- `blas3_matrix_product_kk.hpp:899` `triangular_matrix_right_product` in place -/
def rightProductInPlace (packed : Option Triangle) (t : Triangle) (st : Statics) : List Check :=
  checkRight packed t C st

/-- `blas3_matrix_rank_k_update.hpp:39-43,98-102` `symmetric_matrix_rank_k_update`,
`hermitian_matrix_rank_k_update` -/
def rankK (packed : Option Triangle) (t : Triangle) (st : Statics) : List Check :=
  [.staticAssert (triangleLayoutMatch packed t), st.mustMatch A 0 C 0, st.mustMatch C 0 C 1]

/-- `blas3_matrix_rank_2k_update.hpp:45-51,118-124` `symmetric_matrix_rank_2k_update`,
`hermitian_matrix_rank_2k_update` -/
def rank2K (packed : Option Triangle) (t : Triangle) (st : Statics) : List Check :=
  [.staticAssert (triangleLayoutMatch packed t), st.mustMatch A 0 C 0, st.mustMatch B 0 C 0,
   st.mustMatch C 0 C 1, st.mustMatch A 1 B 1]

/-- `blas3_triangular_matrix_matrix_solve.hpp:115-121`
`triangular_matrix_matrix_left_solve` -/
def solveLeft (packed : Option Triangle) (t : Triangle) (st : Statics) : List Check :=
  [.staticAssert (triangleLayoutMatch packed t), st.mustMatch A 0 A 1, st.mustMatch A 1 B 0,
   st.mustMatch X 0 B 0, st.mustMatch X 1 B 1]

/-- `blas3_triangular_matrix_matrix_solve.hpp:183-189`
`triangular_matrix_matrix_right_solve` -/
def solveRight (packed : Option Triangle) (t : Triangle) (st : Statics) : List Check :=
  [.staticAssert (triangleLayoutMatch packed t), st.mustMatch A 0 A 1, st.mustMatch A 1 B 1,
   st.mustMatch X 0 B 0, st.mustMatch X 1 B 1]

end Kk

end StdBLAS.Extents

import Verif.Core.Overloads

/-!
The overloads of the public algorithms: signatures, constraints and the calls their
bodies make to overloaded names. Written by `tools/gen_overloads.py` from the native
headers; every record cites its lines. Simplifications: see `Core/Overloads.lean`.
-/

namespace StdBLAS.Overloads

/-- The algorithms: the overloaded function names of the headers that
include/experimental/linalg:62-82 includes. -/
inductive Algo
  | setupGivensRotation
  | applyGivensRotation
  | swapElements
  | matrixFrobNorm
  | matrixInfNorm
  | matrixOneNorm
  | scale
  | copy
  | add
  | dot
  | dotc
  | vectorSumOfSquares
  | vectorTwoNorm
  | vectorAbsSum
  | vectorIdxAbsMax
  | matrixVectorProduct
  | symmetricMatrixVectorProduct
  | hermitianMatrixVectorProduct
  | triangularMatrixVectorProduct
  | triangularMatrixVectorSolve
  | matrixRank1Update
  | matrixRank1UpdateC
  | symmetricMatrixRank1Update
  | hermitianMatrixRank1Update
  | symmetricMatrixRank2Update
  | hermitianMatrixRank2Update
  | matrixProduct
  | triangularMatrixProduct
  | triangularMatrixLeftProduct
  | triangularMatrixRightProduct
  | symmetricMatrixProduct
  | hermitianMatrixProduct
  | symmetricMatrixRankKUpdate
  | hermitianMatrixRankKUpdate
  | symmetricMatrixRank2kUpdate
  | hermitianMatrixRank2kUpdate
  | triangularMatrixMatrixLeftSolve
  | triangularMatrixMatrixRightSolve
  | triangularMatrixMatrixSolve
  deriving DecidableEq, Repr

/-- The names of the parameters in the headers (unnamed ones: `exec` for the
execution policy, `t`, `d`, `s` for the tags). -/
inductive PName
  | f | g | cs | sn | r | exec | x | y | c | s | A | init | alpha | z | v1 | v2 | v | t | d | b | divide | B | C | E | X
  deriving DecidableEq, Repr

/-- Signature of one overload. -/
abbrev Sig := SigOf Algo PName

/-- `setup_givens_rotation`: blas1_givens.hpp. -/
def setupGivensRotationSigs : List Sig := [
  -- blas1_givens.hpp:112-215
  ⟨0, 112, [.f, .g, .cs, .sn, .r],
    [.val 0, .val 0, .ref 0, .ref 0, .ref 0],
    [.floating 0],
    []⟩,
  -- blas1_givens.hpp:237-372
  ⟨0, 237, [.f, .g, .cs, .sn, .r],
    [.cpxCRef 0, .cpxCRef 0, .ref 0, .cpxRef 0, .cpxRef 0],
    [.floating 0],
    []⟩]

/-- `apply_givens_rotation`: blas1_givens.hpp. -/
def applyGivensRotationSigs : List Sig := [
  -- blas1_givens.hpp:374-406
  ⟨0, 374, [.exec, .x, .y, .c, .s],
    [.inlineRef, .span (.rank 1), .span (.rank 1), .val 0, .val 0],
    [.floating 0],
    []⟩,
  -- blas1_givens.hpp:408-441
  ⟨0, 408, [.exec, .x, .y, .c, .s],
    [.fwd 0, .span (.rank 1), .span (.rank 1), .val 1, .val 1],
    [.floating 1],
    [⟨none, .applyGivensRotation, [.inl, .par 1, .par 2, .par 3, .par 4]⟩]⟩,
  -- blas1_givens.hpp:443-464
  ⟨0, 443, [.x, .y, .c, .s],
    [.span (.rank 1), .span (.rank 1), .val 0, .val 0],
    [.floating 0],
    [⟨none, .applyGivensRotation, [.dflt, .par 0, .par 1, .par 2, .par 3]⟩]⟩,
  -- blas1_givens.hpp:469-502
  ⟨0, 469, [.exec, .x, .y, .c, .s],
    [.inlineRef, .span (.rank 1), .span (.rank 1), .val 0, .cpx 0],
    [.floating 0],
    []⟩,
  -- blas1_givens.hpp:504-536
  ⟨0, 504, [.exec, .x, .y, .c, .s],
    [.fwd 0, .span (.rank 1), .span (.rank 1), .val 1, .cpx 1],
    [.floating 1],
    [⟨none, .applyGivensRotation, [.inl, .par 1, .par 2, .par 3, .par 4]⟩]⟩,
  -- blas1_givens.hpp:538-559
  ⟨0, 538, [.x, .y, .c, .s],
    [.span (.rank 1), .span (.rank 1), .val 0, .cpx 0],
    [.floating 0],
    [⟨none, .applyGivensRotation, [.dflt, .par 0, .par 1, .par 2, .par 3]⟩]⟩]

/-- `swap_elements`: blas1_linalg_swap.hpp. -/
def swapElementsSigs : List Sig := [
  -- blas1_linalg_swap.hpp:134-160
  ⟨1, 134, [.exec, .x, .y],
    [.inlineRef, .span .pack, .span .pack],
    [.sameRank 1 2],
    []⟩,
  -- blas1_linalg_swap.hpp:162-191
  ⟨1, 162, [.exec, .x, .y],
    [.fwd 0, .span .pack, .span .pack],
    [.sameRank 1 2],
    [⟨none, .swapElements, [.inl, .par 1, .par 2]⟩]⟩,
  -- blas1_linalg_swap.hpp:193-211
  ⟨1, 193, [.x, .y],
    [.span .pack, .span .pack],
    [.sameRank 0 1],
    [⟨none, .swapElements, [.dflt, .par 0, .par 1]⟩]⟩]

/-- `matrix_frob_norm`: blas1_matrix_frob_norm.hpp. -/
def matrixFrobNormSigs : List Sig := [
  -- blas1_matrix_frob_norm.hpp:79-126
  ⟨2, 79, [.exec, .A, .init],
    [.inlineRef, .span (.rank 2), .val 0],
    [],
    []⟩,
  -- blas1_matrix_frob_norm.hpp:128-151
  ⟨2, 128, [.exec, .A, .init],
    [.fwd 0, .span (.rank 2), .val 1],
    [],
    [⟨none, .matrixFrobNorm, [.inl, .par 1, .par 2]⟩]⟩,
  -- blas1_matrix_frob_norm.hpp:153-170
  ⟨2, 153, [.A, .init],
    [.span (.rank 2), .val 0],
    [],
    [⟨none, .matrixFrobNorm, [.dflt, .par 0, .par 1]⟩]⟩,
  -- blas1_matrix_frob_norm.hpp:191-206
  ⟨2, 191, [.A],
    [.span (.rank 2)],
    [],
    [⟨none, .matrixFrobNorm, [.par 0, .ret]⟩]⟩,
  -- blas1_matrix_frob_norm.hpp:208-228
  ⟨2, 208, [.exec, .A],
    [.fwd 0, .span (.rank 2)],
    [],
    [⟨none, .matrixFrobNorm, [.par 0, .par 1, .ret]⟩]⟩]

/-- `matrix_inf_norm`: blas1_matrix_inf_norm.hpp. -/
def matrixInfNormSigs : List Sig := [
  -- blas1_matrix_inf_norm.hpp:80-115
  ⟨3, 80, [.exec, .A, .init],
    [.inlineRef, .span (.rank 2), .val 0],
    [],
    []⟩,
  -- blas1_matrix_inf_norm.hpp:117-141
  ⟨3, 117, [.exec, .A, .init],
    [.fwd 0, .span (.rank 2), .val 1],
    [],
    [⟨none, .matrixInfNorm, [.inl, .par 1, .par 2]⟩]⟩,
  -- blas1_matrix_inf_norm.hpp:143-156
  ⟨3, 143, [.A, .init],
    [.span (.rank 2), .val 0],
    [],
    [⟨none, .matrixInfNorm, [.dflt, .par 0, .par 1]⟩]⟩,
  -- blas1_matrix_inf_norm.hpp:176-189
  ⟨3, 176, [.A],
    [.span (.rank 2)],
    [],
    [⟨none, .matrixInfNorm, [.par 0, .ret]⟩]⟩,
  -- blas1_matrix_inf_norm.hpp:191-205
  ⟨3, 191, [.exec, .A],
    [.fwd 0, .span (.rank 2)],
    [],
    [⟨none, .matrixInfNorm, [.par 0, .par 1, .ret]⟩]⟩]

/-- `matrix_one_norm`: blas1_matrix_one_norm.hpp. -/
def matrixOneNormSigs : List Sig := [
  -- blas1_matrix_one_norm.hpp:81-118
  ⟨4, 81, [.exec, .A, .init],
    [.inlineRef, .span (.rank 2), .val 0],
    [],
    []⟩,
  -- blas1_matrix_one_norm.hpp:120-145
  ⟨4, 120, [.exec, .A, .init],
    [.fwd 0, .span (.rank 2), .val 1],
    [],
    [⟨none, .matrixOneNorm, [.inl, .par 1, .par 2]⟩]⟩,
  -- blas1_matrix_one_norm.hpp:147-160
  ⟨4, 147, [.A, .init],
    [.span (.rank 2), .val 0],
    [],
    [⟨none, .matrixOneNorm, [.dflt, .par 0, .par 1]⟩]⟩,
  -- blas1_matrix_one_norm.hpp:178-190
  ⟨4, 178, [.A],
    [.span (.rank 2)],
    [],
    [⟨none, .matrixOneNorm, [.par 0, .ret]⟩]⟩,
  -- blas1_matrix_one_norm.hpp:192-206
  ⟨4, 192, [.exec, .A],
    [.fwd 0, .span (.rank 2)],
    [],
    [⟨none, .matrixOneNorm, [.par 0, .par 1, .ret]⟩]⟩]

/-- `scale`: blas1_scale.hpp. -/
def scaleSigs : List Sig := [
  -- blas1_scale.hpp:105-124
  ⟨5, 105, [.exec, .alpha, .x],
    [.inlineRef, .val 0, .span .pack],
    [],
    []⟩,
  -- blas1_scale.hpp:126-149
  ⟨5, 126, [.exec, .alpha, .x],
    [.fwd 0, .val 1, .span .pack],
    [],
    [⟨none, .scale, [.inl, .par 1, .par 2]⟩]⟩,
  -- blas1_scale.hpp:151-161
  ⟨5, 151, [.alpha, .x],
    [.val 0, .span .pack],
    [],
    [⟨none, .scale, [.dflt, .par 0, .par 1]⟩]⟩]

/-- `copy`: blas1_linalg_copy.hpp. -/
def copySigs : List Sig := [
  -- blas1_linalg_copy.hpp:129-153
  ⟨6, 129, [.exec, .x, .y],
    [.inlineRef, .span .pack, .span .pack],
    [.sameRank 1 2, .rankLe 1 2],
    []⟩,
  -- blas1_linalg_copy.hpp:155-184
  ⟨6, 155, [.exec, .x, .y],
    [.fwd 0, .span .pack, .span .pack],
    [.sameRank 1 2],
    [⟨none, .copy, [.inl, .par 1, .par 2]⟩]⟩,
  -- blas1_linalg_copy.hpp:186-204
  ⟨6, 186, [.x, .y],
    [.span .pack, .span .pack],
    [.sameRank 0 1],
    [⟨none, .copy, [.dflt, .par 0, .par 1]⟩]⟩]

/-- `add`: blas1_linalg_add.hpp. -/
def addSigs : List Sig := [
  -- blas1_linalg_add.hpp:164-198
  ⟨7, 164, [.exec, .x, .y, .z],
    [.inlineRef, .span .pack, .span .pack, .span .pack],
    [.sameRank 1 2, .sameRank 1 3],
    []⟩,
  -- blas1_linalg_add.hpp:200-237
  ⟨7, 200, [.exec, .x, .y, .z],
    [.fwd 0, .span .pack, .span .pack, .span .pack],
    [.sameRank 1 2, .sameRank 1 3],
    [⟨none, .add, [.inl, .par 1, .par 2, .par 3]⟩]⟩,
  -- blas1_linalg_add.hpp:239-263
  ⟨7, 239, [.x, .y, .z],
    [.span .pack, .span .pack, .span .pack],
    [.sameRank 0 1, .sameRank 0 2],
    [⟨none, .add, [.dflt, .par 0, .par 1, .par 2]⟩]⟩]

/-- `dot`: blas1_dot.hpp. -/
def dotSigs : List Sig := [
  -- blas1_dot.hpp:81-107
  ⟨8, 81, [.exec, .v1, .v2, .init],
    [.inlineRef, .span (.rank 1), .span (.rank 1), .val 0],
    [],
    []⟩,
  -- blas1_dot.hpp:109-141
  ⟨8, 109, [.exec, .v1, .v2, .init],
    [.fwd 0, .span (.rank 1), .span (.rank 1), .val 1],
    [],
    [⟨none, .dot, [.inl, .par 1, .par 2, .par 3]⟩]⟩,
  -- blas1_dot.hpp:143-159
  ⟨8, 143, [.v1, .v2, .init],
    [.span (.rank 1), .span (.rank 1), .val 0],
    [],
    [⟨none, .dot, [.dflt, .par 0, .par 1, .par 2]⟩]⟩,
  -- blas1_dot.hpp:224-241
  ⟨8, 224, [.v1, .v2],
    [.span (.rank 1), .span (.rank 1)],
    [],
    [⟨none, .dot, [.par 0, .par 1, .ret]⟩]⟩,
  -- blas1_dot.hpp:243-262
  ⟨8, 243, [.exec, .v1, .v2],
    [.fwd 0, .span (.rank 1), .span (.rank 1)],
    [],
    [⟨none, .dot, [.par 0, .par 1, .par 2, .ret]⟩]⟩]

/-- `dotc`: blas1_dot.hpp. -/
def dotcSigs : List Sig := [
  -- blas1_dot.hpp:161-178
  ⟨8, 161, [.v1, .v2, .init],
    [.span (.rank 1), .span (.rank 1), .val 0],
    [],
    [⟨none, .dot, [.conj 0, .par 1, .par 2]⟩]⟩,
  -- blas1_dot.hpp:180-199
  ⟨8, 180, [.exec, .v1, .v2, .init],
    [.fwd 0, .span (.rank 1), .span (.rank 1), .val 1],
    [],
    [⟨none, .dot, [.par 0, .conj 1, .par 2, .par 3]⟩]⟩,
  -- blas1_dot.hpp:264-281
  ⟨8, 264, [.v1, .v2],
    [.span (.rank 1), .span (.rank 1)],
    [],
    [⟨none, .dotc, [.par 0, .par 1, .ret]⟩]⟩,
  -- blas1_dot.hpp:283-302
  ⟨8, 283, [.exec, .v1, .v2],
    [.fwd 0, .span (.rank 1), .span (.rank 1)],
    [],
    [⟨none, .dotc, [.par 0, .par 1, .par 2, .ret]⟩]⟩]

/-- `vector_sum_of_squares`: blas1_vector_sum_of_squares.hpp. -/
def vectorSumOfSquaresSigs : List Sig := [
  -- blas1_vector_sum_of_squares.hpp:85-126
  ⟨9, 85, [.exec, .x, .init],
    [.inlineRef, .span (.rank 1), .ssq 0],
    [],
    []⟩,
  -- blas1_vector_sum_of_squares.hpp:128-150
  ⟨9, 128, [.exec, .v, .init],
    [.fwd 0, .span (.rank 1), .ssq 1],
    [],
    [⟨none, .vectorSumOfSquares, [.inl, .par 1, .par 2]⟩]⟩,
  -- blas1_vector_sum_of_squares.hpp:152-163
  ⟨9, 152, [.v, .init],
    [.span (.rank 1), .ssq 0],
    [],
    [⟨none, .vectorSumOfSquares, [.dflt, .par 0, .par 1]⟩]⟩]

/-- `vector_two_norm`: blas1_vector_norm2.hpp. -/
def vectorTwoNormSigs : List Sig := [
  -- blas1_vector_norm2.hpp:78-100
  ⟨10, 78, [.exec, .x, .init],
    [.inlineRef, .span (.rank 1), .val 0],
    [],
    [⟨none, .vectorSumOfSquares, [.par 0, .par 1, .ssq 2]⟩]⟩,
  -- blas1_vector_norm2.hpp:102-123
  ⟨10, 102, [.exec, .x, .init],
    [.fwd 0, .span (.rank 1), .val 1],
    [],
    [⟨none, .vectorTwoNorm, [.inl, .par 1, .par 2]⟩]⟩,
  -- blas1_vector_norm2.hpp:125-135
  ⟨10, 125, [.x, .init],
    [.span (.rank 1), .val 0],
    [],
    [⟨none, .vectorTwoNorm, [.dflt, .par 0, .par 1]⟩]⟩,
  -- blas1_vector_norm2.hpp:153-163
  ⟨10, 153, [.x],
    [.span (.rank 1)],
    [],
    [⟨none, .vectorTwoNorm, [.par 0, .ret]⟩]⟩,
  -- blas1_vector_norm2.hpp:165-177
  ⟨10, 165, [.exec, .x],
    [.fwd 0, .span (.rank 1)],
    [],
    [⟨none, .vectorTwoNorm, [.par 0, .par 1, .ret]⟩]⟩]

/-- `vector_abs_sum`: blas1_vector_abs_sum.hpp. -/
def vectorAbsSumSigs : List Sig := [
  -- blas1_vector_abs_sum.hpp:77-108
  ⟨11, 77, [.exec, .v, .init],
    [.inlineRef, .span (.rank 1), .val 0],
    [],
    []⟩,
  -- blas1_vector_abs_sum.hpp:110-131
  ⟨11, 110, [.exec, .v, .init],
    [.fwd 0, .span (.rank 1), .val 1],
    [],
    [⟨none, .vectorAbsSum, [.inl, .par 1, .par 2]⟩]⟩,
  -- blas1_vector_abs_sum.hpp:133-143
  ⟨11, 133, [.v, .init],
    [.span (.rank 1), .val 0],
    [],
    [⟨none, .vectorAbsSum, [.dflt, .par 0, .par 1]⟩]⟩,
  -- blas1_vector_abs_sum.hpp:161-171
  ⟨11, 161, [.x],
    [.span (.rank 1)],
    [],
    [⟨none, .vectorAbsSum, [.par 0, .ret]⟩]⟩,
  -- blas1_vector_abs_sum.hpp:173-185
  ⟨11, 173, [.exec, .x],
    [.fwd 0, .span (.rank 1)],
    [],
    [⟨none, .vectorAbsSum, [.par 0, .par 1, .ret]⟩]⟩]

/-- `vector_idx_abs_max`: blas1_vector_idx_abs_max.hpp. -/
def vectorIdxAbsMaxSigs : List Sig := [
  -- blas1_vector_idx_abs_max.hpp:121-130
  ⟨12, 121, [.exec, .v],
    [.inlineRef, .span (.rank 1)],
    [],
    []⟩,
  -- blas1_vector_idx_abs_max.hpp:132-155
  ⟨12, 132, [.exec, .v],
    [.fwd 0, .span (.rank 1)],
    [],
    [⟨none, .vectorIdxAbsMax, [.inl, .par 1]⟩]⟩,
  -- blas1_vector_idx_abs_max.hpp:157-165
  ⟨12, 157, [.v],
    [.span (.rank 1)],
    [],
    [⟨none, .vectorIdxAbsMax, [.dflt, .par 0]⟩]⟩]

/-- `matrix_vector_product`: blas2_matrix_vector_product.hpp. -/
def matrixVectorProductSigs : List Sig := [
  -- blas2_matrix_vector_product.hpp:275-307
  ⟨13, 275, [.exec, .A, .x, .y],
    [.inlineRef, .span (.rank 2), .span (.rank 1), .span (.rank 1)],
    [.unique 1],
    []⟩,
  -- blas2_matrix_vector_product.hpp:309-341
  ⟨13, 309, [.exec, .A, .x, .y],
    [.fwd 0, .span (.rank 2), .span (.rank 1), .span (.rank 1)],
    [.notSpan 0, .unique 1],
    [⟨none, .matrixVectorProduct, [.inl, .par 1, .par 2, .par 3]⟩]⟩,
  -- blas2_matrix_vector_product.hpp:343-362
  ⟨13, 343, [.A, .x, .y],
    [.span (.rank 2), .span (.rank 1), .span (.rank 1)],
    [],
    [⟨none, .matrixVectorProduct, [.dflt, .par 0, .par 1, .par 2]⟩]⟩,
  -- blas2_matrix_vector_product.hpp:385-426
  ⟨13, 385, [.exec, .A, .x, .y, .z],
    [.inlineRef, .span .any, .span (.rank 1), .span (.rank 1), .span (.rank 1)],
    [.unique 1, .rank 1 2],
    []⟩,
  -- blas2_matrix_vector_product.hpp:429-469
  ⟨13, 429, [.exec, .A, .x, .y, .z],
    [.fwd 0, .span .any, .span (.rank 1), .span (.rank 1), .span .any],
    [.notSpan 0, .unique 1, .rank 1 2, .rank 4 1],
    [⟨none, .matrixVectorProduct, [.inl, .par 1, .par 2, .par 3, .par 4]⟩]⟩,
  -- blas2_matrix_vector_product.hpp:472-501
  ⟨13, 472, [.A, .x, .y, .z],
    [.span .any, .span (.rank 1), .span (.rank 1), .span (.rank 1)],
    [.unique 0, .rank 0 2],
    [⟨none, .matrixVectorProduct, [.dflt, .par 0, .par 1, .par 2, .par 3]⟩]⟩]

/-- `symmetric_matrix_vector_product`: blas2_matrix_vector_product.hpp. -/
def symmetricMatrixVectorProductSigs : List Sig := [
  -- blas2_matrix_vector_product.hpp:506-558
  ⟨13, 506, [.exec, .A, .t, .x, .y],
    [.inlineRef, .span (.rank 2), .val 0, .span (.rank 1), .span (.rank 1)],
    [.unique 1],
    []⟩,
  -- blas2_matrix_vector_product.hpp:560-590
  ⟨13, 560, [.exec, .A, .t, .x, .y],
    [.fwd 0, .span (.rank 2), .val 1, .span (.rank 1), .span (.rank 1)],
    [],
    [⟨none, .symmetricMatrixVectorProduct, [.inl, .par 1, .par 2, .par 3, .par 4]⟩]⟩,
  -- blas2_matrix_vector_product.hpp:592-616
  ⟨13, 592, [.A, .t, .x, .y],
    [.span (.rank 2), .val 0, .span (.rank 1), .span (.rank 1)],
    [.unique 0],
    [⟨none, .symmetricMatrixVectorProduct, [.dflt, .par 0, .par 1, .par 2, .par 3]⟩]⟩,
  -- blas2_matrix_vector_product.hpp:622-681
  ⟨13, 622, [.exec, .A, .t, .x, .y, .z],
    [.inlineRef, .span .any, .val 0, .span (.rank 1), .span (.rank 1), .span .any],
    [.unique 1, .rank 1 2, .rank 5 1],
    []⟩,
  -- blas2_matrix_vector_product.hpp:683-718
  ⟨13, 683, [.exec, .A, .t, .x, .y, .z],
    [.fwd 0, .span (.rank 2), .val 1, .span (.rank 1), .span (.rank 1), .span (.rank 1)],
    [.notInline 0],
    [⟨none, .symmetricMatrixVectorProduct, [.inl, .par 1, .par 2, .par 3, .par 4, .par 5]⟩]⟩,
  -- blas2_matrix_vector_product.hpp:720-753
  ⟨13, 720, [.A, .t, .x, .y, .z],
    [.span .any, .val 0, .span (.rank 1), .span (.rank 1), .span .any],
    [.unique 0, .rank 0 2, .rank 4 1],
    [⟨none, .symmetricMatrixVectorProduct, [.dflt, .par 0, .par 1, .par 2, .par 3, .par 4]⟩]⟩]

/-- `hermitian_matrix_vector_product`: blas2_matrix_vector_product.hpp. -/
def hermitianMatrixVectorProductSigs : List Sig := [
  -- blas2_matrix_vector_product.hpp:759-811
  ⟨13, 759, [.exec, .A, .t, .x, .y],
    [.inlineRef, .span (.rank 2), .val 0, .span (.rank 1), .span (.rank 1)],
    [.unique 1],
    []⟩,
  -- blas2_matrix_vector_product.hpp:813-846
  ⟨13, 813, [.exec, .A, .t, .x, .y],
    [.fwd 0, .span (.rank 2), .val 1, .span (.rank 1), .span (.rank 1)],
    [.unique 1],
    [⟨none, .hermitianMatrixVectorProduct, [.inl, .par 1, .par 2, .par 3, .par 4]⟩]⟩,
  -- blas2_matrix_vector_product.hpp:848-872
  ⟨13, 848, [.A, .t, .x, .y],
    [.span (.rank 2), .val 0, .span (.rank 1), .span (.rank 1)],
    [.unique 0],
    [⟨none, .hermitianMatrixVectorProduct, [.dflt, .par 0, .par 1, .par 2, .par 3]⟩]⟩,
  -- blas2_matrix_vector_product.hpp:878-941
  ⟨13, 878, [.exec, .A, .t, .x, .y, .z],
    [.inlineRef, .span .any, .val 0, .span (.rank 1), .span (.rank 1), .span .any],
    [.unique 1, .rank 1 2, .rank 5 1],
    []⟩,
  -- blas2_matrix_vector_product.hpp:943-978
  ⟨13, 943, [.exec, .A, .t, .x, .y, .z],
    [.fwd 0, .span (.rank 2), .val 1, .span (.rank 1), .span (.rank 1), .span (.rank 1)],
    [.notInline 0],
    [⟨none, .hermitianMatrixVectorProduct, [.inl, .par 1, .par 2, .par 3, .par 4, .par 5]⟩]⟩,
  -- blas2_matrix_vector_product.hpp:981-1014
  ⟨13, 981, [.A, .t, .x, .y, .z],
    [.span .any, .val 0, .span (.rank 1), .span (.rank 1), .span .any],
    [.unique 0, .rank 0 2],
    [⟨none, .hermitianMatrixVectorProduct, [.dflt, .par 0, .par 1, .par 2, .par 3, .par 4]⟩]⟩]

/-- `triangular_matrix_vector_product`: blas2_matrix_vector_product.hpp. -/
def triangularMatrixVectorProductSigs : List Sig := [
  -- blas2_matrix_vector_product.hpp:1019-1077
  ⟨13, 1019, [.exec, .A, .t, .d, .x, .y],
    [.inlineRef, .span (.rank 2), .val 0, .val 1, .span (.rank 1), .span (.rank 1)],
    [.unique 1],
    []⟩,
  -- blas2_matrix_vector_product.hpp:1079-1116
  ⟨13, 1079, [.exec, .A, .t, .d, .x, .y],
    [.fwd 0, .span (.rank 2), .val 1, .val 2, .span (.rank 1), .span (.rank 1)],
    [],
    [⟨none, .triangularMatrixVectorProduct, [.inl, .par 1, .par 2, .par 3, .par 4, .par 5]⟩]⟩,
  -- blas2_matrix_vector_product.hpp:1118-1144
  ⟨13, 1118, [.A, .t, .d, .x, .y],
    [.span (.rank 2), .val 0, .val 1, .span (.rank 1), .span (.rank 1)],
    [.unique 0],
    [⟨none, .triangularMatrixVectorProduct, [.dflt, .par 0, .par 1, .par 2, .par 3, .par 4]⟩]⟩,
  -- blas2_matrix_vector_product.hpp:1149-1222
  ⟨13, 1149, [.exec, .A, .t, .d, .x, .y, .z],
    [.inlineRef, .span .any, .val 0, .val 1, .span (.rank 1), .span .any, .span .any],
    [.unique 1, .rank 1 2],
    []⟩,
  -- blas2_matrix_vector_product.hpp:1224-1263
  ⟨13, 1224, [.exec, .A, .t, .d, .x, .y, .z],
    [.fwd 0, .span (.rank 2), .val 1, .val 2, .span (.rank 1), .span (.rank 1), .span (.rank 1)],
    [.notInline 0],
    [⟨none, .triangularMatrixVectorProduct, [.inl, .par 1, .par 2, .par 3, .par 4, .par 5, .par 6]⟩]⟩,
  -- blas2_matrix_vector_product.hpp:1265-1302
  ⟨13, 1265, [.A, .t, .d, .x, .y, .z],
    [.span .any, .val 0, .val 1, .span (.rank 1), .span .any, .span .any],
    [.unique 0, .rank 0 2],
    [⟨none, .triangularMatrixVectorProduct, [.dflt, .par 0, .par 1, .par 2, .par 3, .par 4, .par 5]⟩]⟩,
  -- blas2_matrix_vector_product.hpp:1306-1356
  ⟨13, 1306, [.exec, .A, .t, .d, .y],
    [.inlineRef, .span (.rank 2), .val 0, .val 1, .span (.rank 1)],
    [.unique 1],
    []⟩,
  -- blas2_matrix_vector_product.hpp:1358-1388
  ⟨13, 1358, [.exec, .A, .t, .d, .y],
    [.fwd 0, .span (.rank 2), .val 1, .val 2, .span (.rank 1)],
    [],
    [⟨none, .triangularMatrixVectorProduct, [.inl, .par 1, .par 2, .par 3, .par 4]⟩]⟩,
  -- blas2_matrix_vector_product.hpp:1390-1413
  ⟨13, 1390, [.A, .t, .d, .y],
    [.span (.rank 2), .val 0, .val 1, .span (.rank 1)],
    [.unique 0],
    [⟨none, .triangularMatrixVectorProduct, [.dflt, .par 0, .par 1, .par 2, .par 3]⟩]⟩]

/-- `triangular_matrix_vector_solve`: blas2_matrix_vector_solve.hpp. -/
def triangularMatrixVectorSolveSigs : List Sig := [
  -- blas2_matrix_vector_solve.hpp:229-260
  ⟨14, 229, [.exec, .A, .t, .d, .b, .x, .divide],
    [.inlineRef, .span (.rank 2), .val 0, .val 1, .span (.rank 1), .span (.rank 1), .val 2],
    [],
    []⟩,
  -- blas2_matrix_vector_solve.hpp:262-287
  ⟨14, 262, [.exec, .A, .t, .d, .b, .x],
    [.inlineRef, .span (.rank 2), .val 0, .val 1, .span (.rank 1), .span (.rank 1)],
    [],
    [⟨none, .triangularMatrixVectorSolve, [.move 0, .par 1, .par 2, .par 3, .par 4, .par 5, .divide]⟩]⟩,
  -- blas2_matrix_vector_solve.hpp:291-320
  ⟨14, 291, [.exec, .A, .t, .d, .b, .x, .divide],
    [.fwd 0, .span (.rank 2), .val 1, .val 2, .span (.rank 1), .span (.rank 1), .val 3],
    [],
    [⟨none, .triangularMatrixVectorSolve, [.inl, .par 1, .par 2, .par 3, .par 4, .par 5, .par 6]⟩]⟩,
  -- blas2_matrix_vector_solve.hpp:322-358
  ⟨14, 322, [.exec, .A, .t, .d, .b, .x],
    [.fwd 0, .span (.rank 2), .val 1, .val 2, .span (.rank 1), .span (.rank 1)],
    [],
    [⟨none, .triangularMatrixVectorSolve, [.inl, .par 1, .par 2, .par 3, .par 4, .par 5]⟩]⟩,
  -- blas2_matrix_vector_solve.hpp:362-388
  ⟨14, 362, [.A, .t, .d, .b, .x, .divide],
    [.span (.rank 2), .val 0, .val 1, .span (.rank 1), .span (.rank 1), .val 2],
    [],
    [⟨none, .triangularMatrixVectorSolve, [.dflt, .par 0, .par 1, .par 2, .par 3, .par 4, .par 5]⟩]⟩,
  -- blas2_matrix_vector_solve.hpp:390-414
  ⟨14, 390, [.A, .t, .d, .b, .x],
    [.span (.rank 2), .val 0, .val 1, .span (.rank 1), .span (.rank 1)],
    [],
    [⟨none, .triangularMatrixVectorSolve, [.dflt, .par 0, .par 1, .par 2, .par 3, .par 4]⟩]⟩]

/-- `matrix_rank_1_update`: blas2_matrix_rank_1_update.hpp. -/
def matrixRank1UpdateSigs : List Sig := [
  -- blas2_matrix_rank_1_update.hpp:164-190
  ⟨15, 164, [.exec, .x, .y, .A],
    [.inlineRef, .span (.rank 1), .span (.rank 1), .span (.rank 2)],
    [],
    []⟩,
  -- blas2_matrix_rank_1_update.hpp:192-222
  ⟨15, 192, [.exec, .x, .y, .A],
    [.fwd 0, .span (.rank 1), .span (.rank 1), .span (.rank 2)],
    [],
    [⟨none, .matrixRank1Update, [.inl, .par 1, .par 2, .par 3]⟩]⟩,
  -- blas2_matrix_rank_1_update.hpp:224-243
  ⟨15, 224, [.x, .y, .A],
    [.span (.rank 1), .span (.rank 1), .span (.rank 2)],
    [],
    [⟨none, .matrixRank1Update, [.dflt, .par 0, .par 1, .par 2]⟩]⟩]

/-- `matrix_rank_1_update_c`: blas2_matrix_rank_1_update.hpp. -/
def matrixRank1UpdateCSigs : List Sig := [
  -- blas2_matrix_rank_1_update.hpp:248-267
  ⟨15, 248, [.x, .y, .A],
    [.span (.rank 1), .span (.rank 1), .span (.rank 2)],
    [],
    [⟨none, .matrixRank1Update, [.par 0, .conj 1, .par 2]⟩]⟩,
  -- blas2_matrix_rank_1_update.hpp:269-290
  ⟨15, 269, [.exec, .x, .y, .A],
    [.fwd 0, .span (.rank 1), .span (.rank 1), .span (.rank 2)],
    [],
    [⟨none, .matrixRank1Update, [.par 0, .par 1, .conj 2, .par 3]⟩]⟩]

/-- `symmetric_matrix_rank_1_update`: blas2_matrix_rank_1_update.hpp. -/
def symmetricMatrixRank1UpdateSigs : List Sig := [
  -- blas2_matrix_rank_1_update.hpp:296-336
  ⟨15, 296, [.exec, .alpha, .x, .A, .t],
    [.inlineRef, .val 0, .span (.rank 1), .span (.rank 2), .val 1],
    [.triangle 1],
    []⟩,
  -- blas2_matrix_rank_1_update.hpp:338-374
  ⟨15, 338, [.exec, .alpha, .x, .A, .t],
    [.fwd 0, .val 1, .span (.rank 1), .span (.rank 2), .val 2],
    [.policy 0, .triangle 2],
    [⟨none, .symmetricMatrixRank1Update, [.inl, .par 1, .par 2, .par 3, .par 4]⟩]⟩,
  -- blas2_matrix_rank_1_update.hpp:376-401
  ⟨15, 376, [.alpha, .x, .A, .t],
    [.val 0, .span (.rank 1), .span (.rank 2), .val 1],
    [.notPolicy 0, .triangle 1],
    [⟨none, .symmetricMatrixRank1Update, [.dflt, .par 0, .par 1, .par 2, .par 3]⟩]⟩,
  -- blas2_matrix_rank_1_update.hpp:405-443
  ⟨15, 405, [.exec, .x, .A, .t],
    [.inlineRef, .span (.rank 1), .span (.rank 2), .val 0],
    [.triangle 0],
    []⟩,
  -- blas2_matrix_rank_1_update.hpp:445-479
  ⟨15, 445, [.exec, .x, .A, .t],
    [.fwd 0, .span (.rank 1), .span (.rank 2), .val 1],
    [.policy 0, .triangle 1],
    [⟨none, .symmetricMatrixRank1Update, [.inl, .par 1, .par 2, .par 3]⟩]⟩,
  -- blas2_matrix_rank_1_update.hpp:481-503
  ⟨15, 481, [.x, .A, .t],
    [.span (.rank 1), .span (.rank 2), .val 0],
    [.triangle 0],
    [⟨none, .symmetricMatrixRank1Update, [.dflt, .par 0, .par 1, .par 2]⟩]⟩]

/-- `hermitian_matrix_rank_1_update`: blas2_matrix_rank_1_update.hpp. -/
def hermitianMatrixRank1UpdateSigs : List Sig := [
  -- blas2_matrix_rank_1_update.hpp:509-551
  ⟨15, 509, [.exec, .alpha, .x, .A, .t],
    [.inlineRef, .val 0, .span (.rank 1), .span (.rank 2), .val 1],
    [.triangle 1],
    []⟩,
  -- blas2_matrix_rank_1_update.hpp:553-589
  ⟨15, 553, [.exec, .alpha, .x, .A, .t],
    [.fwd 0, .val 1, .span (.rank 1), .span (.rank 2), .val 2],
    [.policy 0, .triangle 2],
    [⟨none, .hermitianMatrixRank1Update, [.inl, .par 1, .par 2, .par 3, .par 4]⟩]⟩,
  -- blas2_matrix_rank_1_update.hpp:591-616
  ⟨15, 591, [.alpha, .x, .A, .t],
    [.val 0, .span (.rank 1), .span (.rank 2), .val 1],
    [.notPolicy 0, .triangle 1],
    [⟨none, .hermitianMatrixRank1Update, [.dflt, .par 0, .par 1, .par 2, .par 3]⟩]⟩,
  -- blas2_matrix_rank_1_update.hpp:620-660
  ⟨15, 620, [.exec, .x, .A, .t],
    [.inlineRef, .span (.rank 1), .span (.rank 2), .val 0],
    [.triangle 0],
    []⟩,
  -- blas2_matrix_rank_1_update.hpp:662-696
  ⟨15, 662, [.exec, .x, .A, .t],
    [.fwd 0, .span (.rank 1), .span (.rank 2), .val 1],
    [.policy 0, .triangle 1],
    [⟨none, .hermitianMatrixRank1Update, [.inl, .par 1, .par 2, .par 3]⟩]⟩,
  -- blas2_matrix_rank_1_update.hpp:698-720
  ⟨15, 698, [.x, .A, .t],
    [.span (.rank 1), .span (.rank 2), .val 0],
    [.triangle 0],
    [⟨none, .hermitianMatrixRank1Update, [.dflt, .par 0, .par 1, .par 2]⟩]⟩]

/-- `symmetric_matrix_rank_2_update`: blas2_matrix_rank_2_update.hpp. -/
def symmetricMatrixRank2UpdateSigs : List Sig := [
  -- blas2_matrix_rank_2_update.hpp:101-132
  ⟨16, 101, [.exec, .x, .y, .A, .t],
    [.inlineRef, .span (.rank 1), .span (.rank 1), .span (.rank 2), .val 0],
    [],
    []⟩,
  -- blas2_matrix_rank_2_update.hpp:134-165
  ⟨16, 134, [.exec, .x, .y, .A, .t],
    [.fwd 0, .span (.rank 1), .span (.rank 1), .span (.rank 2), .val 1],
    [],
    [⟨none, .symmetricMatrixRank2Update, [.inl, .par 1, .par 2, .par 3, .par 4]⟩]⟩,
  -- blas2_matrix_rank_2_update.hpp:167-187
  ⟨16, 167, [.x, .y, .A, .t],
    [.span (.rank 1), .span (.rank 1), .span (.rank 2), .val 0],
    [],
    [⟨none, .symmetricMatrixRank2Update, [.dflt, .par 0, .par 1, .par 2, .par 3]⟩]⟩]

/-- `hermitian_matrix_rank_2_update`: blas2_matrix_rank_2_update.hpp. -/
def hermitianMatrixRank2UpdateSigs : List Sig := [
  -- blas2_matrix_rank_2_update.hpp:192-225
  ⟨16, 192, [.exec, .x, .y, .A, .t],
    [.inlineRef, .span (.rank 1), .span (.rank 1), .span (.rank 2), .val 0],
    [],
    []⟩,
  -- blas2_matrix_rank_2_update.hpp:227-258
  ⟨16, 227, [.exec, .x, .y, .A, .t],
    [.fwd 0, .span (.rank 1), .span (.rank 1), .span (.rank 2), .val 1],
    [],
    [⟨none, .hermitianMatrixRank2Update, [.inl, .par 1, .par 2, .par 3, .par 4]⟩]⟩,
  -- blas2_matrix_rank_2_update.hpp:260-280
  ⟨16, 260, [.x, .y, .A, .t],
    [.span (.rank 1), .span (.rank 1), .span (.rank 2), .val 0],
    [],
    [⟨none, .hermitianMatrixRank2Update, [.dflt, .par 0, .par 1, .par 2, .par 3]⟩]⟩]

/-- `matrix_product`: blas3_matrix_product.hpp. -/
def matrixProductSigs : List Sig := [
  -- blas3_matrix_product.hpp:655-732
  ⟨17, 655, [.exec, .A, .B, .C],
    [.inlineRef, .span (.rank 2), .span (.rank 2), .span (.rank 2)],
    [],
    []⟩,
  -- blas3_matrix_product.hpp:734-761
  ⟨17, 734, [.exec, .A, .B, .C],
    [.fwd 0, .span (.rank 2), .span (.rank 2), .span (.rank 2)],
    [],
    [⟨none, .matrixProduct, [.inl, .par 1, .par 2, .par 3]⟩]⟩,
  -- blas3_matrix_product.hpp:763-781
  ⟨17, 763, [.A, .B, .C],
    [.span (.rank 2), .span (.rank 2), .span (.rank 2)],
    [],
    [⟨none, .matrixProduct, [.dflt, .par 0, .par 1, .par 2]⟩]⟩,
  -- blas3_matrix_product.hpp:786-819
  ⟨17, 786, [.exec, .A, .B, .E, .C],
    [.inlineRef, .span (.rank 2), .span (.rank 2), .span (.rank 2), .span (.rank 2)],
    [],
    []⟩,
  -- blas3_matrix_product.hpp:821-854
  ⟨17, 821, [.exec, .A, .B, .E, .C],
    [.fwd 0, .span (.rank 2), .span (.rank 2), .span (.rank 2), .span (.rank 2)],
    [],
    [⟨none, .matrixProduct, [.inl, .par 1, .par 2, .par 3, .par 4]⟩]⟩,
  -- blas3_matrix_product.hpp:856-879
  ⟨17, 856, [.A, .B, .E, .C],
    [.span (.rank 2), .span (.rank 2), .span (.rank 2), .span (.rank 2)],
    [],
    [⟨none, .matrixProduct, [.dflt, .par 0, .par 1, .par 2, .par 3]⟩]⟩]

/-- `triangular_matrix_product`: blas3_matrix_product.hpp. -/
def triangularMatrixProductSigs : List Sig := [
  -- blas3_matrix_product.hpp:884-938
  ⟨17, 884, [.exec, .A, .t, .d, .B, .C],
    [.inlineRef, .span (.rank 2), .val 0, .val 1, .span (.rank 2), .span (.rank 2)],
    [],
    []⟩,
  -- blas3_matrix_product.hpp:940-971
  ⟨17, 940, [.exec, .A, .t, .d, .B, .C],
    [.fwd 0, .span (.rank 2), .val 1, .val 2, .span (.rank 2), .span (.rank 2)],
    [],
    [⟨none, .triangularMatrixProduct, [.inl, .par 1, .par 2, .par 3, .par 4, .par 5]⟩]⟩,
  -- blas3_matrix_product.hpp:973-995
  ⟨17, 973, [.A, .t, .d, .B, .C],
    [.span (.rank 2), .val 0, .val 1, .span (.rank 2), .span (.rank 2)],
    [],
    [⟨none, .triangularMatrixProduct, [.dflt, .par 0, .par 1, .par 2, .par 3, .par 4]⟩]⟩,
  -- blas3_matrix_product.hpp:998-1052
  ⟨17, 998, [.exec, .B, .A, .t, .d, .C],
    [.inlineRef, .span (.rank 2), .span (.rank 2), .val 0, .val 1, .span (.rank 2)],
    [],
    []⟩,
  -- blas3_matrix_product.hpp:1054-1086
  ⟨17, 1054, [.exec, .B, .A, .t, .d, .C],
    [.fwd 0, .span (.rank 2), .span (.rank 2), .val 1, .val 2, .span (.rank 2)],
    [],
    [⟨none, .triangularMatrixProduct, [.inl, .par 1, .par 2, .par 3, .par 4, .par 5]⟩]⟩,
  -- blas3_matrix_product.hpp:1088-1110
  ⟨17, 1088, [.B, .A, .t, .d, .C],
    [.span (.rank 2), .span (.rank 2), .val 0, .val 1, .span (.rank 2)],
    [],
    [⟨none, .triangularMatrixProduct, [.dflt, .par 0, .par 1, .par 2, .par 3, .par 4]⟩]⟩]

/-- `triangular_matrix_left_product`: blas3_matrix_product.hpp. -/
def triangularMatrixLeftProductSigs : List Sig := [
  -- blas3_matrix_product.hpp:1115-1160
  ⟨17, 1115, [.exec, .A, .t, .d, .C],
    [.inlineRef, .span (.rank 2), .val 0, .val 1, .span (.rank 2)],
    [],
    []⟩,
  -- blas3_matrix_product.hpp:1162-1188
  ⟨17, 1162, [.exec, .A, .t, .d, .C],
    [.fwd 0, .span (.rank 2), .val 1, .val 2, .span (.rank 2)],
    [],
    [⟨none, .triangularMatrixLeftProduct, [.inl, .par 1, .par 2, .par 3, .par 4]⟩]⟩,
  -- blas3_matrix_product.hpp:1190-1207
  ⟨17, 1190, [.A, .t, .d, .C],
    [.span (.rank 2), .val 0, .val 1, .span (.rank 2)],
    [],
    [⟨none, .triangularMatrixLeftProduct, [.dflt, .par 0, .par 1, .par 2, .par 3]⟩]⟩]

/-- `triangular_matrix_right_product`: blas3_matrix_product.hpp. -/
def triangularMatrixRightProductSigs : List Sig := [
  -- blas3_matrix_product.hpp:1209-1258
  ⟨17, 1209, [.exec, .A, .t, .d, .C],
    [.inlineRef, .span (.rank 2), .val 0, .val 1, .span (.rank 2)],
    [],
    []⟩,
  -- blas3_matrix_product.hpp:1260-1286
  ⟨17, 1260, [.exec, .A, .t, .d, .C],
    [.fwd 0, .span (.rank 2), .val 1, .val 2, .span (.rank 2)],
    [],
    [⟨none, .triangularMatrixRightProduct, [.inl, .par 1, .par 2, .par 3, .par 4]⟩]⟩,
  -- blas3_matrix_product.hpp:1288-1305
  ⟨17, 1288, [.A, .t, .d, .C],
    [.span (.rank 2), .val 0, .val 1, .span (.rank 2)],
    [],
    [⟨none, .triangularMatrixRightProduct, [.dflt, .par 0, .par 1, .par 2, .par 3]⟩]⟩]

/-- `symmetric_matrix_product`: blas3_matrix_product.hpp. -/
def symmetricMatrixProductSigs : List Sig := [
  -- blas3_matrix_product.hpp:1310-1354
  ⟨17, 1310, [.exec, .A, .t, .B, .C],
    [.inlineRef, .span (.rank 2), .val 0, .span (.rank 2), .span (.rank 2)],
    [],
    []⟩,
  -- blas3_matrix_product.hpp:1356-1386
  ⟨17, 1356, [.exec, .A, .t, .B, .C],
    [.fwd 0, .span (.rank 2), .val 1, .span (.rank 2), .span (.rank 2)],
    [],
    [⟨none, .symmetricMatrixProduct, [.inl, .par 1, .par 2, .par 3, .par 4]⟩]⟩,
  -- blas3_matrix_product.hpp:1388-1408
  ⟨17, 1388, [.A, .t, .B, .C],
    [.span (.rank 2), .val 0, .span (.rank 2), .span (.rank 2)],
    [],
    [⟨none, .symmetricMatrixProduct, [.dflt, .par 0, .par 1, .par 2, .par 3]⟩]⟩,
  -- blas3_matrix_product.hpp:1413-1457
  ⟨17, 1413, [.exec, .B, .A, .t, .C],
    [.inlineRef, .span (.rank 2), .span (.rank 2), .val 0, .span (.rank 2)],
    [],
    []⟩,
  -- blas3_matrix_product.hpp:1459-1489
  ⟨17, 1459, [.exec, .B, .A, .t, .C],
    [.fwd 0, .span (.rank 2), .span (.rank 2), .val 1, .span (.rank 2)],
    [],
    [⟨none, .symmetricMatrixProduct, [.inl, .par 1, .par 2, .par 3, .par 4]⟩]⟩,
  -- blas3_matrix_product.hpp:1491-1511
  ⟨17, 1491, [.B, .A, .t, .C],
    [.span (.rank 2), .span (.rank 2), .val 0, .span (.rank 2)],
    [],
    [⟨none, .symmetricMatrixProduct, [.dflt, .par 0, .par 1, .par 2, .par 3]⟩]⟩,
  -- blas3_matrix_product.hpp:1516-1542
  ⟨17, 1516, [.exec, .A, .t, .B, .E, .C],
    [.inlineRef, .span (.rank 2), .val 0, .span (.rank 2), .span (.rank 2), .span (.rank 2)],
    [],
    []⟩,
  -- blas3_matrix_product.hpp:1544-1578
  ⟨17, 1544, [.exec, .A, .t, .B, .E, .C],
    [.fwd 0, .span (.rank 2), .val 1, .span (.rank 2), .span (.rank 2), .span (.rank 2)],
    [],
    [⟨none, .symmetricMatrixProduct, [.inl, .par 1, .par 2, .par 3, .par 4, .par 5]⟩]⟩,
  -- blas3_matrix_product.hpp:1580-1605
  ⟨17, 1580, [.A, .t, .B, .E, .C],
    [.span (.rank 2), .val 0, .span (.rank 2), .span (.rank 2), .span (.rank 2)],
    [],
    [⟨none, .symmetricMatrixProduct, [.dflt, .par 0, .par 1, .par 2, .par 3, .par 4]⟩]⟩,
  -- blas3_matrix_product.hpp:1610-1636
  ⟨17, 1610, [.exec, .B, .A, .t, .E, .C],
    [.inlineRef, .span (.rank 2), .span (.rank 2), .val 0, .span (.rank 2), .span (.rank 2)],
    [],
    []⟩,
  -- blas3_matrix_product.hpp:1638-1672
  ⟨17, 1638, [.exec, .B, .A, .t, .E, .C],
    [.fwd 0, .span (.rank 2), .span (.rank 2), .val 1, .span (.rank 2), .span (.rank 2)],
    [],
    [⟨none, .symmetricMatrixProduct, [.inl, .par 1, .par 2, .par 3, .par 4, .par 5]⟩]⟩,
  -- blas3_matrix_product.hpp:1674-1699
  ⟨17, 1674, [.B, .A, .t, .E, .C],
    [.span (.rank 2), .span (.rank 2), .val 0, .span (.rank 2), .span (.rank 2)],
    [],
    [⟨none, .symmetricMatrixProduct, [.dflt, .par 0, .par 1, .par 2, .par 3, .par 4]⟩]⟩]

/-- `hermitian_matrix_product`: blas3_matrix_product.hpp. -/
def hermitianMatrixProductSigs : List Sig := [
  -- blas3_matrix_product.hpp:1704-1754
  ⟨17, 1704, [.exec, .A, .t, .B, .C],
    [.inlineRef, .span (.rank 2), .val 0, .span (.rank 2), .span (.rank 2)],
    [],
    []⟩,
  -- blas3_matrix_product.hpp:1756-1786
  ⟨17, 1756, [.exec, .A, .t, .B, .C],
    [.fwd 0, .span (.rank 2), .val 1, .span (.rank 2), .span (.rank 2)],
    [],
    [⟨none, .hermitianMatrixProduct, [.inl, .par 1, .par 2, .par 3, .par 4]⟩]⟩,
  -- blas3_matrix_product.hpp:1788-1808
  ⟨17, 1788, [.A, .t, .B, .C],
    [.span (.rank 2), .val 0, .span (.rank 2), .span (.rank 2)],
    [],
    [⟨none, .hermitianMatrixProduct, [.dflt, .par 0, .par 1, .par 2, .par 3]⟩]⟩,
  -- blas3_matrix_product.hpp:1812-1856
  ⟨17, 1812, [.exec, .B, .A, .t, .C],
    [.inlineRef, .span (.rank 2), .span (.rank 2), .val 0, .span (.rank 2)],
    [],
    []⟩,
  -- blas3_matrix_product.hpp:1858-1888
  ⟨17, 1858, [.exec, .B, .A, .t, .C],
    [.fwd 0, .span (.rank 2), .span (.rank 2), .val 1, .span (.rank 2)],
    [],
    [⟨none, .hermitianMatrixProduct, [.inl, .par 1, .par 2, .par 3, .par 4]⟩]⟩,
  -- blas3_matrix_product.hpp:1890-1910
  ⟨17, 1890, [.B, .A, .t, .C],
    [.span (.rank 2), .span (.rank 2), .val 0, .span (.rank 2)],
    [],
    [⟨none, .hermitianMatrixProduct, [.dflt, .par 0, .par 1, .par 2, .par 3]⟩]⟩,
  -- blas3_matrix_product.hpp:1915-1941
  ⟨17, 1915, [.exec, .A, .t, .B, .E, .C],
    [.inlineRef, .span (.rank 2), .val 0, .span (.rank 2), .span (.rank 2), .span (.rank 2)],
    [],
    []⟩,
  -- blas3_matrix_product.hpp:1943-1977
  ⟨17, 1943, [.exec, .A, .t, .B, .E, .C],
    [.fwd 0, .span (.rank 2), .val 1, .span (.rank 2), .span (.rank 2), .span (.rank 2)],
    [],
    [⟨none, .hermitianMatrixProduct, [.inl, .par 1, .par 2, .par 3, .par 4, .par 5]⟩]⟩,
  -- blas3_matrix_product.hpp:1979-2004
  ⟨17, 1979, [.A, .t, .B, .E, .C],
    [.span (.rank 2), .val 0, .span (.rank 2), .span (.rank 2), .span (.rank 2)],
    [],
    [⟨none, .hermitianMatrixProduct, [.dflt, .par 0, .par 1, .par 2, .par 3, .par 4]⟩]⟩,
  -- blas3_matrix_product.hpp:2009-2035
  ⟨17, 2009, [.exec, .B, .A, .t, .E, .C],
    [.inlineRef, .span (.rank 2), .span (.rank 2), .val 0, .span (.rank 2), .span (.rank 2)],
    [],
    []⟩,
  -- blas3_matrix_product.hpp:2037-2071
  ⟨17, 2037, [.exec, .B, .A, .t, .E, .C],
    [.fwd 0, .span (.rank 2), .span (.rank 2), .val 1, .span (.rank 2), .span (.rank 2)],
    [],
    [⟨none, .hermitianMatrixProduct, [.inl, .par 1, .par 2, .par 3, .par 4, .par 5]⟩]⟩,
  -- blas3_matrix_product.hpp:2073-2098
  ⟨17, 2073, [.B, .A, .t, .E, .C],
    [.span (.rank 2), .span (.rank 2), .val 0, .span (.rank 2), .span (.rank 2)],
    [],
    [⟨none, .hermitianMatrixProduct, [.dflt, .par 0, .par 1, .par 2, .par 3, .par 4]⟩]⟩]

/-- `symmetric_matrix_rank_k_update`: blas3_matrix_rank_k_update.hpp. -/
def symmetricMatrixRankKUpdateSigs : List Sig := [
  -- blas3_matrix_rank_k_update.hpp:127-163
  ⟨18, 127, [.exec, .alpha, .A, .C, .t],
    [.inlineRef, .val 0, .span (.rank 2), .span (.rank 2), .val 1],
    [.triangle 1],
    []⟩,
  -- blas3_matrix_rank_k_update.hpp:165-199
  ⟨18, 165, [.exec, .alpha, .A, .C, .t],
    [.fwd 0, .val 1, .span (.rank 2), .span (.rank 2), .val 2],
    [.policy 0, .triangle 2],
    [⟨none, .symmetricMatrixRankKUpdate, [.inl, .par 1, .par 2, .par 3, .par 4]⟩]⟩,
  -- blas3_matrix_rank_k_update.hpp:201-225
  ⟨18, 201, [.alpha, .A, .C, .t],
    [.val 0, .span (.rank 2), .span (.rank 2), .val 1],
    [.notPolicy 0, .triangle 1],
    [⟨none, .symmetricMatrixRankKUpdate, [.dflt, .par 0, .par 1, .par 2, .par 3]⟩]⟩,
  -- blas3_matrix_rank_k_update.hpp:229-263
  ⟨18, 229, [.exec, .A, .C, .t],
    [.inlineRef, .span (.rank 2), .span (.rank 2), .val 0],
    [.triangle 0],
    []⟩,
  -- blas3_matrix_rank_k_update.hpp:265-297
  ⟨18, 265, [.exec, .A, .C, .t],
    [.fwd 0, .span (.rank 2), .span (.rank 2), .val 1],
    [.policy 0, .triangle 1],
    [⟨none, .symmetricMatrixRankKUpdate, [.inl, .par 1, .par 2, .par 3]⟩]⟩,
  -- blas3_matrix_rank_k_update.hpp:299-320
  ⟨18, 299, [.A, .C, .t],
    [.span (.rank 2), .span (.rank 2), .val 0],
    [.triangle 0],
    [⟨none, .symmetricMatrixRankKUpdate, [.dflt, .par 0, .par 1, .par 2]⟩]⟩]

/-- `hermitian_matrix_rank_k_update`: blas3_matrix_rank_k_update.hpp. -/
def hermitianMatrixRankKUpdateSigs : List Sig := [
  -- blas3_matrix_rank_k_update.hpp:326-365
  ⟨18, 326, [.exec, .alpha, .A, .C, .t],
    [.inlineRef, .val 0, .span (.rank 2), .span (.rank 2), .val 1],
    [.triangle 1],
    []⟩,
  -- blas3_matrix_rank_k_update.hpp:367-401
  ⟨18, 367, [.exec, .alpha, .A, .C, .t],
    [.fwd 0, .val 1, .span (.rank 2), .span (.rank 2), .val 2],
    [.policy 0, .triangle 2],
    [⟨none, .hermitianMatrixRankKUpdate, [.inl, .par 1, .par 2, .par 3, .par 4]⟩]⟩,
  -- blas3_matrix_rank_k_update.hpp:403-427
  ⟨18, 403, [.alpha, .A, .C, .t],
    [.val 0, .span (.rank 2), .span (.rank 2), .val 1],
    [.notPolicy 0, .triangle 1],
    [⟨none, .hermitianMatrixRankKUpdate, [.dflt, .par 0, .par 1, .par 2, .par 3]⟩]⟩,
  -- blas3_matrix_rank_k_update.hpp:431-468
  ⟨18, 431, [.exec, .A, .C, .t],
    [.inlineRef, .span (.rank 2), .span (.rank 2), .val 0],
    [.triangle 0],
    []⟩,
  -- blas3_matrix_rank_k_update.hpp:470-502
  ⟨18, 470, [.exec, .A, .C, .t],
    [.fwd 0, .span (.rank 2), .span (.rank 2), .val 1],
    [.policy 0, .triangle 1],
    [⟨none, .hermitianMatrixRankKUpdate, [.inl, .par 1, .par 2, .par 3]⟩]⟩,
  -- blas3_matrix_rank_k_update.hpp:504-525
  ⟨18, 504, [.A, .C, .t],
    [.span (.rank 2), .span (.rank 2), .val 0],
    [.triangle 0],
    [⟨none, .hermitianMatrixRankKUpdate, [.dflt, .par 0, .par 1, .par 2]⟩]⟩]

/-- `symmetric_matrix_rank_2k_update`: blas3_matrix_rank_2k_update.hpp. -/
def symmetricMatrixRank2kUpdateSigs : List Sig := [
  -- blas3_matrix_rank_2k_update.hpp:95-128
  ⟨19, 95, [.exec, .A, .B, .C, .t],
    [.inlineRef, .span (.rank 2), .span (.rank 2), .span (.rank 2), .val 0],
    [],
    []⟩,
  -- blas3_matrix_rank_2k_update.hpp:130-160
  ⟨19, 130, [.exec, .A, .B, .C, .t],
    [.fwd 0, .span (.rank 2), .span (.rank 2), .span (.rank 2), .val 1],
    [],
    [⟨none, .symmetricMatrixRank2kUpdate, [.inl, .par 1, .par 2, .par 3, .par 4]⟩]⟩,
  -- blas3_matrix_rank_2k_update.hpp:162-182
  ⟨19, 162, [.A, .B, .C, .t],
    [.span (.rank 2), .span (.rank 2), .span (.rank 2), .val 0],
    [],
    [⟨none, .symmetricMatrixRank2kUpdate, [.dflt, .par 0, .par 1, .par 2, .par 3]⟩]⟩]

/-- `hermitian_matrix_rank_2k_update`: blas3_matrix_rank_2k_update.hpp. -/
def hermitianMatrixRank2kUpdateSigs : List Sig := [
  -- blas3_matrix_rank_2k_update.hpp:187-221
  ⟨19, 187, [.exec, .A, .B, .C, .t],
    [.inlineRef, .span (.rank 2), .span (.rank 2), .span (.rank 2), .val 0],
    [],
    []⟩,
  -- blas3_matrix_rank_2k_update.hpp:223-253
  ⟨19, 223, [.exec, .A, .B, .C, .t],
    [.fwd 0, .span (.rank 2), .span (.rank 2), .span (.rank 2), .val 1],
    [],
    [⟨none, .hermitianMatrixRank2kUpdate, [.inl, .par 1, .par 2, .par 3, .par 4]⟩]⟩,
  -- blas3_matrix_rank_2k_update.hpp:255-275
  ⟨19, 255, [.A, .B, .C, .t],
    [.span (.rank 2), .span (.rank 2), .span (.rank 2), .val 0],
    [],
    [⟨none, .hermitianMatrixRank2kUpdate, [.dflt, .par 0, .par 1, .par 2, .par 3]⟩]⟩]

/-- `triangular_matrix_matrix_left_solve`: blas3_triangular_matrix_matrix_solve.hpp. -/
def triangularMatrixMatrixLeftSolveSigs : List Sig := [
  -- blas3_triangular_matrix_matrix_solve.hpp:282-303
  ⟨20, 282, [.exec, .A, .t, .d, .B, .X],
    [.inlineRef, .span (.rank 2), .val 0, .val 1, .span (.rank 2), .span (.rank 2)],
    [],
    []⟩,
  -- blas3_triangular_matrix_matrix_solve.hpp:305-330
  ⟨20, 305, [.exec, .A, .t, .d, .B, .X],
    [.fwd 0, .span (.rank 2), .val 1, .val 2, .span (.rank 2), .span (.rank 2)],
    [],
    [⟨none, .triangularMatrixMatrixLeftSolve, [.inl, .par 1, .par 2, .par 3, .par 4, .par 5]⟩]⟩,
  -- blas3_triangular_matrix_matrix_solve.hpp:332-347
  ⟨20, 332, [.A, .t, .d, .B, .X],
    [.span (.rank 2), .val 0, .val 1, .span (.rank 2), .span (.rank 2)],
    [],
    [⟨none, .triangularMatrixMatrixLeftSolve, [.dflt, .par 0, .par 1, .par 2, .par 3, .par 4]⟩]⟩]

/-- `triangular_matrix_matrix_right_solve`: blas3_triangular_matrix_matrix_solve.hpp. -/
def triangularMatrixMatrixRightSolveSigs : List Sig := [
  -- blas3_triangular_matrix_matrix_solve.hpp:351-372
  ⟨20, 351, [.exec, .A, .t, .d, .B, .X],
    [.inlineRef, .span (.rank 2), .val 0, .val 1, .span (.rank 2), .span (.rank 2)],
    [],
    []⟩,
  -- blas3_triangular_matrix_matrix_solve.hpp:374-399
  ⟨20, 374, [.exec, .A, .t, .d, .B, .X],
    [.fwd 0, .span (.rank 2), .val 1, .val 2, .span (.rank 2), .span (.rank 2)],
    [],
    [⟨none, .triangularMatrixMatrixRightSolve, [.inl, .par 1, .par 2, .par 3, .par 4, .par 5]⟩]⟩,
  -- blas3_triangular_matrix_matrix_solve.hpp:401-416
  ⟨20, 401, [.A, .t, .d, .B, .X],
    [.span (.rank 2), .val 0, .val 1, .span (.rank 2), .span (.rank 2)],
    [],
    [⟨none, .triangularMatrixMatrixRightSolve, [.dflt, .par 0, .par 1, .par 2, .par 3, .par 4]⟩]⟩]

/-- `triangular_matrix_matrix_solve`: blas3_triangular_matrix_matrix_solve.hpp. -/
def triangularMatrixMatrixSolveSigs : List Sig := [
  -- blas3_triangular_matrix_matrix_solve.hpp:420-443
  ⟨20, 420, [.exec, .A, .t, .d, .s, .B, .X],
    [.inlineRef, .span (.rank 2), .val 0, .val 1, .val 2, .span (.rank 2), .span (.rank 2)],
    [],
    [⟨(some (4, true)), .triangularMatrixMatrixLeftSolve, [.par 1, .par 2, .par 3, .par 5, .par 6]⟩,
      ⟨(some (4, false)), .triangularMatrixMatrixRightSolve, [.par 1, .par 2, .par 3, .par 5, .par 6]⟩]⟩,
  -- blas3_triangular_matrix_matrix_solve.hpp:445-472
  ⟨20, 445, [.exec, .A, .t, .d, .s, .B, .X],
    [.fwd 0, .span (.rank 2), .val 1, .val 2, .val 3, .span (.rank 2), .span (.rank 2)],
    [],
    [⟨none, .triangularMatrixMatrixSolve, [.inl, .par 1, .par 2, .par 3, .par 4, .par 5, .par 6]⟩]⟩,
  -- blas3_triangular_matrix_matrix_solve.hpp:474-491
  ⟨20, 474, [.A, .t, .d, .s, .B, .X],
    [.span (.rank 2), .val 0, .val 1, .val 2, .span (.rank 2), .span (.rank 2)],
    [],
    [⟨none, .triangularMatrixMatrixSolve, [.dflt, .par 0, .par 1, .par 2, .par 3, .par 4, .par 5]⟩]⟩]

/-- The overloads of an algorithm, in the order of the headers. -/
def sigs : Algo → List Sig
  | .setupGivensRotation => setupGivensRotationSigs
  | .applyGivensRotation => applyGivensRotationSigs
  | .swapElements => swapElementsSigs
  | .matrixFrobNorm => matrixFrobNormSigs
  | .matrixInfNorm => matrixInfNormSigs
  | .matrixOneNorm => matrixOneNormSigs
  | .scale => scaleSigs
  | .copy => copySigs
  | .add => addSigs
  | .dot => dotSigs
  | .dotc => dotcSigs
  | .vectorSumOfSquares => vectorSumOfSquaresSigs
  | .vectorTwoNorm => vectorTwoNormSigs
  | .vectorAbsSum => vectorAbsSumSigs
  | .vectorIdxAbsMax => vectorIdxAbsMaxSigs
  | .matrixVectorProduct => matrixVectorProductSigs
  | .symmetricMatrixVectorProduct => symmetricMatrixVectorProductSigs
  | .hermitianMatrixVectorProduct => hermitianMatrixVectorProductSigs
  | .triangularMatrixVectorProduct => triangularMatrixVectorProductSigs
  | .triangularMatrixVectorSolve => triangularMatrixVectorSolveSigs
  | .matrixRank1Update => matrixRank1UpdateSigs
  | .matrixRank1UpdateC => matrixRank1UpdateCSigs
  | .symmetricMatrixRank1Update => symmetricMatrixRank1UpdateSigs
  | .hermitianMatrixRank1Update => hermitianMatrixRank1UpdateSigs
  | .symmetricMatrixRank2Update => symmetricMatrixRank2UpdateSigs
  | .hermitianMatrixRank2Update => hermitianMatrixRank2UpdateSigs
  | .matrixProduct => matrixProductSigs
  | .triangularMatrixProduct => triangularMatrixProductSigs
  | .triangularMatrixLeftProduct => triangularMatrixLeftProductSigs
  | .triangularMatrixRightProduct => triangularMatrixRightProductSigs
  | .symmetricMatrixProduct => symmetricMatrixProductSigs
  | .hermitianMatrixProduct => hermitianMatrixProductSigs
  | .symmetricMatrixRankKUpdate => symmetricMatrixRankKUpdateSigs
  | .hermitianMatrixRankKUpdate => hermitianMatrixRankKUpdateSigs
  | .symmetricMatrixRank2kUpdate => symmetricMatrixRank2kUpdateSigs
  | .hermitianMatrixRank2kUpdate => hermitianMatrixRank2kUpdateSigs
  | .triangularMatrixMatrixLeftSolve => triangularMatrixMatrixLeftSolveSigs
  | .triangularMatrixMatrixRightSolve => triangularMatrixMatrixRightSolveSigs
  | .triangularMatrixMatrixSolve => triangularMatrixMatrixSolveSigs

end StdBLAS.Overloads

{
 "claims": [
  {
   "property": "C01",
   "status": "proved",
   "theorems": [
    "StdBLAS.C01_dot",
    "StdBLAS.C01_dot_no_init",
    "StdBLAS.C01_dot_too_short"
   ],
   "note": ""
  },
  {
   "property": "C02",
   "status": "proved",
   "theorems": [
    "StdBLAS.C02_dotc",
    "StdBLAS.C02_dotc_real",
    "StdBLAS.C02_dotc_conj_symm",
    "StdBLAS.C02_dotc_self"
   ],
   "note": ""
  },
  {
   "property": "C03",
   "status": "proved",
   "theorems": [
    "StdBLAS.C03_sum_of_squares"
   ],
   "note": ""
  },
  {
   "property": "C04",
   "status": "proved",
   "theorems": [
    "StdBLAS.C04_two_norm"
   ],
   "note": ""
  },
  {
   "property": "C05",
   "status": "proved",
   "theorems": [
    "StdBLAS.C05_abs_sum_real",
    "StdBLAS.C05_abs_sum_complex"
   ],
   "note": ""
  },
  {
   "property": "C06",
   "status": "proved",
   "theorems": [
    "StdBLAS.C06_idx_abs_max_real",
    "StdBLAS.C06_idx_abs_max_complex",
    "StdBLAS.C06_idx_abs_max_empty"
   ],
   "note": ""
  },
  {
   "property": "C07",
   "status": "partial",
   "theorems": [
    "StdBLAS.C07_frob_norm_partial",
    "StdBLAS.C07_frob_norm_false"
   ],
   "note": "The property is false for the code (the update uses scale/|a| in both branches). Proved: negation with a 1x2 witness; the result is never below the true value; exact characterisation of when it is equal."
  },
  {
   "property": "C08",
   "status": "proved",
   "theorems": [
    "StdBLAS.C08_inf_norm",
    "StdBLAS.C08_one_norm_eq_inf_norm_transposed",
    "StdBLAS.C08_one_norm"
   ],
   "note": ""
  },
  {
   "property": "C09",
   "status": "proved",
   "theorems": [
    "StdBLAS.C09_copy_vector",
    "StdBLAS.C09_copy_matrix",
    "StdBLAS.C09_copy_self",
    "StdBLAS.C09_copy_too_long"
   ],
   "note": ""
  },
  {
   "property": "C10",
   "status": "proved",
   "theorems": [
    "StdBLAS.C10_swap_vector",
    "StdBLAS.C10_swap_vector_involution",
    "StdBLAS.C10_swap_matrix",
    "StdBLAS.C10_swap_matrix_involution"
   ],
   "note": ""
  },
  {
   "property": "C11",
   "status": "proved",
   "theorems": [
    "StdBLAS.C11_scale_vector",
    "StdBLAS.C11_scale_matrix",
    "StdBLAS.C11_scale_scale"
   ],
   "note": ""
  },
  {
   "property": "C12",
   "status": "proved",
   "theorems": [
    "StdBLAS.C12_add_vector",
    "StdBLAS.C12_add_matrix"
   ],
   "note": ""
  },
  {
   "property": "C13",
   "status": "proved",
   "theorems": [
    "StdBLAS.C13_setup_givens_real"
   ],
   "note": ""
  },
  {
   "property": "C14",
   "status": "partial",
   "theorems": [
    "StdBLAS.C14_setup_givens_complex_partial",
    "StdBLAS.C14_r_false",
    "StdBLAS.C14_unitary_false"
   ],
   "note": "The property is false for the code. C14_r_false: when f and g are both at most safmn2^2 the returned r is too large by a power of 1/safmn2 (line 366 loop). C14_unitary_false: c^2+|s|^2 = 1+|f|^2/|g|^2 in the branch for very small f. C14_setup_givens_complex_partial: everything else (termination, annihilation, unitarity up to safmin/safmn2^2, r outside that range)."
  },
  {
   "property": "C15",
   "status": "proved",
   "theorems": [
    "StdBLAS.C15_apply_givens",
    "StdBLAS.C15_apply_givens_complex",
    "StdBLAS.C15_norm_preserved",
    "StdBLAS.C15_undo"
   ],
   "note": ""
  },
  {
   "property": "C16",
   "status": "proved",
   "theorems": [
    "StdBLAS.C16_gemv",
    "StdBLAS.C16_gemv_update"
   ],
   "note": ""
  },
  {
   "property": "C17",
   "status": "proved",
   "theorems": [
    "StdBLAS.C17_symv",
    "StdBLAS.C17_symv_update"
   ],
   "note": ""
  },
  {
   "property": "C18",
   "status": "proved",
   "theorems": [
    "StdBLAS.C18_hemv",
    "StdBLAS.C18_hemv_update",
    "StdBLAS.C18_hermOf_isHermitian"
   ],
   "note": ""
  },
  {
   "property": "C19",
   "status": "proved",
   "theorems": [
    "StdBLAS.C19_trmv",
    "StdBLAS.C19_trmv_update"
   ],
   "note": ""
  },
  {
   "property": "C20",
   "status": "proved",
   "theorems": [
    "StdBLAS.C20_trmv_in_place",
    "StdBLAS.C20_in_place_eq_overwriting"
   ],
   "note": ""
  },
  {
   "property": "C21",
   "status": "proved",
   "theorems": [
    "StdBLAS.C21_trsv",
    "StdBLAS.C21_trsv_field",
    "StdBLAS.C21_unit_never_divides"
   ],
   "note": ""
  },
  {
   "property": "C22",
   "status": "proved",
   "theorems": [
    "StdBLAS.C22_in_place_eq_out_of_place"
   ],
   "note": ""
  },
  {
   "property": "C23",
   "status": "partial",
   "theorems": [
    "StdBLAS.C23_trsv_empty_partial",
    "StdBLAS.C23_trsv_uint32_false",
    "StdBLAS.C23_trsm_left_empty_partial",
    "StdBLAS.C23_trsm_left_uint32_false",
    "StdBLAS.C23_trsm_right_empty"
   ],
   "note": "False for the code for a 32-bit unsigned size_type and the upper triangle (C23_trsv_uint32_false, C23_trsm_left_uint32_false: undefined behaviour). Proved for all other index types, and for the right side for all."
  },
  {
   "property": "C24",
   "status": "proved",
   "theorems": [
    "StdBLAS.C24_solve_after_product",
    "StdBLAS.C24_product_after_solve",
    "StdBLAS.C24_matrix_solve_after_product",
    "StdBLAS.C24_matrix_product_after_solve"
   ],
   "note": "Vector and matrix-matrix versions, both orders, both sides."
  },
  {
   "property": "C25",
   "status": "proved",
   "theorems": [
    "StdBLAS.C25_ger",
    "StdBLAS.C25_gerc"
   ],
   "note": ""
  },
  {
   "property": "C26",
   "status": "proved",
   "theorems": [
    "StdBLAS.C26_syr",
    "StdBLAS.C26_syrAlpha",
    "StdBLAS.C26_her",
    "StdBLAS.C26_herAlpha"
   ],
   "note": ""
  },
  {
   "property": "C27",
   "status": "proved",
   "theorems": [
    "StdBLAS.C27_syr2",
    "StdBLAS.C27_her2"
   ],
   "note": ""
  },
  {
   "property": "C28",
   "status": "proved",
   "theorems": [
    "StdBLAS.C28_syrk",
    "StdBLAS.C28_syrkAlpha",
    "StdBLAS.C28_herk",
    "StdBLAS.C28_herkAlpha"
   ],
   "note": ""
  },
  {
   "property": "C29",
   "status": "proved",
   "theorems": [
    "StdBLAS.C29_syr2k",
    "StdBLAS.C29_her2k"
   ],
   "note": ""
  },
  {
   "property": "C30",
   "status": "proved",
   "theorems": [
    "StdBLAS.C30_her",
    "StdBLAS.C30_herAlpha",
    "StdBLAS.C30_her2",
    "StdBLAS.C30_herk",
    "StdBLAS.C30_herkAlpha",
    "StdBLAS.C30_her2k"
   ],
   "note": ""
  },
  {
   "property": "C31",
   "status": "proved",
   "theorems": [
    "StdBLAS.C31_gemm",
    "StdBLAS.C31_gemm_update"
   ],
   "note": ""
  },
  {
   "property": "C32",
   "status": "proved",
   "theorems": [
    "StdBLAS.C32_symm_left",
    "StdBLAS.C32_symm_right"
   ],
   "note": ""
  },
  {
   "property": "C33",
   "status": "partial",
   "theorems": [
    "StdBLAS.C33_hemm_left",
    "StdBLAS.C33_hemm_right_partial",
    "StdBLAS.C33_hemm_right_uses_stored_diagonal",
    "StdBLAS.C33_hemm_right_false"
   ],
   "note": "Left side proved. The right-side product is wrong when the stored diagonal has imaginary parts: C33_hemm_right_false is the negation, C33_hemm_right_uses_stored_diagonal says exactly what is computed, C33_hemm_right_partial is the property for real stored diagonals."
  },
  {
   "property": "C34",
   "status": "partial",
   "theorems": [
    "StdBLAS.C34_updating_products_do_nothing",
    "StdBLAS.C34_updating_products_false"
   ],
   "note": "The property is false for the code: the bodies are assert(false). Proved: the negation for all four overloads in both builds, and what the calls do (abort, or leave all memory unchanged under NDEBUG)."
  },
  {
   "property": "C35",
   "status": "proved",
   "theorems": [
    "StdBLAS.C35_trmm_left",
    "StdBLAS.C35_trmm_right",
    "StdBLAS.C35_trmm_left_index_types",
    "StdBLAS.C35_trmm_right_index_types"
   ],
   "note": ""
  },
  {
   "property": "C36",
   "status": "proved",
   "theorems": [
    "StdBLAS.C36_trmm_left_in_place",
    "StdBLAS.C36_trmm_right_in_place"
   ],
   "note": ""
  },
  {
   "property": "C37",
   "status": "proved",
   "theorems": [
    "StdBLAS.C37_trsm_left",
    "StdBLAS.C37_trsm_right",
    "StdBLAS.C37_trsm_field"
   ],
   "note": ""
  },
  {
   "property": "C38",
   "status": "partial",
   "theorems": [
    "StdBLAS.C38_transposed",
    "StdBLAS.C38_transposed_padded_partial",
    "StdBLAS.C38_transposed_padded_static_false",
    "StdBLAS.C38_transposed_twice",
    "StdBLAS.C38_transposed_twice_padded_partial",
    "StdBLAS.C38_transposed_twice_false"
   ],
   "note": "transposed(A)[i,j] is A[j,i] on the same cells for layout_left, layout_right, layout_stride and user layouts. Not as stated: transposing a user layout or (default configuration) a padded layout twice does not compile (C38_transposed_twice_false), and with LINALG_FIX_TRANSPOSED_FOR_PADDED_LAYOUTS static padded layouts can break a constructor precondition (C38_transposed_padded_static_false)."
  },
  {
   "property": "C39",
   "status": "partial",
   "theorems": [
    "StdBLAS.C39_transposed_blas_general_exact",
    "StdBLAS.C39_transposed_blas_general_partial",
    "StdBLAS.C39_transposed_blas_general_false"
   ],
   "note": "False for layout_blas_general as written (C39_transposed_blas_general_false); exact description of the result and the partial theorem for runs of one element."
  },
  {
   "property": "C40",
   "status": "partial",
   "theorems": [
    "StdBLAS.C40_meaning_false",
    "StdBLAS.C40_meaning_exact",
    "StdBLAS.C40_meaning_partial",
    "StdBLAS.C40_unique_partial",
    "StdBLAS.C40_unique_false"
   ],
   "note": "False for layout_blas_general as written, for every leading dimension and every matrix with at least two rows and two columns (C40_meaning_false); C40_meaning_exact says what it maps to; uniqueness and span proved for lda >= 1, false for lda = 0."
  },
  {
   "property": "C41",
   "status": "proved",
   "theorems": [
    "StdBLAS.C41_views_read_what_they_denote",
    "StdBLAS.C41_views_any_layout",
    "StdBLAS.C41_conjugated_twice",
    "StdBLAS.C41_submdspan"
   ],
   "note": ""
  },
  {
   "property": "C42",
   "status": "proved",
   "theorems": [
    "StdBLAS.C42_toMatV_get",
    "StdBLAS.C42_toMatV_views",
    "StdBLAS.C42_gemv_materialised",
    "StdBLAS.C42_gemm_materialised",
    "StdBLAS.C42_trsv_materialised",
    "StdBLAS.C42_dot_materialised",
    "StdBLAS.C42_gemv_scaled",
    "StdBLAS.C42_gemv_transposed",
    "StdBLAS.C42_gemv_conjugate_transposed",
    "StdBLAS.C42_gemm_transposed",
    "StdBLAS.C42_dot_scaled",
    "StdBLAS.C42_trsv_transposed"
   ],
   "note": ""
  },
  {
   "property": "C43",
   "status": "proved",
   "theorems": [
    "StdBLAS.C43_layouts_injective_in_span",
    "StdBLAS.C43_write_changes_one_element",
    "StdBLAS.C43_unique_and_apart",
    "StdBLAS.C43_vectors"
   ],
   "note": ""
  },
  {
   "property": "C44",
   "status": "partial",
   "theorems": [
    "StdBLAS.C44_conjugated_denotes",
    "StdBLAS.C44_scaled_denotes",
    "StdBLAS.C44_binary_partial",
    "StdBLAS.C44_unary_partial",
    "StdBLAS.C44_same_type",
    "StdBLAS.C44_binary_exact",
    "StdBLAS.C44_mixed_types_false"
   ],
   "note": "Proved when the product has the element type of the reference. False for mixed types (C44_mixed_types_false): the proxy is converted to the element type first; C44_binary_exact says exactly what is computed."
  },
  {
   "property": "C45",
   "status": "partial",
   "theorems": [
    "StdBLAS.Dispatch.C45_native_for_inline_policies",
    "StdBLAS.Dispatch.C45_no_policy_is_native",
    "StdBLAS.Dispatch.C45_native_without_backend_partial",
    "StdBLAS.Dispatch.C45_backend_called_partial",
    "StdBLAS.Dispatch.C45_same_arguments_partial",
    "StdBLAS.Dispatch.C45_dispatch_ends_partial",
    "StdBLAS.Dispatch.C45_self_mapped_policy_rejected",
    "StdBLAS.Dispatch.C45_backend_not_called_false",
    "StdBLAS.Dispatch.C45_no_backend_ill_formed_false",
    "StdBLAS.Dispatch.C45_right_product_reordered_false",
    "StdBLAS.Dispatch.C45_left_product_renamed_false",
    "StdBLAS.Dispatch.C45_cyclic_mapper_endless_false",
    "StdBLAS.Dispatch.C45_default_mapper_all_native",
    "StdBLAS.Dispatch.C45_kokkos_policies_partial",
    "StdBLAS.Dispatch.C45_never_custom"
   ],
   "note": "Proved for every algorithm and policy: policies mapped to inline (all policies, with the library's mapper) run the native algorithm on the same arguments; for 42 of the 55 overloads a matching backend is called with the same arguments. False for the other 13 (C45_backend_not_called_false, C45_no_backend_ill_formed_false, C45_right_product_reordered_false), and a cyclic mapper never ends (C45_cyclic_mapper_endless_false). The native algorithms themselves are opaque here; overload resolution is modelled by two lookups."
  },
  {
   "property": "C46",
   "status": "partial",
   "theorems": [
    "StdBLAS.C46_gemm_one_column",
    "StdBLAS.C46_gemm_update_one_column",
    "StdBLAS.C46_gemm_columns",
    "StdBLAS.C46_trsm_left_one_column",
    "StdBLAS.C46_trsm_left_columns",
    "StdBLAS.C46_symv_full",
    "StdBLAS.C46_symv_update_full",
    "StdBLAS.C46_hemv_full",
    "StdBLAS.C46_hemv_update_full",
    "StdBLAS.C46_trmv_full",
    "StdBLAS.C46_trmv_update_full",
    "StdBLAS.C46_symm_left_full",
    "StdBLAS.C46_symm_right_full",
    "StdBLAS.C46_hemm_left_full",
    "StdBLAS.C46_hemm_right_full_partial",
    "StdBLAS.C46_hemm_right_full_false",
    "StdBLAS.C46_trmm_left_full",
    "StdBLAS.C46_trmm_right_full",
    "StdBLAS.C46_gemv_rows",
    "StdBLAS.C46_gemv_update_rows",
    "StdBLAS.C46_gemm_dots",
    "StdBLAS.C46_ger_gemm",
    "StdBLAS.C46_syrk_one_column",
    "StdBLAS.C46_syrk_alpha_one_column",
    "StdBLAS.C46_herk_one_column",
    "StdBLAS.C46_herk_alpha_one_column",
    "StdBLAS.C46_syr2k_one_column",
    "StdBLAS.C46_her2k_one_column",
    "StdBLAS.C46_syr_ger",
    "StdBLAS.C46_her_gerc",
    "StdBLAS.C46_syr2_ger",
    "StdBLAS.C46_syrk_gemm",
    "StdBLAS.C46_herk_gemm",
    "StdBLAS.C46_symm_columns",
    "StdBLAS.C46_hemm_columns",
    "StdBLAS.C46_trmm_columns",
    "StdBLAS.C46_trmm_in_place_columns",
    "StdBLAS.C46_two_norm_dotc",
    "StdBLAS.C46_one_norm_columns",
    "StdBLAS.C46_inf_norm_rows",
    "StdBLAS.C46_abs_sum_idx_abs_max"
   ],
   "note": "Proved for the one-column and column-by-column claims and for the symmetric, left Hermitian and triangular algorithms. False for the right-side Hermitian product when the stored diagonal is not real (C46_hemm_right_full_false), because the code does not take its real part."
  },
  {
   "property": "C47",
   "status": "proved",
   "theorems": [
    "StdBLAS.C47_dot",
    "StdBLAS.C47_dotc",
    "StdBLAS.C47_gemv",
    "StdBLAS.C47_gemv_update",
    "StdBLAS.C47_gemm",
    "StdBLAS.C47_gemm_update",
    "StdBLAS.C47_symm_left",
    "StdBLAS.C47_symm_right",
    "StdBLAS.C47_ger",
    "StdBLAS.C47_syrk",
    "StdBLAS.C47_trsv",
    "StdBLAS.C47_trsm_left",
    "StdBLAS.C47_trsm_right",
    "StdBLAS.C47_scale_vector",
    "StdBLAS.C47_scale_matrix",
    "StdBLAS.C47_add_vector",
    "StdBLAS.C47_add_matrix",
    "StdBLAS.C47_symv",
    "StdBLAS.C47_symv_update",
    "StdBLAS.C47_hemv",
    "StdBLAS.C47_hemv_update",
    "StdBLAS.C47_trmv",
    "StdBLAS.C47_trmv_update",
    "StdBLAS.C47_trmv_in_place",
    "StdBLAS.C47_hemm_left",
    "StdBLAS.C47_hemm_right",
    "StdBLAS.C47_trmm_left",
    "StdBLAS.C47_trmm_right",
    "StdBLAS.C47_trmm_left_in_place",
    "StdBLAS.C47_trmm_right_in_place",
    "StdBLAS.C47_gerc",
    "StdBLAS.C47_syr",
    "StdBLAS.C47_syr_alpha",
    "StdBLAS.C47_her",
    "StdBLAS.C47_her_alpha",
    "StdBLAS.C47_syr2",
    "StdBLAS.C47_her2",
    "StdBLAS.C47_syrk_alpha",
    "StdBLAS.C47_herk",
    "StdBLAS.C47_herk_alpha",
    "StdBLAS.C47_syr2k",
    "StdBLAS.C47_her2k",
    "StdBLAS.C47_vector_sum_of_squares",
    "StdBLAS.C47_vector_two_norm",
    "StdBLAS.C47_vector_abs_sum",
    "StdBLAS.C47_vector_abs_sum_complex",
    "StdBLAS.C47_matrix_inf_norm",
    "StdBLAS.C47_matrix_one_norm"
   ],
   "note": "Standard model of rounding (Spec/Rounding.lean: relative error u for each operation, no overflow or underflow), met by binary floating point with p digits and unbounded exponent (Rounded.flt). Also for dotc, the symmetric, Hermitian and triangular products, all rank updates and the reductions (Spec/RoundingReal.lean)."
  },
  {
   "property": "C48",
   "status": "proved",
   "theorems": [
    "StdBLAS.C48_every_schedule_ends",
    "StdBLAS.C48_no_deadlock",
    "StdBLAS.C48_schedules_do_not_matter",
    "StdBLAS.C48_shared_accumulator_races",
    "StdBLAS.C48_copy_matrix",
    "StdBLAS.C48_swap_vector",
    "StdBLAS.C48_swap_matrix",
    "StdBLAS.C48_symv",
    "StdBLAS.C48_symv_update",
    "StdBLAS.C48_hemv",
    "StdBLAS.C48_hemv_update",
    "StdBLAS.C48_trmv",
    "StdBLAS.C48_trmv_update",
    "StdBLAS.C48_gemv_update",
    "StdBLAS.C48_symm_left",
    "StdBLAS.C48_symm_left_update",
    "StdBLAS.C48_symm_right",
    "StdBLAS.C48_symm_right_update",
    "StdBLAS.C48_hemm_left",
    "StdBLAS.C48_hemm_left_update",
    "StdBLAS.C48_hemm_right",
    "StdBLAS.C48_hemm_right_update",
    "StdBLAS.C48_trmm_left",
    "StdBLAS.C48_trmm_left_in_place",
    "StdBLAS.C48_trmm_right",
    "StdBLAS.C48_trmm_right_in_place",
    "StdBLAS.C48_ger",
    "StdBLAS.C48_gerc",
    "StdBLAS.C48_syr",
    "StdBLAS.C48_her",
    "StdBLAS.C48_syr2",
    "StdBLAS.C48_her2",
    "StdBLAS.C48_syrk",
    "StdBLAS.C48_herk",
    "StdBLAS.C48_syr2k",
    "StdBLAS.C48_her2k"
   ],
   "note": "Kokkos itself is an assumption (Core/Parallel.lean). The per-kernel theorems are for contiguous vectors and untransposed matrices: other layouts are misread by the backend (C50). Algorithms that forward to KokkosKernels: C53."
  },
  {
   "property": "C49",
   "status": "proved",
   "theorems": [
    "StdBLAS.C49_trees_do_not_matter",
    "StdBLAS.C49_trees_matter_without_commutativity",
    "StdBLAS.C49_dot",
    "StdBLAS.C49_abs_sum",
    "StdBLAS.C49_norm2",
    "StdBLAS.C49_sum_of_squares",
    "StdBLAS.C49_frob_norm",
    "StdBLAS.C49_inf_norm",
    "StdBLAS.C49_one_norm",
    "StdBLAS.C49_dot_rounding"
   ],
   "note": "Also for sum_of_squares and frob_norm of data that is not zero, and a rounding bound for dot in terms of the depth of the tree."
  },
  {
   "property": "C50",
   "status": "partial",
   "theorems": [
    "StdBLAS.C50_strided_vector_reads_contiguous",
    "StdBLAS.C50_strided_vector_false",
    "StdBLAS.C50_transposed_matrix_ignored",
    "StdBLAS.C50_transposed_matrix_false",
    "StdBLAS.C50_her_imaginary_diagonal_false",
    "StdBLAS.C50_her2_imaginary_diagonal_false",
    "StdBLAS.C50_herk_imaginary_diagonal_false",
    "StdBLAS.C50_her2k_imaginary_diagonal_false",
    "StdBLAS.C50_hemv_imaginary_diagonal_false",
    "StdBLAS.C50_hemm_left_imaginary_diagonal_false",
    "StdBLAS.C50_hemm_right_imaginary_diagonal_false",
    "StdBLAS.C50_gemv_update_false",
    "StdBLAS.C50_abs_sum_complex_false",
    "StdBLAS.C50_norm2_init_false",
    "StdBLAS.C50_frob_norm_init_false",
    "StdBLAS.C50_frob_norm_zero_matrix_false",
    "StdBLAS.C50_sum_of_squares_init_false",
    "StdBLAS.C50_sum_of_squares_zero_vector_false",
    "StdBLAS.C50_sum_of_squares_empty_false",
    "StdBLAS.C50_one_norm_no_rows_false",
    "StdBLAS.C50_copy_vector",
    "StdBLAS.C50_copy_matrix_same_layout",
    "StdBLAS.C50_add_vector",
    "StdBLAS.C50_add_matrix",
    "StdBLAS.C50_scale_vector",
    "StdBLAS.C50_scale_matrix",
    "StdBLAS.C50_dotc",
    "StdBLAS.C50_idx_abs_max_real",
    "StdBLAS.C50_idx_abs_max_complex_partial",
    "StdBLAS.C50_idx_abs_max_complex_false",
    "StdBLAS.C50_gemv",
    "StdBLAS.C50_gemm",
    "StdBLAS.C50_gemm_transposed_left",
    "StdBLAS.C50_gemm_transposed_right",
    "StdBLAS.C50_trsv",
    "StdBLAS.C50_trsm_left",
    "StdBLAS.C50_trsm_right",
    "StdBLAS.C50_copy_matrix",
    "StdBLAS.C50_ger",
    "StdBLAS.C50_gerc",
    "StdBLAS.C50_syr",
    "StdBLAS.C50_her_partial",
    "StdBLAS.C50_syr2",
    "StdBLAS.C50_her2_partial",
    "StdBLAS.C50_syrk",
    "StdBLAS.C50_herk_partial",
    "StdBLAS.C50_syr2k",
    "StdBLAS.C50_her2k_partial",
    "StdBLAS.C50_symv",
    "StdBLAS.C50_symv_update",
    "StdBLAS.C50_hemv_partial",
    "StdBLAS.C50_hemv_update_partial",
    "StdBLAS.C50_trmv",
    "StdBLAS.C50_trmv_update",
    "StdBLAS.C50_symm_left",
    "StdBLAS.C50_symm_right",
    "StdBLAS.C50_hemm_left_partial",
    "StdBLAS.C50_hemm_right_partial",
    "StdBLAS.C50_trmm_left",
    "StdBLAS.C50_trmm_right",
    "StdBLAS.C50_trmm_left_in_place",
    "StdBLAS.C50_trmm_right_in_place",
    "StdBLAS.C50_swap_vector",
    "StdBLAS.C50_swap_matrix",
    "StdBLAS.C50_dot",
    "StdBLAS.C50_abs_sum_partial",
    "StdBLAS.C50_norm2_partial",
    "StdBLAS.C50_sum_of_squares_partial",
    "StdBLAS.C50_inf_norm",
    "StdBLAS.C50_frob_norm_partial",
    "StdBLAS.C50_one_norm_partial"
   ],
   "note": "SameOutcome: same result and same final memory under every schedule, for contiguous vectors and untransposed matrices. The property is false in the cases proved by the theorems ending in _false (strided or transposed arguments, init of the norms, zero vectors, complex abs_sum, updating gemv, imaginary parts on Hermitian diagonals); the _partial theorems exclude exactly these. For algorithms that the backend forwards to KokkosKernels the comparison assumes the documented behaviour of that library (Spec/KokkosLib.lean)."
  },
  {
   "property": "C51",
   "status": "partial",
   "theorems": [
    "StdBLAS.C51_trsv",
    "StdBLAS.C51_trsm_left",
    "StdBLAS.C51_trsm_right_partial",
    "StdBLAS.C51_trmm",
    "StdBLAS.C51_trmm_in_place",
    "StdBLAS.C51_trsm_right_uint8_skips",
    "StdBLAS.C51_trsm_right_false",
    "StdBLAS.C51_scale_vector",
    "StdBLAS.C51_scale_matrix",
    "StdBLAS.C51_copy_vector",
    "StdBLAS.C51_copy_matrix",
    "StdBLAS.C51_swap_vector",
    "StdBLAS.C51_swap_matrix",
    "StdBLAS.C51_add_vector",
    "StdBLAS.C51_add_matrix",
    "StdBLAS.C51_dot",
    "StdBLAS.C51_dotc",
    "StdBLAS.C51_apply_givens",
    "StdBLAS.C51_apply_givens_complex",
    "StdBLAS.C51_vector_abs_sum",
    "StdBLAS.C51_vector_sum_of_squares",
    "StdBLAS.C51_vector_two_norm",
    "StdBLAS.C51_vector_idx_abs_max",
    "StdBLAS.C51_matrix_frob_norm",
    "StdBLAS.C51_matrix_one_norm",
    "StdBLAS.C51_matrix_inf_norm",
    "StdBLAS.C51_gemv",
    "StdBLAS.C51_gemv_update",
    "StdBLAS.C51_symv",
    "StdBLAS.C51_symv_update",
    "StdBLAS.C51_hemv",
    "StdBLAS.C51_hemv_update",
    "StdBLAS.C51_trmv",
    "StdBLAS.C51_trmv_update",
    "StdBLAS.C51_trmv_in_place",
    "StdBLAS.C51_ger",
    "StdBLAS.C51_gerc",
    "StdBLAS.C51_syr_alpha",
    "StdBLAS.C51_syr",
    "StdBLAS.C51_her_alpha",
    "StdBLAS.C51_her",
    "StdBLAS.C51_syr2",
    "StdBLAS.C51_her2",
    "StdBLAS.C51_syrk_alpha",
    "StdBLAS.C51_syrk",
    "StdBLAS.C51_herk_alpha",
    "StdBLAS.C51_herk",
    "StdBLAS.C51_syr2k",
    "StdBLAS.C51_her2k",
    "StdBLAS.C51_gemm",
    "StdBLAS.C51_gemm_update",
    "StdBLAS.C51_symm_left",
    "StdBLAS.C51_symm_right",
    "StdBLAS.C51_hemm_left",
    "StdBLAS.C51_hemm_right"
   ],
   "note": "False for the right-side solve with a lower triangle when the extent is not representable in make_signed_t<size_type> (C51_trsm_right_false: uint8_t, 200 columns: nothing is computed) and for the empty upper solve with uint32 (C23). Proved otherwise, for every native algorithm (C51_scale_vector to C51_hemm_right for those outside the triangular solves and products). Extents are assumed representable in ptrdiff_t (no object is larger)."
  },
  {
   "property": "C52",
   "status": "partial",
   "theorems": [
    "StdBLAS.C52_swap_vectors",
    "StdBLAS.C52_swap_matrices",
    "StdBLAS.C52_dot",
    "StdBLAS.C52_gemv_update",
    "StdBLAS.C52_symv",
    "StdBLAS.C52_symv_update",
    "StdBLAS.C52_hemv",
    "StdBLAS.C52_hemv_update",
    "StdBLAS.C52_trmv",
    "StdBLAS.C52_trmv_update",
    "StdBLAS.C52_ger",
    "StdBLAS.C52_gerc",
    "StdBLAS.C52_syr",
    "StdBLAS.C52_her",
    "StdBLAS.C52_syr2",
    "StdBLAS.C52_her2",
    "StdBLAS.C52_syrk",
    "StdBLAS.C52_herk",
    "StdBLAS.C52_syr2k",
    "StdBLAS.C52_her2k",
    "StdBLAS.C52_symm_left",
    "StdBLAS.C52_symm_left_update",
    "StdBLAS.C52_symm_right",
    "StdBLAS.C52_symm_right_update",
    "StdBLAS.C52_hemm_left",
    "StdBLAS.C52_hemm_left_update",
    "StdBLAS.C52_hemm_right",
    "StdBLAS.C52_trmm_left",
    "StdBLAS.C52_trmm_left_in_place",
    "StdBLAS.C52_trmm_right",
    "StdBLAS.C52_trmm_right_in_place",
    "StdBLAS.C52_copy_never_throws",
    "StdBLAS.C52_copy_wrong_size_false",
    "StdBLAS.C52_hemm_right_update",
    "StdBLAS.C52_hemm_right_update_wrong_E_false",
    "StdBLAS.C52_reductions_never_throw",
    "StdBLAS.C52_add_vector",
    "StdBLAS.C52_add_matrix",
    "StdBLAS.C52_dotc",
    "StdBLAS.C52_gemv",
    "StdBLAS.C52_gemm",
    "StdBLAS.C52_gemm_transposed_left",
    "StdBLAS.C52_gemm_transposed_right",
    "StdBLAS.C52_gemm_fallback",
    "StdBLAS.C52_trmm_left_explicit",
    "StdBLAS.C52_trmm_left_in_place_explicit",
    "StdBLAS.C52_trmm_right_explicit",
    "StdBLAS.C52_trmm_right_in_place_explicit",
    "StdBLAS.C52_trsv",
    "StdBLAS.C52_trsm_left",
    "StdBLAS.C52_trsm_right",
    "StdBLAS.C52_copy_vector",
    "StdBLAS.C52_copy_matrix_same_layout"
   ],
   "note": "ThrowsIff: with wrong extents every execution throws and none writes; with fitting extents none throws. False in two cases: copy between rank-2 layouts has no check (C52_copy_wrong_size_false: some schedule accesses memory out of bounds) and the updating right-side Hermitian product does not check E (C52_hemm_right_update_wrong_E_false). For the algorithms forwarded to KokkosKernels: the exception on wrong extents."
  },
  {
   "property": "C53",
   "status": "partial",
   "theorems": [
    "StdBLAS.C53_copy_vector",
    "StdBLAS.C53_copy_matrix",
    "StdBLAS.C53_add_vector",
    "StdBLAS.C53_add_matrix",
    "StdBLAS.C53_scale_vector",
    "StdBLAS.C53_scale_matrix",
    "StdBLAS.C53_dotc",
    "StdBLAS.C53_idx_abs_max",
    "StdBLAS.C53_idx_abs_max_empty",
    "StdBLAS.C53_gemv",
    "StdBLAS.C53_gemv_transposed_exact",
    "StdBLAS.C53_gemv_transposed_false",
    "StdBLAS.C53_gemm",
    "StdBLAS.C53_gemm_transposed_left",
    "StdBLAS.C53_gemm_transposed_right",
    "StdBLAS.C53_gemm_fallback",
    "StdBLAS.C53_trsv",
    "StdBLAS.C53_trsm_left",
    "StdBLAS.C53_trsm_right",
    "StdBLAS.C53_trmm_left_partial",
    "StdBLAS.C53_trmm_left_standard_exact",
    "StdBLAS.C53_trmm_left_standard_false",
    "StdBLAS.C53_trmm_left_in_place_partial",
    "StdBLAS.C53_trmm_left_in_place_standard_exact",
    "StdBLAS.C53_trmm_right_partial",
    "StdBLAS.C53_trmm_right_standard_exact",
    "StdBLAS.C53_trmm_right_standard_false",
    "StdBLAS.C53_trmm_right_in_place_partial",
    "StdBLAS.C53_trmm_right_in_place_standard_exact"
   ],
   "note": "For every library that meets Spec/KokkosLib.lean (refLib shows that one exists). False: matrix_vector_product drops the transposition of A (C53_gemv_transposed_false); the triangular products with explicit diagonal pass the reversed triangle flag, so they are right only if the library's flags are reversed too (C53_trmm_*_partial) and multiply with the other triangle if the flags have the usual meaning (C53_trmm_*_standard_exact, _false), which is the meaning the solves of the same backend rely on."
  },
  {
   "property": "C54",
   "status": "proved",
   "theorems": [
    "StdBLAS.C54_dot",
    "StdBLAS.C54_dotc",
    "StdBLAS.C54_gemv",
    "StdBLAS.C54_gemv_update",
    "StdBLAS.C54_symv",
    "StdBLAS.C54_symv_update",
    "StdBLAS.C54_hemv",
    "StdBLAS.C54_hemv_update",
    "StdBLAS.C54_trmv",
    "StdBLAS.C54_trmv_update",
    "StdBLAS.C54_trmv_in_place",
    "StdBLAS.C54_gemm",
    "StdBLAS.C54_gemm_update",
    "StdBLAS.C54_symm_left",
    "StdBLAS.C54_symm_right",
    "StdBLAS.C54_hemm_left",
    "StdBLAS.C54_hemm_right",
    "StdBLAS.C54_trmm_left",
    "StdBLAS.C54_trmm_right",
    "StdBLAS.C54_trmm_left_in_place",
    "StdBLAS.C54_trmm_right_in_place",
    "StdBLAS.C54_trsv",
    "StdBLAS.C54_trsm_left",
    "StdBLAS.C54_trsm_right",
    "StdBLAS.C54_syrk",
    "StdBLAS.C54_syrk_alpha",
    "StdBLAS.C54_herk",
    "StdBLAS.C54_herk_alpha",
    "StdBLAS.C54_syr2k",
    "StdBLAS.C54_her2k",
    "StdBLAS.C54_dot_reproducible",
    "StdBLAS.C54_trmv_reproducible",
    "StdBLAS.C54_trsv_reproducible"
   ],
   "note": ""
  },
  {
   "property": "C55",
   "status": "partial",
   "theorems": [
    "StdBLAS.C55_vector_abs_sum",
    "StdBLAS.C55_vector_sum_of_squares",
    "StdBLAS.C55_vector_two_norm",
    "StdBLAS.C55_matrix_frob_norm",
    "StdBLAS.C55_matrix_inf_norm_partial",
    "StdBLAS.C55_matrix_inf_norm_lost",
    "StdBLAS.C55_matrix_inf_norm_false",
    "StdBLAS.C55_matrix_one_norm_partial",
    "StdBLAS.C55_matrix_one_norm_lost",
    "StdBLAS.C55_matrix_one_norm_false",
    "StdBLAS.C55_vector_idx_abs_max_first",
    "StdBLAS.C55_vector_idx_abs_max",
    "StdBLAS.C55_scale_vector",
    "StdBLAS.C55_scale_matrix",
    "StdBLAS.C55_add_vector",
    "StdBLAS.C55_add_matrix",
    "StdBLAS.C55_dot",
    "StdBLAS.C55_dotc",
    "StdBLAS.C55_gemv",
    "StdBLAS.C55_gemv_update",
    "StdBLAS.C55_symv",
    "StdBLAS.C55_symv_update",
    "StdBLAS.C55_hemv",
    "StdBLAS.C55_hemv_update",
    "StdBLAS.C55_trmv",
    "StdBLAS.C55_trmv_update",
    "StdBLAS.C55_trmv_in_place",
    "StdBLAS.C55_gemm",
    "StdBLAS.C55_gemm_update",
    "StdBLAS.C55_symm_left",
    "StdBLAS.C55_symm_right",
    "StdBLAS.C55_hemm_left",
    "StdBLAS.C55_hemm_right",
    "StdBLAS.C55_trmm_left",
    "StdBLAS.C55_trmm_right",
    "StdBLAS.C55_trmm_left_in_place",
    "StdBLAS.C55_trmm_right_in_place",
    "StdBLAS.C55_ger",
    "StdBLAS.C55_gerc",
    "StdBLAS.C55_syr",
    "StdBLAS.C55_syr_alpha",
    "StdBLAS.C55_her",
    "StdBLAS.C55_her_alpha",
    "StdBLAS.C55_syr2",
    "StdBLAS.C55_her2",
    "StdBLAS.C55_syrk",
    "StdBLAS.C55_syrk_alpha",
    "StdBLAS.C55_herk",
    "StdBLAS.C55_herk_alpha",
    "StdBLAS.C55_syr2k",
    "StdBLAS.C55_her2k",
    "StdBLAS.C55_trsv",
    "StdBLAS.C55_trsm_left",
    "StdBLAS.C55_trsm_right"
   ],
   "note": "For every element type with a set of absorbing values (Spec/Absorb.lean; FP.absorbs_nan: NaN of any format), the reductions for the numbers of Spec/Ieee.lean. False for matrix_one_norm and matrix_inf_norm: a NaN outside the last column (row) is lost (C55_matrix_one_norm_false, C55_matrix_inf_norm_false; the _lost theorems say that this always happens)."
  },
  {
   "property": "C56",
   "status": "partial",
   "theorems": [
    "StdBLAS.C56_vector_sum_of_squares",
    "StdBLAS.C56_vector_two_norm",
    "StdBLAS.C56_vector_abs_sum_inf",
    "StdBLAS.C56_matrix_inf_norm_inf",
    "StdBLAS.C56_matrix_one_norm_inf",
    "StdBLAS.C56_vector_two_norm_two_infinities",
    "StdBLAS.C56_vector_two_norm_inf_partial",
    "StdBLAS.C56_matrix_frob_norm_overflows",
    "StdBLAS.C56_matrix_frob_norm_false"
   ],
   "note": "Numbers of Spec/Ieee.lean: any rounding that is monotone and idempotent, with a largest finite number; binary64 and binary32 with subnormals are instances. False: matrix_frob_norm overflows for the 1 x 2 matrix (1, 2^-600) (C56_matrix_frob_norm_false), and vector_two_norm of two infinite elements is NaN (C56_vector_two_norm_two_infinities)."
  },
  {
   "property": "C57",
   "status": "partial",
   "theorems": [
    "StdBLAS.C57_dot_type",
    "StdBLAS.C57_gemv_type",
    "StdBLAS.C57_gemm_type",
    "StdBLAS.C57_trsv_type",
    "StdBLAS.C57_dot_exact",
    "StdBLAS.C57_gemv_exact",
    "StdBLAS.C57_gemm_exact",
    "StdBLAS.C57_trsv_exact",
    "StdBLAS.C57_trsm_left_exact",
    "StdBLAS.C57_trsm_right_exact",
    "StdBLAS.C57_dot_precision",
    "StdBLAS.C57_gemv_precision",
    "StdBLAS.C57_gemm_precision",
    "StdBLAS.C57_dot_narrow_init",
    "StdBLAS.C57_trsm_lower_left_differs",
    "StdBLAS.C57_vector_two_norm_int",
    "StdBLAS.C57_vector_two_norm_int_false",
    "StdBLAS.C57_vector_abs_sum",
    "StdBLAS.C57_vector_abs_sum_type",
    "StdBLAS.C57_vector_abs_sum_exact",
    "StdBLAS.C57_vector_two_norm_exact",
    "StdBLAS.C57_vector_two_norm_without_init",
    "StdBLAS.C57_copy_vector",
    "StdBLAS.C57_copy_matrix",
    "StdBLAS.C57_add_vector",
    "StdBLAS.C57_add_matrix",
    "StdBLAS.C57_scale_vector",
    "StdBLAS.C57_scale_matrix",
    "StdBLAS.C57_dot",
    "StdBLAS.C57_dotc",
    "StdBLAS.C57_gemv",
    "StdBLAS.C57_gemv_update",
    "StdBLAS.C57_symv",
    "StdBLAS.C57_symv_update",
    "StdBLAS.C57_hemv",
    "StdBLAS.C57_hemv_update",
    "StdBLAS.C57_trmv",
    "StdBLAS.C57_trmv_update",
    "StdBLAS.C57_gemm",
    "StdBLAS.C57_gemm_update",
    "StdBLAS.C57_symm_left",
    "StdBLAS.C57_symm_right",
    "StdBLAS.C57_hemm_left",
    "StdBLAS.C57_hemm_right",
    "StdBLAS.C57_trmm_left",
    "StdBLAS.C57_trmm_right",
    "StdBLAS.C57_ger",
    "StdBLAS.C57_gerc",
    "StdBLAS.C57_syr",
    "StdBLAS.C57_syr_alpha",
    "StdBLAS.C57_her",
    "StdBLAS.C57_her_alpha",
    "StdBLAS.C57_syrk",
    "StdBLAS.C57_syrk_alpha",
    "StdBLAS.C57_herk",
    "StdBLAS.C57_herk_alpha",
    "StdBLAS.C57_syr2",
    "StdBLAS.C57_her2",
    "StdBLAS.C57_syr2k",
    "StdBLAS.C57_her2k",
    "StdBLAS.C57_trmv_in_place",
    "StdBLAS.C57_trmm_left_in_place",
    "StdBLAS.C57_trmm_right_in_place",
    "StdBLAS.C57_trsv",
    "StdBLAS.C57_trsm_left",
    "StdBLAS.C57_trsm_right"
   ],
   "note": "The expressions with their conversions: for every family of types (Core/MixedTypes.lean). Exactness: Num (integers, reals, complex numbers); precision: MixFlt (binary floating point with any number of digits, unbounded exponent). False: the lower triangular left matrix solve accumulates in the element type of X, unlike the vector solve (C57_trsm_lower_left_differs), and vector_two_norm of integers without init uses integer quotients (C57_vector_two_norm_int_false)."
  },
  {
   "property": "C58",
   "status": "proved",
   "theorems": [
    "StdBLAS.C58_same_model",
    "StdBLAS.C58_execution",
    "StdBLAS.C58_footprint",
    "StdBLAS.C58_restart"
   ],
   "note": "All 54 native algorithms (Model/Calls.lean), all arguments, no size conditions. The step model is proved equal to the model of the other properties (C58_same_model). The repetition theorem needs the output not to overlap the inputs and the algorithm not to work in place."
  },
  {
   "property": "C59",
   "status": "proved",
   "theorems": [
    "StdBLAS.C59_depends_only_on",
    "StdBLAS.C59_uninitialised_output",
    "StdBLAS.C59_inPlace_needs_old_output"
   ],
   "note": "All 54 native algorithms, for arguments whose output has the documented size (Call.Fits). Updates and in-place algorithms do need the old output (C59_inPlace_needs_old_output)."
  },
  {
   "property": "C60",
   "status": "proved",
   "theorems": [
    "StdBLAS.C60_threads",
    "StdBLAS.C60_each_thread",
    "StdBLAS.C60_shared_output_races"
   ],
   "note": "Any number of threads, each with any list of calls; interleaving semantics with data races as errors (Core/Parallel.lean). That outputs are disjoint is needed (C60_shared_output_races)."
  },
  {
   "property": "C61",
   "status": "partial",
   "theorems": [
    "StdBLAS.C61_setup_givens_complex_target",
    "StdBLAS.C61_setup_givens_complex_accuracy_partial",
    "StdBLAS.C61_setup_givens_complex_small_accuracy_partial",
    "StdBLAS.C61_setup_givens_complex_large_accuracy_partial",
    "StdBLAS.C61_setup_givens_complex_second_zero_small",
    "StdBLAS.C61_setup_givens_complex_finite_accuracy_partial",
    "StdBLAS.C61_setup_givens_complex_cosine_sine_accuracy_partial",
    "StdBLAS.C61_setup_givens_complex_extremely_small_r_false",
    "StdBLAS.C61_setup_givens_complex_zero_first_accuracy",
    "StdBLAS.C61_setup_givens_complex_tiny_first_accuracy_partial",
    "StdBLAS.C61_setup_givens_real_accuracy",
    "StdBLAS.C61_setup_givens_real_rotation",
    "StdBLAS.C61_setup_givens_real_second_zero",
    "StdBLAS.C61_setup_givens_real_first_zero",
    "StdBLAS.C61_setup_givens_real_first_nan",
    "StdBLAS.C61_setup_givens_real_second_nan",
    "StdBLAS.C61_setup_givens_real_first_infinite_false",
    "StdBLAS.C61_setup_givens_real_second_infinite_false",
    "StdBLAS.C61_setup_givens_real_returns",
    "StdBLAS.C61_setup_givens_complex_infinite_false",
    "StdBLAS.C61_setup_givens_complex_returns_partial",
    "StdBLAS.C61_setup_givens_complex_exact",
    "StdBLAS.C61_setup_givens_real_exact"
   ],
   "note": "For every format that satisfies Format.Scaled (Spec/Scaling.lean; proved for float and double). False for infinities: the call never returns if f is infinite and g is not zero, or g is infinite and f neither zero nor NaN (C61_setup_givens_real_first_infinite_false, _second_infinite_false; C61_setup_givens_real_returns says exactly when it returns), nor does the complex version with an infinite part (C61_setup_givens_complex_infinite_false). Error bounds: for the real version for all finite numbers. For the complex one: f = 0 (_zero_first_accuracy, any g); f not zero and length of (f, g) at most half the largest finite number: cs and sn for all numbers (_cosine_sine_accuracy_partial), r above safmn2^2 (_finite_accuracy_partial) and for f tiny compared to g (_tiny_first_accuracy_partial); _large_accuracy_partial covers lengths near overflow if f is not tiny. r is wrong for extremely small numbers (_extremely_small_r_false). hypot is a parameter that is assumed to be accurate (Spec/Hypot.lean). Missing: lengths near overflow with tiny f. With exact arithmetic the functions are those of C13 and C14 (C61_setup_givens_real_exact, C61_setup_givens_complex_exact)."
  },
  {
   "property": "C62",
   "status": "partial",
   "theorems": [
    "StdBLAS.C62_dot",
    "StdBLAS.C62_dotc",
    "StdBLAS.C62_scale_vector",
    "StdBLAS.C62_scale_matrix",
    "StdBLAS.C62_add_vector",
    "StdBLAS.C62_add_matrix",
    "StdBLAS.C62_apply_givens",
    "StdBLAS.C62_gemv",
    "StdBLAS.C62_gemv_update",
    "StdBLAS.C62_symv",
    "StdBLAS.C62_symv_update",
    "StdBLAS.C62_hemv",
    "StdBLAS.C62_hemv_update",
    "StdBLAS.C62_trmv",
    "StdBLAS.C62_trmv_update",
    "StdBLAS.C62_trmv_in_place",
    "StdBLAS.C62_gemm",
    "StdBLAS.C62_gemm_update",
    "StdBLAS.C62_symm_left",
    "StdBLAS.C62_symm_right",
    "StdBLAS.C62_hemm_left",
    "StdBLAS.C62_hemm_right",
    "StdBLAS.C62_trmm_left",
    "StdBLAS.C62_trmm_right",
    "StdBLAS.C62_trmm_left_in_place",
    "StdBLAS.C62_trmm_right_in_place",
    "StdBLAS.C62_ger",
    "StdBLAS.C62_gerc",
    "StdBLAS.C62_syr",
    "StdBLAS.C62_syr_alpha",
    "StdBLAS.C62_her",
    "StdBLAS.C62_her_alpha",
    "StdBLAS.C62_syr2",
    "StdBLAS.C62_her2",
    "StdBLAS.C62_syrk",
    "StdBLAS.C62_syrk_alpha",
    "StdBLAS.C62_herk",
    "StdBLAS.C62_herk_alpha",
    "StdBLAS.C62_syr2k",
    "StdBLAS.C62_her2k",
    "StdBLAS.C62_vector_abs_sum",
    "StdBLAS.C62_matrix_inf_norm",
    "StdBLAS.C62_matrix_one_norm",
    "StdBLAS.C62_trsv",
    "StdBLAS.C62_trsm_left",
    "StdBLAS.C62_trsm_right",
    "StdBLAS.C62_trsv_infinite_diagonal_false",
    "StdBLAS.C62_complex_dot",
    "StdBLAS.C62_complex_dotc",
    "StdBLAS.C62_complex_scale_vector",
    "StdBLAS.C62_complex_scale_matrix",
    "StdBLAS.C62_complex_add_vector",
    "StdBLAS.C62_complex_add_matrix",
    "StdBLAS.C62_complex_apply_givens",
    "StdBLAS.C62_complex_gemv",
    "StdBLAS.C62_complex_gemv_update",
    "StdBLAS.C62_complex_symv",
    "StdBLAS.C62_complex_symv_update",
    "StdBLAS.C62_complex_hemv",
    "StdBLAS.C62_complex_hemv_update",
    "StdBLAS.C62_complex_trmv",
    "StdBLAS.C62_complex_trmv_update",
    "StdBLAS.C62_complex_trmv_in_place",
    "StdBLAS.C62_complex_gemm",
    "StdBLAS.C62_complex_gemm_update",
    "StdBLAS.C62_complex_symm_left",
    "StdBLAS.C62_complex_symm_right",
    "StdBLAS.C62_complex_hemm_left",
    "StdBLAS.C62_complex_hemm_right",
    "StdBLAS.C62_complex_trmm_left",
    "StdBLAS.C62_complex_trmm_right",
    "StdBLAS.C62_complex_trmm_left_in_place",
    "StdBLAS.C62_complex_trmm_right_in_place",
    "StdBLAS.C62_complex_ger",
    "StdBLAS.C62_complex_gerc",
    "StdBLAS.C62_complex_syr",
    "StdBLAS.C62_complex_syr_alpha",
    "StdBLAS.C62_complex_her",
    "StdBLAS.C62_complex_her_alpha",
    "StdBLAS.C62_complex_syr2",
    "StdBLAS.C62_complex_her2",
    "StdBLAS.C62_complex_syrk",
    "StdBLAS.C62_complex_syrk_alpha",
    "StdBLAS.C62_complex_herk",
    "StdBLAS.C62_complex_herk_alpha",
    "StdBLAS.C62_complex_syr2k",
    "StdBLAS.C62_complex_her2k",
    "StdBLAS.C62_complex_vector_abs_sum",
    "StdBLAS.C62_complex_trsv",
    "StdBLAS.C62_complex_trsm_left",
    "StdBLAS.C62_complex_trsm_right",
    "StdBLAS.C62_vector_sum_of_squares",
    "StdBLAS.C62_vector_two_norm",
    "StdBLAS.C62_vector_two_norm_double",
    "StdBLAS.C62_complex_vector_two_norm",
    "StdBLAS.C62_complex_vector_sum_of_squares",
    "StdBLAS.C62_complex_matrix_inf_norm",
    "StdBLAS.C62_complex_matrix_one_norm"
   ],
   "note": "For every format with Format.Errors (Spec/Accurate.lean; proved for every binary format, hence float and double). FP.Accurate states both directions. False for the solves with an infinite diagonal element: the result is a finite 0 (C62_trsv_infinite_diagonal_false); C62_trsv, C62_trsm_left and C62_trsm_right assume a finite diagonal. With a scalar alpha the product alpha*x(i) has to be finite by itself. vector_two_norm and vector_sum_of_squares: for formats in which the number of elements is exact and underflow is negligible against u (proved for float and double). C62_complex_*: std::complex elements (Spec/AccurateComplex.lean); what a compiler does with a product whose parts are both NaN is a parameter (Annex G in the examples), so is the division (assumed: Divides), products of a real and a complex number are modelled as products of two complex numbers. Norms of complex elements: the accuracy of std::abs is a parameter (Spec/Modulus.lean; roundedModulus_spec shows that one exists). Not covered: matrix_frob_norm (wrong, see C07 and C56), signed zeros."
  },
  {
   "property": "C63",
   "status": "partial",
   "theorems": [
    "StdBLAS.Extents.C63_dot",
    "StdBLAS.Extents.C63_copy_vector",
    "StdBLAS.Extents.C63_swap_vector",
    "StdBLAS.Extents.C63_apply_givens",
    "StdBLAS.Extents.C63_copy_matrix",
    "StdBLAS.Extents.C63_swap_matrix",
    "StdBLAS.Extents.C63_add_vector",
    "StdBLAS.Extents.C63_add_matrix",
    "StdBLAS.Extents.C63_native_unchecked_false",
    "StdBLAS.Extents.C63_kokkos_dot",
    "StdBLAS.Extents.C63_kokkos_ger",
    "StdBLAS.Extents.C63_kokkos_trmm_left_in_place",
    "StdBLAS.Extents.C63_kokkos_trmm_right_in_place",
    "StdBLAS.Extents.C63_kokkos_syr_partial",
    "StdBLAS.Extents.C63_kokkos_syr2_partial",
    "StdBLAS.Extents.C63_kokkos_trsv_partial",
    "StdBLAS.Extents.C63_kokkos_left_product_partial",
    "StdBLAS.Extents.C63_kokkos_right_product_partial",
    "StdBLAS.Extents.C63_kokkos_left_product_update_partial",
    "StdBLAS.Extents.C63_kokkos_right_product_update_partial",
    "StdBLAS.Extents.C63_kokkos_rank_k_partial",
    "StdBLAS.Extents.C63_kokkos_rank_2k_partial",
    "StdBLAS.Extents.C63_kokkos_trsm_left_partial",
    "StdBLAS.Extents.C63_kokkos_trsm_right_partial",
    "StdBLAS.Extents.C63_kokkos_packed_triangle",
    "StdBLAS.Extents.C63_kokkos_discarded_false",
    "StdBLAS.Extents.C63_kokkos_discarded_conditions",
    "StdBLAS.Extents.C63_kokkos_discarded_conditions_partial",
    "StdBLAS.Extents.C63_kokkos_symv_conditions_false",
    "StdBLAS.Extents.C63_kokkos_dynamic_between_false",
    "StdBLAS.Extents.C63_kokkos_hemm_right_update_false"
   ],
   "note": "Exact (well-formed iff the static extents allow sizes that fit) for the native copy, swap_elements, add, dot, dotc, apply_givens_rotation and the Kokkos dot, matrix_rank_1_update and in-place triangular products. False: the native algorithms on matrices have no check (C63_native_unchecked_false); the Kokkos add, swap_elements, matrix_vector_product, symmetric and triangular matrix-vector products and matrix_product discard the result of the check (C63_kokkos_discarded_false); the other Kokkos checks compare neighbours only, so a dynamic extent hides a contradiction (C63_kokkos_dynamic_between_false; the _partial theorems: valid calls always compile, and the check is exact if the extents in the middle are static); the updating Hermitian right product ignores E."
  },
  {
   "property": "C64",
   "status": "partial",
   "theorems": [
    "StdBLAS.Overloads.C64_call_without_policy",
    "StdBLAS.Overloads.C64_call_with_policy",
    "StdBLAS.Overloads.C64_scaled_call_with_policy_partial",
    "StdBLAS.Overloads.C64_lvalue_policy_false",
    "StdBLAS.Overloads.C64_unregistered_policy_false",
    "StdBLAS.Overloads.C64_calls_end_without_policy",
    "StdBLAS.Overloads.C64_calls_end_with_policy",
    "StdBLAS.Overloads.C64_scaled_calls_end_partial",
    "StdBLAS.Overloads.C64_reaches_native_without_policy",
    "StdBLAS.Overloads.C64_reaches_native_with_policy",
    "StdBLAS.Overloads.C64_scaled_reaches_native_partial",
    "StdBLAS.Overloads.C64_copy_rank3_endless_false",
    "StdBLAS.Overloads.C64_nonunique_layout_endless_false",
    "StdBLAS.Overloads.C64_nonunique_layout_breaks_false"
   ],
   "note": "All documented forms of all 39 overload sets, generated from the headers. False: the rank-1 and rank-k updates refuse a policy that is an lvalue (C64_lvalue_policy_false) and take a policy type that is not registered for a scaling factor (C64_unregistered_policy_false), so their theorems with policy are _partial (rvalue policies); copy of rank 3 and more and three products with a policy and a layout that is not unique recurse endlessly (C64_copy_rank3_endless_false, C64_nonunique_layout_endless_false); other calls with such layouts fail inside the library (C64_nonunique_layout_breaks_false). Not modelled: implicit conversions of arguments (template parameters have none), overloads of the user, the Kokkos overloads."
  },
  {
   "property": "C65",
   "status": "partial",
   "theorems": [
    "StdBLAS.C65_dot_false",
    "StdBLAS.C65_matrix_inf_norm",
    "StdBLAS.C65_matrix_one_norm",
    "StdBLAS.C65_gemm_fallback",
    "StdBLAS.C65_symv",
    "StdBLAS.C65_symv_update",
    "StdBLAS.C65_hemv",
    "StdBLAS.C65_hemv_update",
    "StdBLAS.C65_trmv",
    "StdBLAS.C65_trmv_update",
    "StdBLAS.C65_gemv_update",
    "StdBLAS.C65_symm_left",
    "StdBLAS.C65_symm_left_update",
    "StdBLAS.C65_symm_right",
    "StdBLAS.C65_symm_right_update",
    "StdBLAS.C65_hemm_left",
    "StdBLAS.C65_hemm_left_update",
    "StdBLAS.C65_hemm_right",
    "StdBLAS.C65_hemm_right_update",
    "StdBLAS.C65_trmm_left",
    "StdBLAS.C65_trmm_left_in_place",
    "StdBLAS.C65_trmm_right",
    "StdBLAS.C65_trmm_right_in_place",
    "StdBLAS.C65_syrk",
    "StdBLAS.C65_herk",
    "StdBLAS.C65_syr2k",
    "StdBLAS.C65_her2k"
   ],
   "note": "Proved without any law on + and * for all products and rank-k/2k updates of the backend's own kernels (the rank-1 and rank-2 updates: C48), and for matrix_inf_norm and matrix_one_norm on floating-point numbers. False for the reductions that are sums: C65_dot_false. Algorithms that the backend forwards to KokkosKernels depend on that library (C53)."
  },
  {
   "property": "C66",
   "status": "partial",
   "theorems": [
    "StdBLAS.C66_symv",
    "StdBLAS.C66_symv_update",
    "StdBLAS.C66_hemv",
    "StdBLAS.C66_hemv_update",
    "StdBLAS.C66_trmv",
    "StdBLAS.C66_trmv_update",
    "StdBLAS.C66_symm_left",
    "StdBLAS.C66_symm_left_update",
    "StdBLAS.C66_symm_right",
    "StdBLAS.C66_symm_right_update",
    "StdBLAS.C66_hemm_left",
    "StdBLAS.C66_hemm_left_update",
    "StdBLAS.C66_hemm_right",
    "StdBLAS.C66_hemm_right_update",
    "StdBLAS.C66_trmm_left",
    "StdBLAS.C66_trmm_left_in_place",
    "StdBLAS.C66_trmm_right",
    "StdBLAS.C66_trmm_right_in_place",
    "StdBLAS.C66_ger",
    "StdBLAS.C66_gerc",
    "StdBLAS.C66_syr",
    "StdBLAS.C66_her",
    "StdBLAS.C66_syr2",
    "StdBLAS.C66_her2",
    "StdBLAS.C66_syrk",
    "StdBLAS.C66_herk",
    "StdBLAS.C66_syr2k",
    "StdBLAS.C66_her2k",
    "StdBLAS.C66_complex_symv",
    "StdBLAS.C66_complex_symv_update",
    "StdBLAS.C66_complex_hemv",
    "StdBLAS.C66_complex_hemv_update",
    "StdBLAS.C66_complex_trmv",
    "StdBLAS.C66_complex_trmv_update",
    "StdBLAS.C66_complex_symm_left",
    "StdBLAS.C66_complex_symm_left_update",
    "StdBLAS.C66_complex_symm_right",
    "StdBLAS.C66_complex_symm_right_update",
    "StdBLAS.C66_complex_hemm_left",
    "StdBLAS.C66_complex_hemm_left_update",
    "StdBLAS.C66_complex_hemm_right",
    "StdBLAS.C66_complex_hemm_right_update",
    "StdBLAS.C66_complex_trmm_left",
    "StdBLAS.C66_complex_trmm_left_in_place",
    "StdBLAS.C66_complex_trmm_right",
    "StdBLAS.C66_complex_trmm_right_in_place",
    "StdBLAS.C66_complex_ger",
    "StdBLAS.C66_complex_gerc",
    "StdBLAS.C66_complex_syr",
    "StdBLAS.C66_complex_her",
    "StdBLAS.C66_complex_syr2",
    "StdBLAS.C66_complex_her2",
    "StdBLAS.C66_complex_syrk",
    "StdBLAS.C66_complex_herk",
    "StdBLAS.C66_complex_syr2k",
    "StdBLAS.C66_complex_her2k",
    "StdBLAS.C66_vector_norm2_overflow_false",
    "StdBLAS.C66_vector_norm2_underflow_false",
    "StdBLAS.C66_matrix_frob_norm_zero_false",
    "StdBLAS.C66_vector_sum_of_squares_zero_false",
    "StdBLAS.C66_matrix_inf_norm_nan_false",
    "StdBLAS.C66_matrix_frob_norm",
    "StdBLAS.C66_matrix_frob_norm_not_finite",
    "StdBLAS.C66_vector_sum_of_squares",
    "StdBLAS.C66_vector_sum_of_squares_from_zero",
    "StdBLAS.C66_vector_sum_of_squares_underflow_false",
    "StdBLAS.C66_dot",
    "StdBLAS.C66_vector_abs_sum",
    "StdBLAS.C66_vector_norm2",
    "StdBLAS.C66_complex_dot",
    "StdBLAS.C66_matrix_inf_norm_partial",
    "StdBLAS.C66_matrix_one_norm_partial",
    "StdBLAS.C66_gemm_fallback",
    "StdBLAS.C66_complex_gemm_fallback"
   ],
   "note": "Proved for the real and complex products and rank updates (including the native fallback of matrix_product), dot, vector_abs_sum and, up to the final square root, vector_norm2. matrix_frob_norm (up to the square root) and vector_sum_of_squares (its new part) are accurate for finite data that are not all zero. matrix_inf_norm and matrix_one_norm (_partial) assume finite elements. False for norms computed from squares: vector_norm2 overflows and underflows, matrix_frob_norm and vector_sum_of_squares of zeros are NaN, and so is vector_sum_of_squares of [2^-600] (_false theorems). Not proved: calls forwarded to KokkosKernels, whose code is not in the repository."
  },
  {
   "property": "C67",
   "status": "partial",
   "theorems": [
    "StdBLAS.C67_symv_upper_false",
    "StdBLAS.C67_hemv_upper_false",
    "StdBLAS.C67_trmv_upper_unit_false",
    "StdBLAS.C67_symv_update_false",
    "StdBLAS.C67_hemv_update_false",
    "StdBLAS.C67_trmv_update_false",
    "StdBLAS.C67_trmm_left_in_place_false",
    "StdBLAS.C67_trmm_right_in_place_false",
    "StdBLAS.C67_dot_false",
    "StdBLAS.C67_gemm_fallback",
    "StdBLAS.C67_syrk",
    "StdBLAS.C67_herk_partial",
    "StdBLAS.C67_syr2k",
    "StdBLAS.C67_her2k_partial",
    "StdBLAS.C67_symv_partial",
    "StdBLAS.C67_hemv_partial",
    "StdBLAS.C67_trmv_partial",
    "StdBLAS.C67_symm_left",
    "StdBLAS.C67_symm_right",
    "StdBLAS.C67_hemm_left_partial",
    "StdBLAS.C67_hemm_right_partial",
    "StdBLAS.C67_trmm_left",
    "StdBLAS.C67_trmm_right"
   ],
   "note": "Proved without any law on + and * for the rank-k and rank-2k updates, the overwriting symmetric, Hermitian and triangular products of matrices, and for lower triangles (triangular: also upper ones with explicit diagonal) the products with a vector; copy, swap_elements and the rank-1 and rank-2 updates: the C50 theorems of that name assume no law. Hermitian ones: real stored diagonal (C50_*_imaginary_diagonal_false). False (double, overflow in one order only) for upper triangles, the updating products with a vector, the in-place triangular products and dot."
  },
  {
   "property": "C68",
   "status": "proved",
   "theorems": [
    "StdBLAS.C68_scale_vector",
    "StdBLAS.C68_scale_matrix",
    "StdBLAS.C68_copy_vector",
    "StdBLAS.C68_copy_matrix",
    "StdBLAS.C68_swap_vector",
    "StdBLAS.C68_swap_matrix",
    "StdBLAS.C68_add_vector",
    "StdBLAS.C68_add_matrix",
    "StdBLAS.C68_dot",
    "StdBLAS.C68_dotc",
    "StdBLAS.C68_apply_givens",
    "StdBLAS.C68_apply_givens_complex",
    "StdBLAS.C68_gemv",
    "StdBLAS.C68_gemv_update",
    "StdBLAS.C68_symv",
    "StdBLAS.C68_symv_update",
    "StdBLAS.C68_hemv",
    "StdBLAS.C68_hemv_update",
    "StdBLAS.C68_trmv",
    "StdBLAS.C68_trmv_update",
    "StdBLAS.C68_trmv_in_place",
    "StdBLAS.C68_trsv",
    "StdBLAS.C68_ger",
    "StdBLAS.C68_gerc",
    "StdBLAS.C68_syr_alpha",
    "StdBLAS.C68_syr",
    "StdBLAS.C68_syr2",
    "StdBLAS.C68_syrk_alpha",
    "StdBLAS.C68_syrk",
    "StdBLAS.C68_syr2k",
    "StdBLAS.C68_her_alpha",
    "StdBLAS.C68_her",
    "StdBLAS.C68_her2",
    "StdBLAS.C68_herk_alpha",
    "StdBLAS.C68_herk",
    "StdBLAS.C68_her2k",
    "StdBLAS.C68_gemm",
    "StdBLAS.C68_gemm_update",
    "StdBLAS.C68_trmm_left",
    "StdBLAS.C68_trmm_right",
    "StdBLAS.C68_trmm_left_in_place",
    "StdBLAS.C68_trmm_right_in_place",
    "StdBLAS.C68_symm_left",
    "StdBLAS.C68_symm_right",
    "StdBLAS.C68_hemm_left",
    "StdBLAS.C68_hemm_right",
    "StdBLAS.C68_trsm_left",
    "StdBLAS.C68_trsm_right",
    "StdBLAS.C68_vector_abs_sum",
    "StdBLAS.C68_vector_sum_of_squares",
    "StdBLAS.C68_vector_two_norm",
    "StdBLAS.C68_vector_idx_abs_max",
    "StdBLAS.C68_matrix_frob_norm",
    "StdBLAS.C68_matrix_one_norm",
    "StdBLAS.C68_matrix_inf_norm",
    "StdBLAS.C68_linear"
   ],
   "note": "Accesses to elements of the arguments are counted (Spec/Cost.lean); arithmetic operations are not, there is a fixed number of them between two accesses. Performs: exact if the call ends normally, an upper bound otherwise. C68_linear is about every native algorithm (Call) except the updating symmetric and Hermitian products, whose body is assert(false) (C34). The Kokkos backend is not covered."
  },
  {
   "property": "C69",
   "status": "proved",
   "theorems": [
    "StdBLAS.C69_add_vector",
    "StdBLAS.C69_add_matrix",
    "StdBLAS.C69_scale_vector",
    "StdBLAS.C69_scale_matrix",
    "StdBLAS.C69_dot",
    "StdBLAS.C69_dotc",
    "StdBLAS.C69_gemv",
    "StdBLAS.C69_gemv_update",
    "StdBLAS.C69_symv",
    "StdBLAS.C69_symv_update",
    "StdBLAS.C69_hemv",
    "StdBLAS.C69_hemv_update",
    "StdBLAS.C69_trmv",
    "StdBLAS.C69_trmv_update",
    "StdBLAS.C69_gemm",
    "StdBLAS.C69_gemm_update",
    "StdBLAS.C69_symm_left",
    "StdBLAS.C69_hemm_left",
    "StdBLAS.C69_symm_right",
    "StdBLAS.C69_hemm_right",
    "StdBLAS.C69_trmm_left",
    "StdBLAS.C69_trmm_right",
    "StdBLAS.C69_ger",
    "StdBLAS.C69_gerc",
    "StdBLAS.C69_syr",
    "StdBLAS.C69_syr_alpha",
    "StdBLAS.C69_her",
    "StdBLAS.C69_her_alpha",
    "StdBLAS.C69_syrk",
    "StdBLAS.C69_syrk_alpha",
    "StdBLAS.C69_herk",
    "StdBLAS.C69_herk_alpha",
    "StdBLAS.C69_syr2",
    "StdBLAS.C69_her2",
    "StdBLAS.C69_syr2k",
    "StdBLAS.C69_her2k",
    "StdBLAS.C69_trmv_in_place",
    "StdBLAS.C69_trmm_left_in_place",
    "StdBLAS.C69_trmm_right_in_place",
    "StdBLAS.C69_copy_vector",
    "StdBLAS.C69_copy_vector_exact",
    "StdBLAS.C69_add_vector_exact",
    "StdBLAS.C69_scale_vector_exact",
    "StdBLAS.C69_dot_exact",
    "StdBLAS.C69_gemv_exact",
    "StdBLAS.C69_gemv_update_exact",
    "StdBLAS.C69_symv_exact",
    "StdBLAS.C69_gemm_exact",
    "StdBLAS.C69_gemm_update_exact",
    "StdBLAS.C69_vector_abs_sum_exact",
    "StdBLAS.C69_trsv_exact",
    "StdBLAS.C69_trsm_left_exact",
    "StdBLAS.C69_trsm_right_exact",
    "StdBLAS.C69_trsv_unit",
    "StdBLAS.C69_trsm_left_unit",
    "StdBLAS.C69_trsm_right_unit",
    "StdBLAS.C69_dot_uint16_wraps_false",
    "StdBLAS.C69_dot_int32_wraps_false",
    "StdBLAS.C69_dot_wide_init_false",
    "StdBLAS.C69_add_mixed_signs_false",
    "StdBLAS.C69_trsv_fraction_false"
   ],
   "note": "Spec/IntElements.lean gives the C++20 rules (promotion, usual arithmetic conversions, wraparound of unsigned types, undefined overflow of signed types) for types of 8 to 64 bits with 32-bit int. The theorems without suffix are modular, those named _exact are about mixtures, those named _unit about solves. The restrictions are needed: the C69_*_false theorems show uint16_t and int32_t overflow, a wide init that does not help, mixed signs and a fractional solution. Norms (square roots) of integers are C57."
  },
  {
   "property": "C70",
   "status": "proved",
   "theorems": [
    "StdBLAS.C70_complex_dot",
    "StdBLAS.C70_complex_dotc",
    "StdBLAS.C70_complex_scale_vector",
    "StdBLAS.C70_complex_scale_matrix",
    "StdBLAS.C70_complex_add_vector",
    "StdBLAS.C70_complex_add_matrix",
    "StdBLAS.C70_complex_apply_givens",
    "StdBLAS.C70_complex_gemv",
    "StdBLAS.C70_complex_gemv_update",
    "StdBLAS.C70_complex_symv",
    "StdBLAS.C70_complex_symv_update",
    "StdBLAS.C70_complex_hemv",
    "StdBLAS.C70_complex_hemv_update",
    "StdBLAS.C70_complex_trmv",
    "StdBLAS.C70_complex_trmv_update",
    "StdBLAS.C70_complex_trmv_in_place",
    "StdBLAS.C70_complex_gemm",
    "StdBLAS.C70_complex_gemm_update",
    "StdBLAS.C70_complex_symm_left",
    "StdBLAS.C70_complex_symm_right",
    "StdBLAS.C70_complex_hemm_left",
    "StdBLAS.C70_complex_hemm_right",
    "StdBLAS.C70_complex_trmm_left",
    "StdBLAS.C70_complex_trmm_right",
    "StdBLAS.C70_complex_trmm_left_in_place",
    "StdBLAS.C70_complex_trmm_right_in_place",
    "StdBLAS.C70_complex_ger",
    "StdBLAS.C70_complex_gerc",
    "StdBLAS.C70_complex_syr",
    "StdBLAS.C70_complex_syr_alpha",
    "StdBLAS.C70_complex_her",
    "StdBLAS.C70_complex_her_alpha",
    "StdBLAS.C70_complex_syr2",
    "StdBLAS.C70_complex_her2",
    "StdBLAS.C70_complex_syrk",
    "StdBLAS.C70_complex_syrk_alpha",
    "StdBLAS.C70_complex_herk",
    "StdBLAS.C70_complex_herk_alpha",
    "StdBLAS.C70_complex_syr2k",
    "StdBLAS.C70_complex_her2k",
    "StdBLAS.C70_complex_vector_abs_sum",
    "StdBLAS.C70_complex_trsv",
    "StdBLAS.C70_complex_trsm_left",
    "StdBLAS.C70_complex_trsm_right",
    "StdBLAS.C70_dot",
    "StdBLAS.C70_dotc",
    "StdBLAS.C70_scale_vector",
    "StdBLAS.C70_scale_matrix",
    "StdBLAS.C70_add_vector",
    "StdBLAS.C70_add_matrix",
    "StdBLAS.C70_apply_givens",
    "StdBLAS.C70_gemv",
    "StdBLAS.C70_gemv_update",
    "StdBLAS.C70_symv",
    "StdBLAS.C70_symv_update",
    "StdBLAS.C70_hemv",
    "StdBLAS.C70_hemv_update",
    "StdBLAS.C70_trmv",
    "StdBLAS.C70_trmv_update",
    "StdBLAS.C70_trmv_in_place",
    "StdBLAS.C70_gemm",
    "StdBLAS.C70_gemm_update",
    "StdBLAS.C70_symm_left",
    "StdBLAS.C70_symm_right",
    "StdBLAS.C70_hemm_left",
    "StdBLAS.C70_hemm_right",
    "StdBLAS.C70_trmm_left",
    "StdBLAS.C70_trmm_right",
    "StdBLAS.C70_trmm_left_in_place",
    "StdBLAS.C70_trmm_right_in_place",
    "StdBLAS.C70_ger",
    "StdBLAS.C70_gerc",
    "StdBLAS.C70_syr",
    "StdBLAS.C70_syr_alpha",
    "StdBLAS.C70_her",
    "StdBLAS.C70_her_alpha",
    "StdBLAS.C70_syr2",
    "StdBLAS.C70_her2",
    "StdBLAS.C70_syrk",
    "StdBLAS.C70_syrk_alpha",
    "StdBLAS.C70_herk",
    "StdBLAS.C70_herk_alpha",
    "StdBLAS.C70_syr2k",
    "StdBLAS.C70_her2k",
    "StdBLAS.C70_vector_abs_sum",
    "StdBLAS.C70_matrix_inf_norm",
    "StdBLAS.C70_matrix_one_norm",
    "StdBLAS.C70_trsv",
    "StdBLAS.C70_trsm_left",
    "StdBLAS.C70_trsm_right",
    "StdBLAS.C70_bound_needed_false",
    "StdBLAS.C70_kokkos_complex_symv",
    "StdBLAS.C70_kokkos_complex_symv_update",
    "StdBLAS.C70_kokkos_complex_hemv",
    "StdBLAS.C70_kokkos_complex_hemv_update",
    "StdBLAS.C70_kokkos_complex_trmv",
    "StdBLAS.C70_kokkos_complex_trmv_update",
    "StdBLAS.C70_kokkos_complex_symm_left",
    "StdBLAS.C70_kokkos_complex_symm_left_update",
    "StdBLAS.C70_kokkos_complex_symm_right",
    "StdBLAS.C70_kokkos_complex_symm_right_update",
    "StdBLAS.C70_kokkos_complex_hemm_left",
    "StdBLAS.C70_kokkos_complex_hemm_left_update",
    "StdBLAS.C70_kokkos_complex_hemm_right",
    "StdBLAS.C70_kokkos_complex_hemm_right_update",
    "StdBLAS.C70_kokkos_complex_trmm_left",
    "StdBLAS.C70_kokkos_complex_trmm_left_in_place",
    "StdBLAS.C70_kokkos_complex_trmm_right",
    "StdBLAS.C70_kokkos_complex_trmm_right_in_place",
    "StdBLAS.C70_kokkos_complex_ger",
    "StdBLAS.C70_kokkos_complex_gerc",
    "StdBLAS.C70_kokkos_complex_syr",
    "StdBLAS.C70_kokkos_complex_her",
    "StdBLAS.C70_kokkos_complex_syr2",
    "StdBLAS.C70_kokkos_complex_her2",
    "StdBLAS.C70_kokkos_complex_syrk",
    "StdBLAS.C70_kokkos_complex_herk",
    "StdBLAS.C70_kokkos_complex_syr2k",
    "StdBLAS.C70_kokkos_complex_her2k",
    "StdBLAS.C70_kokkos_complex_dot",
    "StdBLAS.C70_complex_dot_backends_agree",
    "StdBLAS.C70_kokkos_gemm_fallback",
    "StdBLAS.C70_kokkos_symv",
    "StdBLAS.C70_kokkos_symv_update",
    "StdBLAS.C70_kokkos_hemv",
    "StdBLAS.C70_kokkos_hemv_update",
    "StdBLAS.C70_kokkos_trmv",
    "StdBLAS.C70_kokkos_trmv_update",
    "StdBLAS.C70_kokkos_symm_left",
    "StdBLAS.C70_kokkos_symm_left_update",
    "StdBLAS.C70_kokkos_symm_right",
    "StdBLAS.C70_kokkos_symm_right_update",
    "StdBLAS.C70_kokkos_hemm_left",
    "StdBLAS.C70_kokkos_hemm_left_update",
    "StdBLAS.C70_kokkos_hemm_right",
    "StdBLAS.C70_kokkos_hemm_right_update",
    "StdBLAS.C70_kokkos_trmm_left",
    "StdBLAS.C70_kokkos_trmm_left_in_place",
    "StdBLAS.C70_kokkos_trmm_right",
    "StdBLAS.C70_kokkos_trmm_right_in_place",
    "StdBLAS.C70_kokkos_ger",
    "StdBLAS.C70_kokkos_gerc",
    "StdBLAS.C70_kokkos_syr",
    "StdBLAS.C70_kokkos_her",
    "StdBLAS.C70_kokkos_syr2",
    "StdBLAS.C70_kokkos_her2",
    "StdBLAS.C70_kokkos_syrk",
    "StdBLAS.C70_kokkos_herk",
    "StdBLAS.C70_kokkos_syr2k",
    "StdBLAS.C70_kokkos_her2k",
    "StdBLAS.C70_kokkos_dot",
    "StdBLAS.C70_dot_backends_agree",
    "StdBLAS.C70_kokkos_vector_abs_sum",
    "StdBLAS.C70_kokkos_matrix_inf_norm",
    "StdBLAS.C70_kokkos_matrix_one_norm"
   ],
   "note": "For every format with Format.Grid (Spec/FloatExact.lean; proved for every binary format and every unit in its range, hence float and double). With a scalar alpha the product of alpha and an element has to fit by itself. C70_bound_needed_false: the bound is sharp (double, 2^53 + 1). Kokkos kernels: C70_kokkos_*. Complex elements (Gaussian integers and their scaled versions, for any recovery of non-finite products): C70_complex_* for the functions of the native headers; the division of a solve is a parameter that is assumed to return exact quotients; C70_kokkos_complex_* for the kernels of the Kokkos backend. Not covered: the norms that use square roots or std::abs of complex elements, signed zeros, calls that the backend forwards to KokkosKernels."
  },
  {
   "property": "C71",
   "status": "proved",
   "theorems": [
    "StdBLAS.C71_product_of_products",
    "StdBLAS.C71_matrix_product_assoc",
    "StdBLAS.C71_adjoint",
    "StdBLAS.C71_adjoint_complex",
    "StdBLAS.C71_symmetric_self_adjoint",
    "StdBLAS.C71_hermitian_self_adjoint",
    "StdBLAS.C71_transposed_product",
    "StdBLAS.C71_distributes",
    "StdBLAS.C71_scaling",
    "StdBLAS.C71_rank_1_then_product",
    "StdBLAS.C71_rank_k_then_product"
   ],
   "note": "Exact arithmetic: every commutative ring (a star ring for the statements with conjugation). The calls are composed as programs, with the intermediate results in memory."
  },
  {
   "property": "C72",
   "status": "proved",
   "theorems": [
    "StdBLAS.C72_two_solves",
    "StdBLAS.C72_lu_solve",
    "StdBLAS.C72_lu_solve_transposed",
    "StdBLAS.C72_cholesky_solve",
    "StdBLAS.C72_cholesky_solve_complex",
    "StdBLAS.C72_lu_solve_matrix",
    "StdBLAS.C72_lu_solve_right",
    "StdBLAS.C72_lu_residual",
    "StdBLAS.C72_backward_error"
   ],
   "note": "Exact arithmetic for all but C72_backward_error, which composes the componentwise backward error bounds of C47 for the two solves."
  },
  {
   "property": "C73",
   "status": "proved",
   "theorems": [
    "StdBLAS.C73_dot",
    "StdBLAS.C73_dotc",
    "StdBLAS.C73_sum_of_squares",
    "StdBLAS.C73_abs_sum",
    "StdBLAS.C73_scale",
    "StdBLAS.C73_copy",
    "StdBLAS.C73_swap",
    "StdBLAS.C73_add",
    "StdBLAS.C73_apply_givens",
    "StdBLAS.C73_apply_givens_complex",
    "StdBLAS.C73_gemv_rows",
    "StdBLAS.C73_gemv_update_rows",
    "StdBLAS.C73_gemm_rows",
    "StdBLAS.C73_gemm_update_rows",
    "StdBLAS.C73_ger_rows",
    "StdBLAS.C73_gerc_rows",
    "StdBLAS.C73_trsm_left_columns",
    "StdBLAS.C73_trsm_right_rows",
    "StdBLAS.C73_trmm_left_in_place_lower_blocks",
    "StdBLAS.C73_trmm_left_in_place_upper_blocks",
    "StdBLAS.C73_trmm_right_in_place_lower_blocks",
    "StdBLAS.C73_trmm_right_in_place_upper_blocks",
    "StdBLAS.C73_gemv_columns",
    "StdBLAS.C73_gemv_update_columns",
    "StdBLAS.C73_gemm_inner",
    "StdBLAS.C73_gemm_columns",
    "StdBLAS.C73_gemm_tiles",
    "StdBLAS.C73_trsv_lower_blocks",
    "StdBLAS.C73_trsv_upper_blocks",
    "StdBLAS.C73_idx_abs_max",
    "StdBLAS.C73_symv_lower_blocks",
    "StdBLAS.C73_symv_upper_blocks",
    "StdBLAS.C73_hemv_lower_blocks",
    "StdBLAS.C73_hemv_upper_blocks",
    "StdBLAS.C73_trmv_lower_blocks",
    "StdBLAS.C73_trmv_upper_blocks",
    "StdBLAS.C73_herk_lower_blocks",
    "StdBLAS.C73_herk_upper_blocks",
    "StdBLAS.C73_syrk_alpha_lower_blocks",
    "StdBLAS.C73_syrk_alpha_upper_blocks",
    "StdBLAS.C73_herk_alpha_lower_blocks",
    "StdBLAS.C73_herk_alpha_upper_blocks",
    "StdBLAS.C73_trsm_left_lower_blocks",
    "StdBLAS.C73_trsm_left_upper_blocks",
    "StdBLAS.C73_trsm_right_lower_blocks",
    "StdBLAS.C73_trsm_right_upper_blocks",
    "StdBLAS.C73_symm_left_columns",
    "StdBLAS.C73_hemm_left_columns",
    "StdBLAS.C73_trmm_left_columns",
    "StdBLAS.C73_trmm_left_in_place_columns",
    "StdBLAS.C73_symm_right_rows",
    "StdBLAS.C73_hemm_right_rows",
    "StdBLAS.C73_trmm_right_rows",
    "StdBLAS.C73_trmm_right_in_place_rows",
    "StdBLAS.C73_syrk_columns",
    "StdBLAS.C73_syrk_alpha_columns",
    "StdBLAS.C73_syr2k_columns",
    "StdBLAS.C73_herk_columns",
    "StdBLAS.C73_herk_alpha_columns",
    "StdBLAS.C73_her2k_columns",
    "StdBLAS.C73_syrk_lower_blocks",
    "StdBLAS.C73_syrk_upper_blocks",
    "StdBLAS.C73_symm_left_lower_blocks",
    "StdBLAS.C73_symm_left_upper_blocks",
    "StdBLAS.C73_symm_right_lower_blocks",
    "StdBLAS.C73_symm_right_upper_blocks",
    "StdBLAS.C73_hemm_left_lower_blocks",
    "StdBLAS.C73_hemm_left_upper_blocks",
    "StdBLAS.C73_hemm_right_lower_blocks",
    "StdBLAS.C73_hemm_right_upper_blocks",
    "StdBLAS.C73_trmm_left_lower_blocks",
    "StdBLAS.C73_trmm_left_upper_blocks",
    "StdBLAS.C73_trmm_right_lower_blocks",
    "StdBLAS.C73_trmm_right_upper_blocks"
   ],
   "note": "Parts: Spec/Blocks.lean (what submdspan with index pairs gives; submdspan itself is not part of this library). Props/Blocks.lean: equal as programs (same result, memory and undefined behaviour for every memory). Props/BlocksMemory.lean: same memory afterwards, for non-overlapping arguments. Props/BlocksStructured.lean, Props/BlocksRankK.lean: structured products (left side: equal as programs) and rank-k updates. Props/BlocksProducts.lean: symmetric, Hermitian and triangular matrix-vector products in 2 x 2 blocks. Props/BlocksSolve.lean, Props/BlocksSolveRight.lean: triangular solves with many right-hand sides. Props/BlocksTriangular.lean, Props/BlocksInPlace.lean: triangular matrix products, also in place. Props/BlocksSymmetric.lean: symmetric and Hermitian matrix products."
  },
  {
   "property": "C74",
   "status": "proved",
   "theorems": [
    "StdBLAS.C74_cauchy_schwarz",
    "StdBLAS.C74_cauchy_schwarz_complex",
    "StdBLAS.C74_triangle",
    "StdBLAS.C74_scale",
    "StdBLAS.C74_zero",
    "StdBLAS.C74_inf_norm_product",
    "StdBLAS.C74_inf_norm_mul",
    "StdBLAS.C74_one_norm_mul",
    "StdBLAS.C74_abs_sum_triangle",
    "StdBLAS.C74_one_norm_product",
    "StdBLAS.C74_inf_norm_idx_abs_max",
    "StdBLAS.C74_inf_norm_attained"
   ],
   "note": "Exact arithmetic; elements of a normed field whose modelled abs is its norm, in particular the real and complex numbers; the statements with vector_abs_sum, vector_idx_abs_max and the attained bound are for real numbers (vector_abs_sum of complex numbers is another sum, C05). matrix_frob_norm is left out: it is not the Frobenius norm (C07)."
  },
  {
   "property": "C75",
   "status": "proved",
   "theorems": [
    "StdBLAS.C75_block_cholesky",
    "StdBLAS.C75_block_lu",
    "StdBLAS.C75_cholesky",
    "StdBLAS.C75_posv",
    "StdBLAS.C75_cholesky_qr",
    "StdBLAS.C75_conjugate_gradients",
    "StdBLAS.C75_conjugate_gradients_residual",
    "StdBLAS.C75_gauss_seidel",
    "StdBLAS.C75_gauss_seidel_converges",
    "StdBLAS.C75_gram_schmidt",
    "StdBLAS.C75_gram_schmidt_least_squares",
    "StdBLAS.C75_qr",
    "StdBLAS.C75_least_squares",
    "StdBLAS.C75_lu",
    "StdBLAS.C75_lu_pivot",
    "StdBLAS.C75_gesv",
    "StdBLAS.C75_inverse"
   ],
   "note": "Exact arithmetic. The solvers (Spec/Clients.lean) are programs of a user, not code of /repo; every call in them is the model of the library algorithm. Real numbers for pivoting, Cholesky and QR; the rotations are the values that the model of setup_givens_rotation for real numbers returns (ReturnsGivens)."
  },
  {
   "property": "C76",
   "status": "proved",
   "theorems": [
    "StdBLAS.C76_kokkos",
    "StdBLAS.C76_kokkos_surely",
    "StdBLAS.C76_transfer",
    "StdBLAS.C76_homomorphism",
    "StdBLAS.C76_lanes",
    "StdBLAS.C76_real_in_complex",
    "StdBLAS.C76_conjugate_data",
    "StdBLAS.C76_derivative",
    "StdBLAS.C76_intervals"
   ],
   "note": "All 54 native algorithms (Call) in C76_transfer and C76_homomorphism. Comparisons of magnitudes have to agree (RespectsNorms), so the norms are excluded for packs, dual numbers and intervals, and so is division for dual numbers and intervals (no derivative, respectively no interval, if the divisor vanishes). C76_kokkos: the 39 calls of the Kokkos backend whose loops are in the repository (KCall), for every schedule; the absolute values have to be equal there."
  },
  {
   "property": "C77",
   "status": "proved",
   "theorems": [
    "StdBLAS.C77_kokkos",
    "StdBLAS.C77_kokkos_surely",
    "StdBLAS.C77_moved",
    "StdBLAS.C77_renamed",
    "StdBLAS.C77_stored",
    "StdBLAS.C77_matrix_layouts",
    "StdBLAS.C77_product_layouts",
    "StdBLAS.C77_solve_layouts"
   ],
   "note": "All 54 native algorithms (Call) in C77_moved, C77_renamed and C77_stored; C77_matrix_layouts for any call with three matrices. C77_kokkos: the 39 calls of the Kokkos backend whose loops are in the repository (KCall), for every schedule; the views that the backend makes of the arguments have to correspond, and both or neither matrix has a transposed layout."
  },
  {
   "property": "C78",
   "status": "proved",
   "theorems": [
    "StdBLAS.C78_lu_pivot",
    "StdBLAS.C78_gesv",
    "StdBLAS.C78_gesv_growth",
    "StdBLAS.C78_potrf",
    "StdBLAS.C78_potrf_succeeds",
    "StdBLAS.C78_posv",
    "StdBLAS.C78_posv_succeeds"
   ],
   "note": "Standard model of rounded arithmetic, met by binary floating point without overflow and underflow. The solvers (Spec/Clients.lean) are programs of a user, not code of /repo; every call in them is the model of the library algorithm. The bounds for Gaussian elimination assume that no computed pivot is zero (shown for the example); for Cholesky success is a theorem."
  },
  {
   "property": "C79",
   "status": "partial",
   "theorems": [
    "StdBLAS.C79_same_work",
    "StdBLAS.C79_same_work_library",
    "StdBLAS.C79_finished_partial",
    "StdBLAS.C79_finished_library_partial",
    "StdBLAS.C79_result_visible_partial",
    "StdBLAS.C79_trmm_returns_early",
    "StdBLAS.C79_library_returns_early",
    "StdBLAS.C79_calls_then_fence",
    "StdBLAS.C79_waiting_call_sees_all",
    "StdBLAS.C79_trmm_false",
    "StdBLAS.C79_scale_false",
    "StdBLAS.C79_frob_norm_false"
   ],
   "note": "Proved for 35 of the 39 calls with loops (all but the triangular matrix-matrix products with implicit unit diagonal) and for copy, conjugated dot, vector_idx_abs_max and matrix_product with other accessors. False of the code for the others: the triangular products with implicit unit diagonal and the calls that only forward to KokkosBlas submit kernels and return without a fence (C79_trmm_returns_early, C79_library_returns_early, C79_trmm_false, C79_scale_false), and matrix_frob_norm of a 1x1 matrix reads the element on the host without waiting for earlier calls (C79_frob_norm_false). Calls of any kind followed by a fence or by a call that waits do what they should (C79_calls_then_fence, C79_waiting_call_sees_all). What Kokkos and KokkosBlas wait for is an assumption, stated in Core/Async.lean."
  },
  {
   "property": "C80",
   "status": "proved",
   "theorems": [
    "StdBLAS.C80_ends",
    "StdBLAS.C80_sequence",
    "StdBLAS.C80_threads",
    "StdBLAS.C80_uninitialised_output",
    "StdBLAS.C80_dot_too_short",
    "StdBLAS.C80_copy_too_short",
    "StdBLAS.C80_gemv_too_short"
   ],
   "note": "Undefined operations in the model are accesses outside of the extents of a view and accesses to unallocated cells (C80_uninitialised_output: also reads of uninitialised cells). The necessity of the size conditions is shown for dot, copy and matrix_vector_product."
  },
  {
   "property": "C81",
   "status": "proved",
   "theorems": [
    "StdBLAS.C81_copy_vector",
    "StdBLAS.C81_add_vector",
    "StdBLAS.C81_copy_matrix",
    "StdBLAS.C81_gemv",
    "StdBLAS.C81_gemm",
    "StdBLAS.C81_ger",
    "StdBLAS.C81_ger_own_column",
    "StdBLAS.C81_ger_own_row",
    "StdBLAS.C81_move_down",
    "StdBLAS.C81_move_up",
    "StdBLAS.C81_copy_does_not_move_up",
    "StdBLAS.C81_move_up_backwards",
    "StdBLAS.C81_swap_reversed",
    "StdBLAS.C81_swap_transposed",
    "StdBLAS.C81_copy_transposed",
    "StdBLAS.C81_no_transpose_in_place",
    "StdBLAS.C81_add_matrix",
    "StdBLAS.C81_prefix_sums",
    "StdBLAS.C81_horner",
    "StdBLAS.C81_gemv_update",
    "StdBLAS.C81_gemv_in_place",
    "StdBLAS.C81_gemv_update_in_place",
    "StdBLAS.C81_gemv_sweep",
    "StdBLAS.C81_gemm_in_place_right",
    "StdBLAS.C81_gemm_in_place_left",
    "StdBLAS.C81_no_product_in_place",
    "StdBLAS.C81_kokkos_swap",
    "StdBLAS.C81_kokkos_copy_rows",
    "StdBLAS.C81_kokkos_gemv_input"
   ],
   "note": "C81_copy_does_not_move_up and C81_no_transpose_in_place are the negations of what a user might expect. The documentation of the library does not allow most overlaps; the theorems say what this code does. For the Kokkos backend the theorems C81_kokkos_\u2026 show which overlaps are data races; the documentation does not allow them."
  }
 ]
}

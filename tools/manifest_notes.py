STATUS["C07"] = "partial"
NOTES["C07"] = ("The property is false for the code (the update uses scale/|a| in both branches). Proved: negation with a "
  "1x2 witness; the result is never below the true value; exact characterisation of when it is equal.")
STATUS["C14"] = "partial"
NOTES["C14"] = ("The property is false for the code. C14_r_false: when f and g are both at most safmn2^2 the returned r is "
  "too large by a power of 1/safmn2 (line 366 loop). C14_unitary_false: c^2+|s|^2 = 1+|f|^2/|g|^2 in the branch for very small f. "
  "C14_setup_givens_complex_partial: everything else (termination, annihilation, unitarity up to safmin/safmn2^2, r outside that range).")
STATUS["C33"] = "partial"
NOTES["C33"] = ("Left side proved. The right-side product is wrong when the stored diagonal has imaginary parts: "
  "C33_hemm_right_false is the negation, C33_hemm_right_uses_stored_diagonal says exactly what is computed, "
  "C33_hemm_right_partial is the property for real stored diagonals.")
STATUS["C34"] = "partial"
NOTES["C34"] = ("The property is false for the code: the bodies are assert(false). Proved: the negation for all four overloads in "
  "both builds, and what the calls do (abort, or leave all memory unchanged under NDEBUG).")
STATUS["C23"] = "partial"
NOTES["C23"] = ("False for the code for a 32-bit unsigned size_type and the upper triangle (C23_trsv_uint32_false, "
  "C23_trsm_left_uint32_false: undefined behaviour). Proved for all other index types, and for the right side for all.")
NOTES["C24"] = "Vector and matrix-matrix versions, both orders, both sides."
STATUS["C51"] = "partial"
NOTES["C51"] = ("False for the right-side solve with a lower triangle when the extent is not representable in make_signed_t<size_type> "
  "(C51_trsm_right_false: uint8_t, 200 columns: nothing is computed) and for the empty upper solve with uint32 (C23). Proved otherwise, for every native algorithm "
  "(C51_scale_vector to C51_hemm_right for those outside the triangular solves and products). "
  "Extents are assumed representable in ptrdiff_t (no object is larger).")
STATUS["C38"] = "partial"
NOTES["C38"] = ("transposed(A)[i,j] is A[j,i] on the same cells for layout_left, layout_right, layout_stride and user layouts. "
  "Not as stated: transposing a user layout or (default configuration) a padded layout twice does not compile (C38_transposed_twice_false), and with "
  "LINALG_FIX_TRANSPOSED_FOR_PADDED_LAYOUTS static padded layouts can break a constructor precondition (C38_transposed_padded_static_false).")
STATUS["C39"] = "partial"
NOTES["C39"] = ("False for layout_blas_general as written (C39_transposed_blas_general_false); exact description of the result and "
  "the partial theorem for runs of one element.")
STATUS["C40"] = "partial"
NOTES["C40"] = ("False for layout_blas_general as written, for every leading dimension and every matrix with at least two rows and two columns "
  "(C40_meaning_false); C40_meaning_exact says what it maps to; uniqueness and span proved for lda >= 1, false for lda = 0.")
STATUS["C44"] = "partial"
NOTES["C44"] = ("Proved when the product has the element type of the reference. False for mixed types (C44_mixed_types_false): the proxy is "
  "converted to the element type first; C44_binary_exact says exactly what is computed.")
STATUS["C45"] = "partial"
NOTES["C45"] = ("Proved for every algorithm and policy: policies mapped to inline (all policies, with the library's mapper) run the native "
  "algorithm on the same arguments; for 42 of the 55 overloads a matching backend is called with the same arguments. False for the other "
  "13 (C45_backend_not_called_false, C45_no_backend_ill_formed_false, C45_right_product_reordered_false), and a cyclic mapper never ends "
  "(C45_cyclic_mapper_endless_false). The native algorithms themselves are opaque here; overload resolution is modelled by two lookups.")
STATUS["C46"] = "partial"
NOTES["C46"] = ("Proved for the one-column and column-by-column claims and for the symmetric, left Hermitian and triangular algorithms. False for the "
  "right-side Hermitian product when the stored diagonal is not real (C46_hemm_right_full_false), because the code does not take its real part.")
NOTES["C47"] = ("Standard model of rounding (Spec/Rounding.lean: relative error u for each operation, no overflow or underflow), met by binary "
  "floating point with p digits and unbounded exponent (Rounded.flt). Also for dotc, the symmetric, Hermitian and triangular products, all rank updates and the reductions (Spec/RoundingReal.lean).")
NOTES["C48"] = ("Kokkos itself is an assumption (Core/Parallel.lean). The per-kernel theorems are for contiguous vectors and untransposed matrices: "
  "other layouts are misread by the backend (C50). Algorithms that forward to KokkosKernels: C53.")
NOTES["C49"] = ("Also for sum_of_squares and frob_norm of data that is not zero, and a rounding bound for dot in terms of the depth of the tree.")
STATUS["C50"] = "partial"
NOTES["C50"] = ("SameOutcome: same result and same final memory under every schedule, for contiguous vectors and untransposed matrices. "
  "The property is false in the cases proved by the theorems ending in _false (strided or transposed arguments, init of the norms, zero vectors, complex abs_sum, "
  "updating gemv, imaginary parts on Hermitian diagonals); the _partial theorems exclude exactly these. "
  "For algorithms that the backend forwards to KokkosKernels the comparison assumes the documented behaviour of that library (Spec/KokkosLib.lean).")
STATUS["C52"] = "partial"
NOTES["C52"] = ("ThrowsIff: with wrong extents every execution throws and none writes; with fitting extents none throws. False in two cases: copy between "
  "rank-2 layouts has no check (C52_copy_wrong_size_false: some schedule accesses memory out of bounds) and the updating right-side Hermitian product does not "
  "check E (C52_hemm_right_update_wrong_E_false). For the algorithms forwarded to KokkosKernels: the exception on wrong extents.")
STATUS["C53"] = "partial"
NOTES["C53"] = ("For every library that meets Spec/KokkosLib.lean (refLib shows that one exists). False: matrix_vector_product drops the transposition of A "
  "(C53_gemv_transposed_false); the triangular products with explicit diagonal pass the reversed triangle flag, so they are right only if the library's flags are "
  "reversed too (C53_trmm_*_partial) and multiply with the other triangle if the flags have the usual meaning (C53_trmm_*_standard_exact, _false), which is the meaning "
  "the solves of the same backend rely on.")
STATUS["C55"] = "partial"
NOTES["C55"] = ("For every element type with a set of absorbing values (Spec/Absorb.lean; FP.absorbs_nan: NaN of any format), the reductions for the numbers of Spec/Ieee.lean. "
  "False for matrix_one_norm and matrix_inf_norm: a NaN outside the last column (row) is lost (C55_matrix_one_norm_false, C55_matrix_inf_norm_false; "
  "the _lost theorems say that this always happens).")
STATUS["C56"] = "partial"
NOTES["C56"] = ("Numbers of Spec/Ieee.lean: any rounding that is monotone and idempotent, with a largest finite number; binary64 and binary32 with subnormals are instances. "
  "False: matrix_frob_norm overflows for the 1 x 2 matrix (1, 2^-600) (C56_matrix_frob_norm_false), and vector_two_norm of two infinite elements is NaN "
  "(C56_vector_two_norm_two_infinities).")
STATUS["C57"] = "partial"
NOTES["C57"] = ("The expressions with their conversions: for every family of types (Core/MixedTypes.lean). Exactness: Num (integers, reals, complex numbers); precision: MixFlt "
  "(binary floating point with any number of digits, unbounded exponent). False: the lower triangular left matrix solve accumulates in the element type of X, unlike the "
  "vector solve (C57_trsm_lower_left_differs), and vector_two_norm of integers without init uses integer quotients (C57_vector_two_norm_int_false).")
STATUS["C58"] = "proved"
NOTES["C58"] = ("All 54 native algorithms (Model/Calls.lean), all arguments, no size conditions. The step model is proved equal to the model of the other properties (C58_same_model). "
  "The repetition theorem needs the output not to overlap the inputs and the algorithm not to work in place.")
STATUS["C59"] = "proved"
NOTES["C59"] = ("All 54 native algorithms, for arguments whose output has the documented size (Call.Fits). Updates and in-place algorithms do need the old output (C59_inPlace_needs_old_output).")
STATUS["C60"] = "proved"
NOTES["C60"] = ("Any number of threads, each with any list of calls; interleaving semantics with data races as errors (Core/Parallel.lean). That outputs are disjoint is needed (C60_shared_output_races).")
STATUS["C61"] = "partial"
NOTES["C61"] = ("For every format that satisfies Format.Scaled (Spec/Scaling.lean; proved for float and double). False for infinities: the call never returns if f is infinite and g is "
  "not zero, or g is infinite and f neither zero nor NaN (C61_setup_givens_real_first_infinite_false, _second_infinite_false; C61_setup_givens_real_returns says exactly when it returns), nor does the "
  "complex version with an infinite part (C61_setup_givens_complex_infinite_false). Error bounds: for the real version for all finite numbers. For the complex one: f = 0 (_zero_first_accuracy, any g); f not zero and length of (f, g) at most half the largest finite number: cs and sn for all numbers (_cosine_sine_accuracy_partial), r above safmn2^2 (_finite_accuracy_partial) and for f tiny compared to g (_tiny_first_accuracy_partial); _large_accuracy_partial covers lengths near overflow if f is not tiny. r is wrong for extremely small numbers (_extremely_small_r_false). hypot is a parameter that is assumed to be accurate (Spec/Hypot.lean). Missing: lengths near overflow with tiny f. "
  "With exact arithmetic the functions are those of C13 and C14 (C61_setup_givens_real_exact, C61_setup_givens_complex_exact).")
STATUS["C62"] = "partial"
NOTES["C62"] = ("For every format with Format.Errors (Spec/Accurate.lean; proved for every binary format, hence float and double). FP.Accurate states both directions. False for the solves with an infinite "
  "diagonal element: the result is a finite 0 (C62_trsv_infinite_diagonal_false); C62_trsv, C62_trsm_left and C62_trsm_right assume a finite diagonal. With a scalar alpha the product alpha*x(i) has to be finite by itself. "
  "vector_two_norm and vector_sum_of_squares: for formats in which the number of elements is exact and underflow is negligible against u (proved for float and double). C62_complex_*: std::complex elements (Spec/AccurateComplex.lean); what a compiler does with a product whose parts are both NaN is a parameter (Annex G in the examples), so is the division (assumed: Divides), products of a real and a complex number are modelled as products of two complex numbers. Norms of complex elements: the accuracy of std::abs is a parameter (Spec/Modulus.lean; roundedModulus_spec shows that one exists). Not covered: matrix_frob_norm (wrong, see C07 and C56), signed zeros.")
STATUS["C63"] = "partial"
NOTES["C63"] = ("Exact (well-formed iff the static extents allow sizes that fit) for the native copy, swap_elements, add, dot, dotc, apply_givens_rotation and the Kokkos dot, matrix_rank_1_update and in-place triangular "
  "products. False: the native algorithms on matrices have no check (C63_native_unchecked_false); the Kokkos add, swap_elements, matrix_vector_product, symmetric and triangular matrix-vector products and matrix_product "
  "discard the result of the check (C63_kokkos_discarded_false); the other Kokkos checks compare neighbours only, so a dynamic extent hides a contradiction (C63_kokkos_dynamic_between_false; the _partial theorems: valid calls "
  "always compile, and the check is exact if the extents in the middle are static); the updating Hermitian right product ignores E.")
STATUS["C64"] = "partial"
NOTES["C64"] = ("All documented forms of all 39 overload sets, generated from the headers. False: the rank-1 and rank-k updates refuse a policy that is an lvalue (C64_lvalue_policy_false) and take a policy type that is not registered for a scaling "
  "factor (C64_unregistered_policy_false), so their theorems with policy are _partial (rvalue policies); copy of rank 3 and more and three products with a policy and a layout that is not unique recurse endlessly "
  "(C64_copy_rank3_endless_false, C64_nonunique_layout_endless_false); other calls with such layouts fail inside the library (C64_nonunique_layout_breaks_false). Not modelled: implicit conversions of arguments (template parameters have none), overloads of the user, the Kokkos overloads.")
STATUS["C65"] = "partial"
NOTES["C65"] = ("Proved without any law on + and * for all products and rank-k/2k updates of the backend's own kernels (the rank-1 and rank-2 updates: C48), and for matrix_inf_norm and matrix_one_norm on floating-point numbers. False for the reductions that are sums: C65_dot_false. Algorithms that the backend forwards to KokkosKernels depend on that library (C53).")
STATUS["C66"] = "partial"
NOTES["C66"] = ("Proved for the real and complex products and rank updates (including the native fallback of matrix_product), dot, vector_abs_sum and, up to the final square root, vector_norm2. matrix_frob_norm (up to the square root) and vector_sum_of_squares (its new part) are accurate for finite data that are not all zero. matrix_inf_norm and matrix_one_norm (_partial) assume finite elements. False for norms computed from squares: vector_norm2 overflows and underflows, matrix_frob_norm and vector_sum_of_squares of zeros are NaN, and so is vector_sum_of_squares of [2^-600] (_false theorems). Not proved: calls forwarded to KokkosKernels, whose code is not in the repository.")
STATUS["C67"] = "partial"
NOTES["C67"] = ("Proved without any law on + and * for the rank-k and rank-2k updates, the overwriting symmetric, Hermitian and triangular products of matrices, and for lower triangles (triangular: also upper ones with explicit diagonal) the products with a vector; copy, swap_elements and the rank-1 and rank-2 updates: the C50 theorems of that name assume no law. Hermitian ones: real stored diagonal (C50_*_imaginary_diagonal_false). False (double, overflow in one order only) for upper triangles, the updating products with a vector, the in-place triangular products and dot.")
NOTES["C68"] = ("Accesses to elements of the arguments are counted (Spec/Cost.lean); arithmetic operations are not, there is a fixed number of them between two accesses. Performs: exact if the call ends normally, an upper bound otherwise. C68_linear is about every native algorithm (Call) except the updating symmetric and Hermitian products, whose body is assert(false) (C34). The Kokkos backend is not covered.")
NOTES["C69"] = ("Spec/IntElements.lean gives the C++20 rules (promotion, usual arithmetic conversions, wraparound of unsigned types, undefined overflow of signed types) for types of 8 to 64 bits with 32-bit int. The theorems without suffix are modular, those named _exact are about mixtures, those named _unit about solves. The restrictions are needed: the C69_*_false theorems show uint16_t and int32_t overflow, a wide init that does not help, mixed signs and a fractional solution. Norms (square roots) of integers are C57.")
NOTES["C70"] = ("For every format with Format.Grid (Spec/FloatExact.lean; proved for every binary format and every unit in its range, hence float and double). With a scalar alpha the product of alpha and an element has to fit by itself. C70_bound_needed_false: the bound is sharp (double, 2^53 + 1). Kokkos kernels: C70_kokkos_*. Complex elements (Gaussian integers and their scaled versions, for any recovery of non-finite products): C70_complex_* for the functions of the native headers; the division of a solve is a parameter that is assumed to return exact quotients; C70_kokkos_complex_* for the kernels of the Kokkos backend. Not covered: the norms that use square roots or std::abs of complex elements, signed zeros, calls that the backend forwards to KokkosKernels.")
NOTES["C71"] = ("Exact arithmetic: every commutative ring (a star ring for the statements with conjugation). The calls are composed as programs, with the intermediate results in memory.")
NOTES["C72"] = ("Exact arithmetic for all but C72_backward_error, which composes the componentwise backward error bounds of C47 for the two solves.")
NOTES["C73"] = ("Parts: Spec/Blocks.lean (what submdspan with index pairs gives; submdspan itself is not part of this library). Props/Blocks.lean: equal as programs (same result, memory and undefined behaviour for every memory). Props/BlocksMemory.lean: same memory afterwards, for non-overlapping arguments. Props/BlocksStructured.lean, Props/BlocksRankK.lean: structured products (left side: equal as programs) and rank-k updates. Props/BlocksProducts.lean: symmetric, Hermitian and triangular matrix-vector products in 2 x 2 blocks. Props/BlocksSolve.lean, Props/BlocksSolveRight.lean: triangular solves with many right-hand sides. Props/BlocksTriangular.lean, Props/BlocksInPlace.lean: triangular matrix products, also in place. Props/BlocksSymmetric.lean: symmetric and Hermitian matrix products.")
NOTES["C74"] = ("Exact arithmetic; elements of a normed field whose modelled abs is its norm, in particular the real and complex numbers; the statements with vector_abs_sum, vector_idx_abs_max and the attained bound are for real numbers (vector_abs_sum of complex numbers is another sum, C05). matrix_frob_norm is left out: it is not the Frobenius norm (C07).")
NOTES["C75"] = ("Exact arithmetic. The solvers (Spec/Clients.lean) are programs of a user, not code of /repo; every call in them is the model of the library algorithm. Real numbers for pivoting, Cholesky and QR; the rotations are the values that the model of setup_givens_rotation for real numbers returns (ReturnsGivens).")
NOTES["C76"] = ("All 54 native algorithms (Call) in C76_transfer and C76_homomorphism. Comparisons of magnitudes have to agree (RespectsNorms), so the norms are excluded for packs, dual numbers and intervals, and so is division for dual numbers and intervals (no derivative, respectively no interval, if the divisor vanishes). C76_kokkos: the 39 calls of the Kokkos backend whose loops are in the repository (KCall), for every schedule; the absolute values have to be equal there.")
NOTES["C77"] = ("All 54 native algorithms (Call) in C77_moved, C77_renamed and C77_stored; C77_matrix_layouts for any call with three matrices. C77_kokkos: the 39 calls of the Kokkos backend whose loops are in the repository (KCall), for every schedule; the views that the backend makes of the arguments have to correspond, and both or neither matrix has a transposed layout.")
NOTES["C78"] = ("Standard model of rounded arithmetic, met by binary floating point without overflow and underflow. The solvers (Spec/Clients.lean) are programs of a user, not code of /repo; every call in them is the model of the library algorithm. The bounds for Gaussian elimination assume that no computed pivot is zero (shown for the example); for Cholesky success is a theorem.")
STATUS["C79"] = "partial"
NOTES["C79"] = ("Proved for 35 of the 39 calls with loops (all but the triangular matrix-matrix products with implicit unit diagonal) and for copy, conjugated dot, vector_idx_abs_max and matrix_product with other accessors. False of the code for the others: the triangular products with implicit unit diagonal and the calls that only forward to KokkosBlas submit kernels and return without a fence (C79_trmm_returns_early, C79_library_returns_early, C79_trmm_false, C79_scale_false), and matrix_frob_norm of a 1x1 matrix reads the element on the host without waiting for earlier calls (C79_frob_norm_false). Calls of any kind followed by a fence or by a call that waits do what they should (C79_calls_then_fence, C79_waiting_call_sees_all). What Kokkos and KokkosBlas wait for is an assumption, stated in Core/Async.lean.")
NOTES["C80"] = ("Undefined operations in the model are accesses outside of the extents of a view and accesses to unallocated cells (C80_uninitialised_output: also reads of uninitialised cells). The necessity of the size conditions is shown for dot, copy and matrix_vector_product.")
NOTES["C81"] = ("C81_copy_does_not_move_up and C81_no_transpose_in_place are the negations of what a user might expect. The documentation of the library does not allow most overlaps; the theorems say what this code does. For the Kokkos backend the theorems C81_kokkos_… show which overlaps are data races; the documentation does not allow them.")

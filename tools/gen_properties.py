#!/usr/bin/env python3
"""Writes /verif/properties.jsonl. Edit the list here, then run this file."""
import json, os
N = "include/experimental/__p1673_bits/"
K = "tpl-implementations/include/experimental/__p1673_bits/kokkos-kernels/"
P = []
def p(title, statement, quantifier, why, *anchors):
    P.append(dict(id=f"C{len(P)+1:02d}", title=title, statement=statement,
                  quantifier=quantifier, why_tests_cant=why, anchors=list(anchors)))
ANY = "every extent (including 0), every element value, every layout whose mapping is unique on the output, every accessor on the inputs, every placement of the arrays in memory that meets the stated non-overlap condition, every content of the rest of memory"
SIZES = "tests fix a handful of sizes, layouts and values; an off-by-one at another size, a stray access, or a dependence on memory that the test happens to have initialised stays invisible"

# ---- BLAS 1
p("dot is init plus the sum of products",
  "dot(v1, v2, init) returns init + sum_k v1(k)*v2(k) over k < v1.extent(0); dot(v1, v2) returns the same with init 0; memory is unchanged; if v2 has at least v1's extent no access is out of bounds, and if v2 is shorter than v1 the call reads outside v2 (undefined behaviour).",
  ANY, SIZES, N+"blas1_dot.hpp: dot")
p("dotc conjugates exactly the first vector",
  "dotc(v1, v2, init) returns init + sum_k conj(v1(k))*v2(k); on real element types it equals dot; on complex vectors dotc(x, y) is the conjugate of dotc(y, x), and dotc(x, x) is real and nonnegative.",
  ANY, SIZES, N+"blas1_dot.hpp: dotc", N+"conjugated.hpp: conjugated", N+"conj_if_needed.hpp")
p("vector_sum_of_squares keeps scale^2*ssq exact",
  "For an initial (scale s, scaled sum q) with s >= 0, the result (s', q') satisfies s'^2*q' = s^2*q + sum_k |v(k)|^2, s' is the maximum of s and all |v(k)| (so no quotient that is squared exceeds 1), no division by zero happens, and if q >= 1 then 1 <= q' <= q + extent, so the scaled sum cannot overflow.",
  ANY + "; every initial state", SIZES, N+"blas1_vector_sum_of_squares.hpp: vector_sum_of_squares")
p("vector_two_norm is init plus the Euclidean norm",
  "vector_two_norm(v, init) = init + sqrt(sum_k |v(k)|^2) in exact arithmetic; the empty vector gives init; the no-init overload gives the norm itself.",
  ANY, SIZES, N+"blas1_vector_norm2.hpp: vector_two_norm")
p("vector_abs_sum is init plus the 1-norm",
  "vector_abs_sum(v, init) = init + sum_k |v(k)| for real elements and init + sum_k (|re v(k)| + |im v(k)|) for complex elements.",
  ANY, SIZES, N+"blas1_vector_abs_sum.hpp: vector_abs_sum")
p("vector_idx_abs_max returns the first index of a maximal magnitude",
  "On a non-empty vector the result i is in range, |v(k)| <= |v(i)| for every k and |v(k)| < |v(i)| for every k < i (magnitude |re|+|im| for complex elements); on an empty vector the result is the maximum value of the size type, which is never a valid index.",
  ANY, SIZES + "; ties can occur anywhere", N+"blas1_vector_idx_abs_max.hpp: vector_idx_abs_max")
p("matrix_frob_norm is init plus the Frobenius norm",
  "matrix_frob_norm(A, init) = init + sqrt(sum_ij |A(i,j)|^2) for every matrix A.",
  ANY, SIZES + "; the result depends on the order in which magnitudes appear, so a test with increasing entries passes", N+"blas1_matrix_frob_norm.hpp: matrix_frob_norm")
p("matrix_one_norm and matrix_inf_norm are init plus the largest column / row sum",
  "matrix_one_norm(A, init) = init + max_j sum_i |A(i,j)| and matrix_inf_norm(A, init) = init + max_i sum_j |A(i,j)| (maximum over an empty set is 0); the one norm of A is the infinity norm of transposed(A).",
  ANY, SIZES, N+"blas1_matrix_one_norm.hpp: matrix_one_norm", N+"blas1_matrix_inf_norm.hpp: matrix_inf_norm")
p("copy copies every element and nothing else",
  "copy(x, y) leaves every y element equal to the old value of the x element with the same index, and every other memory cell unchanged, for rank 1 and rank 2, when x and y do not overlap or are the same view.",
  ANY, SIZES, N+"blas1_linalg_copy.hpp: copy")
p("swap_elements exchanges, and is an involution",
  "swap_elements(x, y) exchanges the values of x and y index by index, leaves all other memory unchanged, and applying it twice restores the whole memory exactly; swapping a view with itself changes nothing.",
  ANY, SIZES, N+"blas1_linalg_swap.hpp: swap_elements")
p("scale multiplies each element once",
  "scale(alpha, x) replaces every element v by v*alpha (alpha on the right), once per element even for rank 2, and changes nothing else; scale by a then by b is scale by a*b.",
  ANY, SIZES, N+"blas1_scale.hpp: scale")
p("add is element-wise and safe in place",
  "add(x, y, z) makes z(i) = x(i) + y(i) for the old x and y, and changes nothing else, when z is disjoint from x and y or is exactly x, exactly y or both.",
  ANY + ", including full aliasing", SIZES, N+"blas1_linalg_add.hpp: add")
# ---- Givens
p("real setup_givens_rotation returns an orthogonal rotation that annihilates g",
  "For every pair of reals f, g: the scaling loops terminate; c^2 + s^2 = 1; c*f + s*g = r; -s*f + c*g = 0; r^2 = f^2 + g^2; if |f| > |g| then c > 0.",
  "every real f, g (zero, tiny, huge included) and every scaling threshold 0 < safmn2 < 1",
  "loops run a value-dependent number of times; rescaling must cancel for every exponent", N+"blas1_givens.hpp: setup_givens_rotation (real)")
p("complex setup_givens_rotation returns a unitary rotation that annihilates g",
  "For every pair of complex numbers f, g: loops terminate; c is real, c^2 + |s|^2 = 1; c*f + s*g = r; -conj(s)*f + c*g = 0.",
  "every complex f, g and all admissible scaling thresholds",
  "the rescaling loop runs a value-dependent number of times, and a test on moderate values never enters it", N+"blas1_givens.hpp: setup_givens_rotation (complex)")
p("apply_givens_rotation applies the 2x2 rotation to every pair",
  "apply_givens_rotation(x, y, c, s) replaces (x(i), y(i)) by (c*x(i)+s*y(i), c*y(i)-conj(s)*x(i)) computed from the old pair, changes nothing else; if c^2+|s|^2 = 1 the sum |x(i)|^2+|y(i)|^2 is preserved and applying (c, -s) afterwards restores x and y.",
  ANY, SIZES, N+"blas1_givens.hpp: apply_givens_rotation")
# ---- BLAS 2
p("matrix_vector_product computes A*x and y + A*x",
  "matrix_vector_product(A, x, y) leaves y(i) = sum_j A(i,j)*x(j), whatever y held before; matrix_vector_product(A, x, y, z) leaves z(i) = y(i) + sum_j A(i,j)*x(j), also when z is y; only the output is modified.",
  ANY, SIZES, N+"blas2_matrix_vector_product.hpp: matrix_vector_product")
p("symmetric_matrix_vector_product multiplies by the symmetric matrix named by one triangle",
  "With triangle t the result is S*x (or y + S*x) where S(i,j) = A(i,j) if (i,j) is in triangle t and A(j,i) otherwise; elements of A outside the triangle are never accessed (they may be unallocated).",
  ANY + "; both triangles", SIZES + "; tests fill the other triangle, so a stray read of it goes unnoticed", N+"blas2_matrix_vector_product.hpp: symmetric_matrix_vector_product")
p("hermitian_matrix_vector_product multiplies by the Hermitian matrix named by one triangle",
  "With triangle t the result is H*x (or y + H*x) where H(i,j) = A(i,j) strictly inside t, conj(A(j,i)) strictly outside, and H(i,i) = re A(i,i); elements outside the triangle and imaginary parts of the diagonal have no influence.",
  ANY + "; both triangles", SIZES, N+"blas2_matrix_vector_product.hpp: hermitian_matrix_vector_product")
p("triangular_matrix_vector_product (overwriting and updating)",
  "The result is T*x (or y + T*x) where T(i,j) = A(i,j) in triangle t, 0 outside, and T(i,i) = 1 with implicit unit diagonal; the other triangle, and with implicit unit diagonal the diagonal, are never accessed.",
  ANY + "; both triangles, both diagonal modes", SIZES, N+"blas2_matrix_vector_product.hpp: triangular_matrix_vector_product")
p("in-place triangular_matrix_vector_product",
  "triangular_matrix_vector_product(A, t, d, y) replaces y by T*y computed from the old y: no element is consumed after it has been overwritten.",
  ANY + "; both triangles, both diagonal modes", SIZES, N+"blas2_matrix_vector_product.hpp: triangular_matrix_vector_product (in place)")
p("triangular_matrix_vector_solve solves the triangular system",
  "If every diagonal element is a unit (explicit diagonal) or always (implicit unit diagonal), x satisfies T*x = b, it is the only solution, and with implicit unit diagonal no division happens and the diagonal is not accessed; the other triangle is never accessed.",
  ANY + "; both triangles, both diagonal modes", SIZES, N+"blas2_matrix_vector_solve.hpp: triangular_matrix_vector_solve")
p("triangular_matrix_vector_solve in place",
  "Solving with x and b the same vector gives the same x as solving out of place.",
  ANY, SIZES, N+"blas2_matrix_vector_solve.hpp: triangular_matrix_vector_solve (in place)")
p("empty triangular systems are no-ops for every index type",
  "For a 0 x 0 system, triangular_matrix_vector_solve and triangular_matrix_matrix_left_solve/right_solve perform no access at all, whatever the integer type used as index_type.",
  "every signed or unsigned index type width allowed by mdspan, both triangles", "tests use one or two index types", N+"blas2_matrix_vector_solve.hpp: trsv_upper_triangular_left_side", N+"blas3_triangular_matrix_matrix_solve.hpp: trsm_upper_triangular_left_side")
p("solving undoes multiplying",
  "In-place triangular_matrix_vector_product followed by triangular_matrix_vector_solve with the same A, triangle and diagonal mode (nonzero diagonal) restores the vector, and vice versa; likewise the matrix-matrix versions, left and right.",
  ANY, "a round trip on samples does not show it for all matrices", N+"blas2_matrix_vector_product.hpp", N+"blas2_matrix_vector_solve.hpp", N+"blas3_matrix_product.hpp", N+"blas3_triangular_matrix_matrix_solve.hpp")
p("rank-1 updates (general)",
  "matrix_rank_1_update(x, y, A) makes A(i,j) := A(i,j) + x(i)*y(j) for all i, j and matrix_rank_1_update_c uses conj(y(j)); nothing else changes.",
  ANY, SIZES, N+"blas2_matrix_rank_1_update.hpp: matrix_rank_1_update, matrix_rank_1_update_c")
p("symmetric and Hermitian rank-1 updates touch one triangle only",
  "symmetric_matrix_rank_1_update([alpha,] x, A, t) makes A(i,j) += alpha*x(i)*x(j) exactly for (i,j) in t; the Hermitian version adds alpha*x(i)*conj(x(j)) after replacing the diagonal by its real part; elements outside t are neither read nor written.",
  ANY + "; both triangles", SIZES, N+"blas2_matrix_rank_1_update.hpp: symmetric_matrix_rank_1_update, hermitian_matrix_rank_1_update")
p("symmetric and Hermitian rank-2 updates touch one triangle only",
  "A(i,j) += x(i)*y(j) + y(i)*x(j) (symmetric) or x(i)*conj(y(j)) + y(i)*conj(x(j)) with the diagonal first made real (Hermitian), exactly for (i,j) in t; elements outside t are neither read nor written.",
  ANY + "; both triangles", SIZES, N+"blas2_matrix_rank_2_update.hpp")
p("symmetric and Hermitian rank-k updates touch one triangle only",
  "C(i,j) += alpha * sum_k A(i,k)*A(j,k) (symmetric) or alpha * sum_k A(i,k)*conj(A(j,k)) with the diagonal first made real (Hermitian), exactly for (i,j) in t; elements outside t are neither read nor written.",
  ANY + "; both triangles", SIZES, N+"blas3_matrix_rank_k_update.hpp")
p("symmetric and Hermitian rank-2k updates touch one triangle only",
  "C(i,j) += sum_k (A(i,k)*B(j,k) + B(i,k)*A(j,k)) (symmetric) or the conjugated form with the diagonal first made real (Hermitian), exactly for (i,j) in t; elements outside t are neither read nor written.",
  ANY + "; both triangles", SIZES, N+"blas3_matrix_rank_2k_update.hpp")
p("Hermitian updates keep the matrix Hermitian",
  "After a Hermitian rank-1 (alpha real), rank-2, rank-k (alpha real) or rank-2k update, every diagonal element is real, and the Hermitian matrix named by the triangle is the old one plus the mathematical update on all of its elements.",
  ANY, SIZES, N+"blas2_matrix_rank_1_update.hpp", N+"blas2_matrix_rank_2_update.hpp", N+"blas3_matrix_rank_k_update.hpp", N+"blas3_matrix_rank_2k_update.hpp")
# ---- BLAS 3
p("matrix_product computes A*B and E + A*B",
  "matrix_product(A, B, C) leaves C = A*B whatever C held before; matrix_product(A, B, E, C) leaves C = E + A*B, also when C is E; nothing else changes.",
  ANY, SIZES, N+"blas3_matrix_product.hpp: matrix_product")
p("symmetric_matrix_product (left and right) uses one triangle",
  "C = S*B (left) or B*S (right), S the symmetric matrix named by triangle t of A; the other triangle is never accessed.",
  ANY + "; both triangles", SIZES, N+"blas3_matrix_product.hpp: symmetric_matrix_product")
p("hermitian_matrix_product (left and right) uses one triangle and a real diagonal",
  "C = H*B (left) or B*H (right), H the Hermitian matrix named by triangle t of A, in which imaginary parts of the stored diagonal have no influence; the other triangle is never accessed.",
  ANY + "; both triangles, both sides", SIZES + "; tests use real diagonals", N+"blas3_matrix_product.hpp: hermitian_matrix_product")
p("updating symmetric_matrix_product and hermitian_matrix_product compute E + product",
  "symmetric_matrix_product(A, t, B, E, C) and hermitian_matrix_product(A, t, B, E, C) (left and right) leave C = E + S*B, E + B*S, E + H*B, E + B*H.",
  ANY, "no test calls these overloads", N+"blas3_matrix_product.hpp: symmetric_matrix_product (updating)", N+"blas3_matrix_product.hpp: hermitian_matrix_product (updating)")
p("triangular_matrix_product (left and right)",
  "C = T*B (left) or B*T (right), T the triangular matrix named by (A, t, d); the other triangle, and with implicit unit diagonal the diagonal, are never accessed; the inner loop bound is correct for every index type, including i = 0.",
  ANY + "; both triangles, both diagonal modes, every index type", SIZES, N+"blas3_matrix_product.hpp: triangular_matrix_product")
p("in-place triangular products (left and right)",
  "triangular_matrix_left_product(A, t, d, C) replaces C by T*C and triangular_matrix_right_product(A, t, d, C) replaces C by C*T, computed from the old C.",
  ANY + "; both triangles, both diagonal modes", SIZES, N+"blas3_matrix_product.hpp: triangular_matrix_left_product, triangular_matrix_right_product")
p("triangular_matrix_matrix_solve (left and right) solves",
  "X satisfies T*X = B (left) or X*T = B (right), uniquely, with units on the explicit diagonal; also when X is B; the other triangle, and with implicit unit diagonal the diagonal, are never accessed.",
  ANY + "; both triangles, sides, diagonal modes", SIZES, N+"blas3_triangular_matrix_matrix_solve.hpp")
# ---- views
p("transposed is the transpose of the same elements",
  "transposed(A) has swapped extents, element (i,j) designates the same memory cell as A(j,i) for every in-range (i,j), required_span_size is unchanged, transposing twice gives back the same cells, for layout_left, layout_right, layout_stride, padded layouts and every user-defined layout (through layout_transpose).",
  "every layout, extents and strides", "tests check a few layouts and sizes", N+"transposed.hpp: transposed, layout_transpose")
p("transposing a layout_blas_general view",
  "The mapping that transposed builds for a layout_blas_general view designates, for (i,j), the cell of the original (j,i).",
  "every extents and leading dimension", "no test instantiates it", N+"transposed.hpp: transposed_layout<layout_blas_general>", N+"layout_blas_general.hpp")
p("layout_blas_general has the meaning of a BLAS leading dimension",
  "A column-major layout_blas_general view with leading dimension lda maps (i,j) to i + j*lda, is unique as is_unique() claims, and stays within required_span_size().",
  "every extents and every lda", "no test instantiates it", N+"layout_blas_general.hpp: __layout_blas_impl")
p("scaled and conjugated views read the scaled / conjugated current element",
  "scaled(alpha, A)(i,j) reads alpha*A(i,j) and conjugated(A)(i,j) reads conj(A(i,j)) of the current memory, without writing; conjugated(conjugated(A)) reads the same as A; conjugate_transposed(A)(i,j) reads conj(A(j,i)); views compose in any nesting and offset (submdspan) commutes with them.",
  "every nesting of views, every element, every memory", "the set of compositions is unbounded", N+"scaled.hpp", N+"conjugated.hpp", N+"conjugate_transposed.hpp", N+"conj_if_needed.hpp")
p("algorithms on views equal algorithms on materialised matrices",
  "Running matrix_vector_product, matrix_product, dot or a triangular solve on scaled/conjugated/transposed inputs gives the result for the matrix that the view denotes: alpha*(A*x), A^T*x, A^H*x, (A*B)^T = B^T*A^T and so on.",
  ANY + "; every composition of views", "every algorithm times every composition", N+"scaled.hpp", N+"transposed.hpp", N+"blas2_matrix_vector_product.hpp", N+"blas3_matrix_product.hpp")
p("standard layouts are injective and stay in their span",
  "layout_left, layout_right and layout_stride mappings (as used for output matrices) send distinct in-range indices to distinct offsets below required_span_size, so that writing one element never changes another.",
  "every extents and strides", "sizes are unbounded", N+"transposed.hpp", N+"blas3_matrix_product.hpp")
p("proxy references behave as the value they denote",
  "Arithmetic, negation, abs, real, imag and conj on conjugated_scalar and scaled_scalar proxies, on either side or both, equal the operation on the plain values in the same operand order.",
  "every operand value and proxy kind", "operand-order mistakes are invisible with commutative types", N+"proxy_reference.hpp")
# ---- dispatch
p("every overload computes the same result",
  "An algorithm called with no policy, with the inline policy or with any policy that has no custom implementation runs the same native algorithm on the same arguments; with a custom implementation that matches, that implementation is called with the same arguments in the same order; dispatch always terminates.",
  "every algorithm and every policy", "needs a custom backend per algorithm", N+"linalg_execpolicy_mapper.hpp", N+"blas3_matrix_product.hpp", N+"blas3_triangular_matrix_matrix_solve.hpp", N+"blas2_matrix_vector_solve.hpp")
p("consistency between levels",
  "matrix_product with a one-column B equals matrix_vector_product; each column of matrix_product(A,B) is A times the column; triangular_matrix_matrix_left_solve solves each column as triangular_matrix_vector_solve does; the symmetric, Hermitian and triangular algorithms agree with the general ones run on the full matrix they denote; each element of a product is the dot of a row and a column; rank-k and rank-2k updates with one column are the rank-1 and rank-2 updates, and on the named triangle they do what the general updates do; the norms agree with dotc and vector_abs_sum.",
  ANY, "an equality between two algorithms on all inputs", N+"blas2_matrix_vector_product.hpp", N+"blas3_matrix_product.hpp", N+"blas3_triangular_matrix_matrix_solve.hpp")
p("rounding errors are bounded",
  "In any arithmetic where every operation has relative error at most u, dot has error at most ((1+u)^(n+1)-1)*(|init| + sum |v1(k)||v2(k)|), matrix_vector_product, matrix_product, the symmetric, Hermitian and triangular products and all rank updates have the corresponding component-wise bounds, vector_abs_sum, vector_sum_of_squares, vector_two_norm, matrix_one_norm and matrix_inf_norm have small relative errors, and the triangular solve returns the exact solution of a system whose elements are perturbed by a relative amount bounded by a power of (1+u)/(1-u).",
  "every size, every value, every rounding with relative error <= u (no overflow or underflow)", "needs all floating-point inputs", N+"blas1_dot.hpp", N+"blas2_matrix_vector_product.hpp", N+"blas3_matrix_product.hpp", N+"blas2_matrix_vector_solve.hpp")
# ---- Kokkos backend
p("parallel loops of the Kokkos backend do not depend on the schedule",
  "The backend's parallel_for kernels (copy between layouts, swap, rank-1/2/k/2k updates, matrix-vector and matrix-matrix products) have no data race: iterations write disjoint cells and read nothing another iteration writes, so every interleaving of their memory accesses ends in the memory of the sequential loop.",
  "every interleaving of all iterations, every extent", "tests see a few schedules", K+"parallel_matrix.hpp", K+"blas2_matrix_rank_1_update.hpp", K+"blas3_matrix_product_kk.hpp")
p("reductions of the Kokkos backend do not depend on the reduction tree",
  "The backend's dot, abs_sum, norm2, sum_of_squares and Frobenius, one and infinity norms give, in exact arithmetic, the same value for every way of splitting and joining the index range.",
  "every reduction tree and every extent", "tests see a few schedules", K+"blas1_dot_kk.hpp", K+"blas1_vector_abs_sum_kk.hpp")
p("the Kokkos backend returns what the native implementation returns",
  "For each algorithm that the Kokkos backend customises, the result in exact arithmetic equals that of the native implementation on the same arguments, including init values, zero vectors, complex elements and empty extents.",
  ANY, "each implementation has its own tests; nobody compares them on all inputs", K+"blas1_vector_norm2_kk.hpp", K+"blas1_matrix_frob_norm_kk.hpp", K+"blas1_vector_sum_of_squares_kk.hpp", K+"blas3_matrix_product_kk.hpp")
# ---- added as the model grew
p("the index type does not matter",
  "Every algorithm of the library has the same effect and result for every choice of the index types of its mdspans, as long as each index type can represent the extents of its mdspan.",
  "every combination of signed and unsigned 8 to 64 bit index types, every extent they represent", "tests use two or three index types and small extents", N+"blas2_matrix_vector_solve.hpp", N+"blas3_triangular_matrix_matrix_solve.hpp: signed_index_type", N+"blas3_matrix_product.hpp: k_upper", N+"blas1_vector_idx_abs_max.hpp", N+"blas2_matrix_rank_1_update.hpp", N+"blas3_matrix_rank_2k_update.hpp", N+"blas2_matrix_vector_product.hpp")
p("the Kokkos backend refuses arguments of wrong sizes",
  "A call of an algorithm that the Kokkos backend customises throws an exception exactly when the extents of its arguments do not fit together, before any memory is written, under every schedule; with fitting extents it never throws.",
  "every combination of extents, every memory, every schedule", "every mismatch of every pair of extents of every algorithm", K+"blas2_gemv_kk.hpp", K+"blas3_matrix_product_kk.hpp", K+"blas1_copy_kk.hpp", K+"blas1_swap_elements_kk.hpp")
p("the Kokkos backend's calls of KokkosKernels mean what the algorithm means",
  "Where the backend forwards an algorithm to KokkosKernels (copy, add, scale, dotc, vector_idx_abs_max, matrix_vector_product, matrix_product, triangular solves, triangular products with explicit diagonal), the flags, factors, views and copies it passes make a library that follows its documentation compute what the algorithm specifies, also for transposed views and when the output is the input.",
  "every library that follows its documentation; " + ANY, "tests use one version of the library, a few sizes and mostly symmetric data", K+"blas1_idx_abs_max_kk.hpp", K+"blas2_gemv_kk.hpp", K+"blas3_overwriting_gemm_kk.hpp", K+"blas3_matrix_product_kk.hpp: trmm_kk", K+"blas3_triangular_matrix_matrix_solve.hpp", K+"blas2_triangular_matrix_vector_solve.hpp")
p("the order of operations is fixed",
  "For every element type, also one whose addition is not associative and whose multiplication is not commutative, the result of dot, dotc, the matrix-vector and matrix-matrix products, the triangular solves and the rank-k updates is one given expression of the input elements: a sum from left to right in ascending index order (for triangular matrices in the order stated), starting from init, the updated operand or zero.  So results are reproducible bit for bit: equal sizes and element values give equal results whatever the layouts, addresses, other memory and the elements that are not accessed.",
  ANY + "; every element type with +, -, *, /, conj", "needs every element type and a comparison of all pairs of memories and layouts", N+"blas1_dot.hpp", N+"blas2_matrix_vector_product.hpp", N+"blas3_matrix_product.hpp", N+"blas2_matrix_vector_solve.hpp", N+"blas3_matrix_rank_k_update.hpp")
p("NaN is not lost",
  "If an element (or scalar, init value or updated operand) that belongs to the formula of a result is NaN, the result is NaN, even if the other factor of its product is zero: for scale, add, dot, dotc, all matrix-vector and matrix-matrix products, rank updates, triangular solves, vector_abs_sum, vector_sum_of_squares, vector_two_norm and the matrix norms.  vector_idx_abs_max returns the first index of the largest magnitude among the elements that are not NaN, or 0 if the first element is NaN.",
  ANY + "; every floating-point format", "any position of any operand can be NaN", N+"blas1_matrix_inf_norm.hpp", N+"blas1_matrix_one_norm.hpp", N+"blas1_vector_sum_of_squares.hpp", N+"blas1_vector_idx_abs_max.hpp", N+"blas3_matrix_product.hpp", N+"blas2_matrix_vector_solve.hpp")
p("no needless overflow or underflow in the norms",
  "In floating-point arithmetic vector_sum_of_squares of finite numbers never overflows, its scaling factor is exactly the largest magnitude and its scaled sum lies between 1 and the number of elements; vector_two_norm of finite numbers is finite and between M and M*sqrt(n) (M the largest magnitude) whenever that bound is; matrix_frob_norm likewise.  If an element is infinite and none is NaN, the norms and vector_abs_sum are infinite.",
  "every floating-point format in which the integers up to the number of elements are exact; every size and every value", "the values that overflow depend on all elements", N+"blas1_vector_sum_of_squares.hpp", N+"blas1_vector_norm2.hpp", N+"blas1_matrix_frob_norm.hpp", N+"blas1_vector_abs_sum.hpp", N+"blas1_matrix_inf_norm.hpp")
p("mixed element types lose nothing that the output type can hold",
  "When the mdspans and scalars of a call have different element types, each product and sum is formed in the common type of its operands and each partial result is converted to the element type of the output (dot: the type of init; solves: the type of B - A*X), and nowhere else.  The result has that type; if it can represent every input type, integer, real and complex results are exact (solves: of a type that is not an integer); for floating-point types of different precision the additions have the error of the output's precision.  The vector and matrix solves agree, and the norms of integers are the norms.",
  ANY + "; every combination of element types", "tests use one or two combinations of types", N+"blas1_dot.hpp", N+"blas2_matrix_vector_product.hpp", N+"blas3_matrix_product.hpp", N+"blas2_matrix_vector_solve.hpp: sum_type", N+"blas3_triangular_matrix_matrix_solve.hpp: trsm_lower_triangular_left_side", N+"blas1_vector_norm2.hpp")
p("a call cut short leaves everything but its output unchanged",
  "At every point of every execution of a native algorithm (a crash, a debugger, another thread observing), only elements of the output objects that the algorithm documents as written can differ from their values before the call, every element accessed so far belongs to an argument, and for algorithms that overwrite their output the call can be repeated after the interruption and gives the result of an undisturbed call.",
  "every algorithm, all arguments (also of sizes that do not fit), every memory, every prefix of the sequence of its memory accesses", "every crash point of every execution", N+"blas1_linalg_copy.hpp", N+"blas1_dot.hpp", N+"blas2_matrix_vector_product.hpp", N+"blas2_matrix_vector_solve.hpp", N+"blas3_matrix_product.hpp", N+"blas3_triangular_matrix_matrix_solve.hpp", N+"blas3_matrix_rank_k_update.hpp")
p("results depend only on the documented inputs; overwritten outputs may be uninitialised",
  "The effect of a call on its output elements is a function of the elements of its input arguments that it documents as read: two memories that agree there give the same output, whatever else they contain.  Algorithms that overwrite their output never read an output element before writing it, so the output may be uninitialised memory.",
  "every algorithm, all arguments, every pair of memories that agree on the inputs", "needs all pairs of memories", N+"blas1_linalg_copy.hpp", N+"blas2_matrix_vector_product.hpp", N+"blas2_matrix_vector_solve.hpp", N+"blas3_matrix_product.hpp")
p("calls in several threads that share only inputs do not interfere",
  "If several calls run concurrently and no call's output overlaps an input or output of another, then every interleaving of their memory accesses ends, without a data race, in the memory that running them one after the other gives; each call leaves in its output what it would have left if run alone.",
  "every number of calls, every mix of algorithms and arguments, every interleaving", "every schedule", N+"blas1_dot.hpp", N+"blas1_linalg_add.hpp", N+"blas2_matrix_vector_product.hpp", N+"blas3_matrix_product.hpp")
p("setup_givens_rotation is accurate for all floating-point numbers",
  "In floating-point arithmetic setup_givens_rotation(f, g) returns for all inputs.  For finite f and g of any magnitude no intermediate result overflows or loses accuracy by underflow: cs and sn are finite and have a small relative error (plus at most four times half the smallest positive number), r has a small relative error or is infinite if the length exceeds the largest finite number, cs^2 + sn^2 is nearly one and the rotation makes the second component nearly zero.  Zero f or g give exact results; NaN is not lost.",
  "every floating-point format with subnormals like float and double, every pair of values including infinities and NaN", "all pairs of floating-point numbers", N+"blas1_givens.hpp: setup_givens_rotation")
p("a finite floating-point result can be trusted",
  "In floating-point arithmetic with overflow, gradual underflow, infinities and NaN: if an element of a result is finite, then every input element that belongs to its formula was finite and the result differs from the exact value by at most ((1+u)^m - 1) times the sum of the magnitudes of the terms, plus (1+u)^m times (number of products) times half the smallest positive number; and if the inputs are finite and the sum of the magnitudes is not too close to the largest finite number, the result is finite.  This holds for scale, add, dot, dotc, apply_givens_rotation, vector_abs_sum, all matrix-vector and matrix-matrix products and all rank updates; for the triangular solves each finite element of the solution satisfies its equation up to such an error; matrix_inf_norm and matrix_one_norm of finite elements have a small relative error.  The same holds for complex elements, with the sum of the absolute values of real and imaginary part as magnitude (norms excepted).",
  ANY + "; every binary floating-point format, in particular float and double, and complex numbers of such a format", "any intermediate result of any input can overflow, underflow or meet an infinity", N+"blas1_dot.hpp", N+"blas2_matrix_vector_product.hpp", N+"blas3_matrix_product.hpp", N+"blas2_matrix_vector_solve.hpp", N+"blas3_triangular_matrix_matrix_solve.hpp", N+"blas3_matrix_rank_k_update.hpp", N+"blas1_vector_abs_sum.hpp", N+"blas1_matrix_inf_norm.hpp")
p("compile-time checks of sizes accept what can fit and nothing else",
  "For mdspans with any mixture of static and dynamic extents: a call whose run-time extents fit together always compiles, and a call whose static extents make it impossible that they fit is refused at compile time (native: copy, swap_elements, add, dot, dotc, apply_givens_rotation and the algorithms on matrices; Kokkos backend: all algorithms that state such mandates, which also refuse a packed layout with the other triangle).",
  "every combination of static and dynamic extents of all arguments", "each combination of static extents is another instantiation of the templates", N+"blas1_dot.hpp: static_assert", N+"blas1_linalg_add.hpp: add_rank_2", N+"blas1_linalg_copy.hpp", N+"blas1_linalg_swap.hpp", N+"blas1_givens.hpp: apply_givens_rotation", K+"static_extent_match.hpp", K+"triangle.hpp: triangle_layout_match", K+"blas3_matrix_product_kk.hpp: check_left_product", K+"blas2_gemv_kk.hpp")
p("every documented call runs the algorithm it names",
  "Each documented way to call an algorithm (overwriting or updating, left or right side, with or without init, scaling factor, division object and execution policy) selects exactly one overload, the one with these parameters, whatever the types and value categories of the arguments; no form is mistaken for another (an mdspan for an execution policy, a policy for a scaling factor).  The calls inside the library that follow select one overload each, are finitely many, and run the loops of that form on the arguments given, with a policy the same loops as without.  A call that the library cannot perform is refused at the call.",
  "every documented form of every algorithm, every rank-generic rank, every type, layout and value category of the arguments, with or without argument-dependent lookup of later overloads", "each combination of types and value categories is another overload resolution", N+"linalg_execpolicy_mapper.hpp", N+"blas1_linalg_copy.hpp: copy", N+"blas2_matrix_vector_product.hpp", N+"blas2_matrix_rank_1_update.hpp", N+"blas3_matrix_rank_k_update.hpp", N+"blas3_matrix_product.hpp")
p("the Kokkos backend gives the same bits in every run",
  "For every element type, also one whose addition is not associative, the result of a call of the Kokkos backend does not depend on the number of threads, the schedule or the way a reduction is split: it is one given expression of the input elements.",
  "every schedule, every reduction tree, every element type with +, * and conj; " + ANY, "tests see a few schedules and compare with a tolerance", K+"blas2_symv_kk.hpp", K+"blas2_hemv_kk.hpp", K+"blas2_triangular_mat_vec_product.hpp", K+"blas3_matrix_product_kk.hpp", K+"blas3_matrix_rank_k_update.hpp", K+"blas3_matrix_rank_2k_update.hpp", K+"blas1_dot_kk.hpp", K+"blas1_vector_abs_sum_kk.hpp", K+"blas1_matrix_inf_norm_kk.hpp")
p("a finite floating-point result of the Kokkos backend can be trusted under every schedule",
  "In floating-point arithmetic with overflow, gradual underflow, infinities and NaN, and whatever the number of threads, the schedule and the way a reduction is split: if an element of a result of the Kokkos backend is finite, then every input element that belongs to its formula was finite and the result differs from the exact value by at most ((1+u)^m - 1) times the sum of the magnitudes of the terms, plus (1+u)^m times (number of products) times half the smallest positive number; and if the inputs are finite and the sum of the magnitudes is not too close to the largest finite number, the result is finite.  This holds for dot, the matrix-vector and matrix-matrix products and the rank updates (real and complex) and for vector_abs_sum; the norms do not overflow or underflow needlessly and have a small relative error.",
  "every schedule, every reduction tree, every binary floating-point format; " + ANY, "any schedule of any input can overflow, underflow or meet an infinity in another place", K+"blas1_dot_kk.hpp", K+"blas1_vector_abs_sum_kk.hpp", K+"blas1_vector_norm2_kk.hpp", K+"blas1_vector_sum_of_squares_kk.hpp", K+"blas1_matrix_frob_norm_kk.hpp", K+"blas1_matrix_inf_norm_kk.hpp", K+"blas1_matrix_one_norm_kk.hpp", K+"blas2_symv_kk.hpp", K+"blas3_matrix_product_kk.hpp", K+"blas3_matrix_rank_k_update.hpp")
p("switching to the Kokkos backend changes no bits",
  "A call with a Kokkos execution policy leaves, under every schedule, the same bits in memory and returns the same bits as the call without a policy on the same data, also for element types whose addition is not associative.",
  "every schedule, every element type with +, * and conj; " + ANY, "tests compare the two with a tolerance, on a few inputs and schedules", K+"blas2_symv_kk.hpp", K+"blas2_hemv_kk.hpp", K+"blas2_triangular_mat_vec_product.hpp", K+"blas3_matrix_product_kk.hpp", K+"blas3_matrix_rank_k_update.hpp", K+"blas3_matrix_rank_2k_update.hpp", K+"blas1_dot_kk.hpp", N+"blas2_matrix_vector_product.hpp", N+"blas3_matrix_product.hpp", N+"blas3_matrix_rank_k_update.hpp")
p("each algorithm does the work its formula needs and no more",
  "The number of reads and writes of elements in a call is a fixed polynomial of the extents, does not depend on the values (vector_two_norm, vector_sum_of_squares and vector_idx_abs_max: at most twice the number of elements), and is at most six times the number of elements of the largest vector or matrix (levels 1 and 2), or six times the number of elements of the result times the length of the sums plus one (level 3).  Algorithms on one triangle access n(n+1)/2 elements of it.",
  "every algorithm, every memory, all extents, also overlapping arguments and arguments that are too small", "complexity is a statement about all sizes; tests check results only", N+"blas1_dot.hpp", N+"blas1_vector_idx_abs_max.hpp", N+"blas2_matrix_vector_product.hpp", N+"blas2_matrix_vector_solve.hpp", N+"blas2_matrix_rank_1_update.hpp", N+"blas3_matrix_product.hpp", N+"blas3_matrix_rank_k_update.hpp", N+"blas3_triangular_matrix_matrix_solve.hpp")
p("integer results are exact, or exact modulo the size of the type",
  "If all elements have one integer type whose products cannot overflow after promotion (uint32_t, uint64_t, uint8_t, int8_t, and int16_t where two factors are multiplied), then every product, update and sum gives for all elements, however large, the exact result reduced modulo 2^bits, and unit triangular solves with uint32_t or uint64_t solve the equations modulo 2^bits.  For every mixture of integer types, all signed or with nonnegative elements only: if the products and the sums of magnitudes fit into the types in which C++ computes them, copy, add, scale, dot, the matrix products and vector_abs_sum are exact, and triangular solves with signed elements find the integer solution if there is one.",
  ANY + "; the integer types of 8 to 64 bits, signed and unsigned, and their mixtures; every value", "overflow depends on the values; tests use small ones", N+"blas1_dot.hpp", N+"blas1_linalg_add.hpp", N+"blas1_scale.hpp", N+"blas1_linalg_copy.hpp", N+"blas2_matrix_vector_product.hpp", N+"blas2_matrix_rank_1_update.hpp", N+"blas2_matrix_vector_solve.hpp", N+"blas3_matrix_product.hpp", N+"blas3_matrix_rank_k_update.hpp", N+"blas3_triangular_matrix_matrix_solve.hpp")
p("no rounding errors on integer-valued data, in every backend and schedule",
  "If the floating-point inputs of a call are multiples of a unit (for example integers) and the magnitudes of the terms of a result element add up to at most 2^53 (float: 2^24) of the corresponding units, then that element is the exact value: for scale, add, dot, dotc, apply_givens_rotation, vector_abs_sum, matrix_inf_norm, matrix_one_norm, all matrix-vector and matrix-matrix products and all rank updates; a triangular solve whose exact solution has such values finds it.  For complex elements the same holds with the sum of the magnitudes of real and imaginary part in place of the magnitude (without the matrix norms, which use std::abs).  The same holds for the kernels of the Kokkos backend, whatever the number of threads and the way a reduction is split, so on such data both backends return the same value.",
  "every schedule, every reduction tree, every binary floating-point format and unit; " + ANY, "tests on integer-valued data cover a few sizes and schedules", N+"blas1_dot.hpp", N+"blas1_vector_abs_sum.hpp", N+"blas1_matrix_inf_norm.hpp", N+"blas1_givens.hpp: apply_givens_rotation", N+"blas2_matrix_vector_product.hpp", N+"blas2_matrix_vector_solve.hpp", N+"blas3_matrix_product.hpp", N+"blas3_matrix_rank_k_update.hpp", N+"blas3_triangular_matrix_matrix_solve.hpp", K+"blas1_dot_kk.hpp", K+"blas1_vector_abs_sum_kk.hpp", K+"blas2_symv_kk.hpp", K+"blas3_matrix_product_kk.hpp")
p("calls compose as the formulas do",
  "The results of successive calls satisfy the laws of linear algebra: (A B) x computed by matrix_product and matrix_vector_product equals A (B x) computed by two matrix_vector_products, matrix products are associative and distribute over add, <A x, y> = <x, A^T y> (transposed) and <A x, y> = <x, A^H y> (conjugate_transposed, dotc), the symmetric and Hermitian products are self-adjoint, (A B)^T = B^T A^T, scaling an argument scales the result, and a product with a matrix after a rank-1 or rank-k update equals the product before plus the product with the update.",
  ANY + "; every ring (field with conjugation for the Hermitian statements) as element type", "identities between several calls must hold for all inputs", N+"blas2_matrix_vector_product.hpp", N+"blas3_matrix_product.hpp", N+"blas1_dot.hpp", N+"transposed.hpp", N+"conjugate_transposed.hpp", N+"blas2_matrix_rank_1_update.hpp", N+"blas3_matrix_rank_k_update.hpp", N+"blas1_scale.hpp")
p("factored systems are solved by two triangular solves",
  "If a matrix is given as a product of triangular factors (L U with unit L stored in one matrix with U, or L L^T, or L L^H), then the two calls of the triangular solves, with transposed and conjugate_transposed views as needed, find the only solution of the system with the product, for vectors and for matrices on either side and for the transposed system; the residual computed by matrix_vector_product is zero.  In rounded arithmetic the computed result solves a system with a nearby matrix.",
  ANY + "; every field (with conjugation for the Hermitian statement) as element type, every rounding of relative error at most u for the last statement", "a composition of two calls on all inputs", N+"blas2_matrix_vector_solve.hpp", N+"blas3_triangular_matrix_matrix_solve.hpp", N+"transposed.hpp", N+"conjugate_transposed.hpp", N+"blas2_matrix_vector_product.hpp")
p("a call can be split into calls on parts",
  "Calls on the parts of the arguments that submdspan gives have together the same effect as one call on the whole.  Cut along the outermost loop (elements for level 1, where the result of a reduction is passed on as init; rows for the general products and rank-1 updates; right-hand sides for the solves) they are the same computation for all arguments, also overlapping ones.  For non-overlapping arguments matrix products may be cut along columns and along the sums (product, then update) and into tiles of any sizes, with the same bits; a triangular solve may be done in two blocks (solve, update, solve), with the same bits for a lower triangle if adding a product with -1 is subtracting, in exact arithmetic for an upper one.  A triangular solve from the left or from the right with many right-hand sides may be done in two blocks in the same way, in exact arithmetic.  So may a triangular product in place, from either side (product, update, product).  Structured products from the left may be cut along the columns of the other factor (the same computation for all arguments), those from the right along its rows; rank-k and rank-2k updates along the columns of their factors (Hermitian ones if the diagonal stays real), the symmetric and Hermitian rank-k updates, with and without a factor, also into the diagonal blocks of the output and a matrix product for the block between them.  Products of a symmetric, Hermitian or triangular matrix and a vector may be cut into 2 x 2 blocks, in exact arithmetic, and so may products of such a matrix and a matrix, from either side; the block that is not stored is the (conjugate) transposed view of the stored one.",
  ANY + "; every position of the cut and every list of tile sizes; every element type, no law of arithmetic unless stated", "every way to cut every input", N+"blas1_dot.hpp", N+"blas1_vector_sum_of_squares.hpp", N+"blas1_vector_abs_sum.hpp", N+"blas1_scale.hpp", N+"blas1_linalg_add.hpp", N+"blas1_vector_idx_abs_max.hpp", N+"blas2_matrix_vector_product.hpp", N+"blas2_matrix_vector_solve.hpp", N+"blas3_matrix_product.hpp", N+"blas3_triangular_matrix_matrix_solve.hpp", N+"blas3_matrix_rank_k_update.hpp", N+"blas3_matrix_rank_2k_update.hpp")
p("the norms satisfy the inequalities that define norms",
  "The results of several calls satisfy: |dot(x, y)| and |dotc(x, y)| are at most vector_two_norm(x) * vector_two_norm(y); the two-norm of x + y computed by add is at most the sum of the two-norms, scale multiplies it by the magnitude of the factor, and it is zero only for zero vectors; matrix_inf_norm and matrix_one_norm of a computed product are at most the product of the norms of its factors; the largest element (vector_idx_abs_max) and the vector_abs_sum of a computed matrix-vector product are at most matrix_inf_norm, respectively matrix_one_norm, times those of the vector, and for matrix_inf_norm some vector of elements +1 and -1 attains the bound.",
  ANY + "; exact real or complex elements", "inequalities between the results of several calls must hold for all inputs", N+"blas1_dot.hpp", N+"blas1_vector_norm2.hpp", N+"blas1_vector_abs_sum.hpp", N+"blas1_vector_idx_abs_max.hpp", N+"blas1_matrix_inf_norm.hpp", N+"blas1_matrix_one_norm.hpp", N+"blas1_linalg_add.hpp", N+"blas1_scale.hpp", N+"blas2_matrix_vector_product.hpp", N+"blas3_matrix_product.hpp")
p("linear solvers written with the library work",
  "The textbook algorithms, written with calls of the library on parts of matrices (submdspan), do what they should: Gaussian elimination (scale, matrix_rank_1_update) finds the LU factors if there are any, also by blocks of any sizes (triangular_matrix_matrix_right_solve and left_solve with the factors of the leading block, matrix_product for the rest); with vector_idx_abs_max and swap_elements for partial pivoting it factors every real matrix with all multipliers at most 1 in magnitude, and followed by two triangular_matrix_matrix_left_solve it solves every nonsingular system and inverts the matrix; Cholesky factorisation (scale, symmetric_matrix_rank_1_update on one triangle) factors every positive definite matrix without touching the other triangle, also by blocks of any sizes (triangular_matrix_matrix_right_solve with the transposed factor, symmetric_matrix_rank_k_update), and followed by two triangular_matrix_vector_solve solves the system; QR factorisation by setup_givens_rotation and apply_givens_rotation gives R with R^T R = A^T A, and followed by a triangular solve the least-squares solution for every matrix of full column rank; QR factorisation of a tall matrix by symmetric_matrix_rank_k_update of its transpose, Cholesky factorisation and triangular_matrix_matrix_right_solve (the last example of the proposal P1673) gives orthonormal columns Q and a triangular factor with A = Q R for every matrix of full column rank, and so does the modified method of Gram and Schmidt (vector_two_norm, scale, matrix_vector_product with the transposed block, matrix_rank_1_update), whose factors give the least-squares solution by matrix_vector_product and triangular_matrix_vector_solve; the method of conjugate gradients (symmetric_matrix_vector_product on one triangle, dot, add with scaled) solves every positive definite system of size n in at most n steps; the method of Gauss and Seidel (matrix_vector_product, triangular_matrix_vector_solve, add) converges for every matrix with a strictly dominant diagonal, forwards and backwards.",
  ANY + "; exact real elements (LU without pivoting: every field)", "compositions of a number of calls that grows with the size, for all inputs", N+"blas1_vector_idx_abs_max.hpp", N+"blas1_linalg_swap.hpp", N+"blas1_scale.hpp", N+"blas2_matrix_rank_1_update.hpp", N+"blas3_triangular_matrix_matrix_solve.hpp", N+"blas2_matrix_vector_solve.hpp", N+"blas1_givens.hpp")
p("the element type matters only through its operations",
  "Let the operations of two element types respect a relation between their values. Then the same call on related data, in the same cells, ends with the same error for both types or leaves related values. In particular: converting all data with a map that commutes with the operations gives the same result before and after the call; with packs of values every lane is the result of a call on that lane; real data stored as complex numbers gives the real results, norms included; conjugating all data conjugates the results; with dual numbers (automatic differentiation) the derivative parts are the derivatives of the results; intervals that enclose the data give intervals that enclose the results. With the Kokkos backend the same holds of the outcomes that the schedules can have.",
  ANY + "; every pair of element types and every relation; no law of arithmetic", "the library is a template: tests instantiate it for a few types", N+"blas1_dot.hpp", N+"blas1_vector_norm2.hpp", N+"blas1_vector_abs_sum.hpp", N+"blas2_matrix_vector_product.hpp", N+"blas2_matrix_vector_solve.hpp", N+"blas3_matrix_product.hpp", N+"blas3_triangular_matrix_matrix_solve.hpp", N+"conj_if_needed.hpp", N+"abs_if_needed.hpp")
p("where the arguments lie in memory and how they are laid out does not matter",
  "Let two calls of one algorithm with the same scalars have views of the same extents and accessors, whose elements lie in other places (another allocation, layout_left in place of layout_right, padding, strides, reversed storage), overlapping in the same way in both calls. If the elements have the same values before the calls, then both calls end with the same error, or both end normally and all elements have the same values, bit by bit; cells outside of the views are unchanged.",
  ANY + "; every one-to-one correspondence of cells, also for overlapping arguments and arguments that do not fit together; no law of arithmetic", "tests use a few layouts and addresses", N+"blas1_linalg_add.hpp", N+"blas1_vector_norm2.hpp", N+"blas2_matrix_vector_product.hpp", N+"blas2_matrix_vector_solve.hpp", N+"blas2_matrix_rank_1_update.hpp", N+"blas3_matrix_product.hpp", N+"blas3_matrix_rank_k_update.hpp", N+"blas3_triangular_matrix_matrix_solve.hpp")
p("solving linear systems in rounded arithmetic is backward stable",
  "With operations of relative error at most u, let g = (1+u)/(1-u).  Gaussian elimination with partial pivoting written with the library (vector_idx_abs_max, swap_elements, scale, matrix_rank_1_update) computes factors whose product is the given matrix, with its rows in another order, up to g^(n+1) - 1 times the product of their magnitudes, and no multiplier exceeds (1+u)^2; followed by two triangular_matrix_matrix_left_solve it computes the exact solution of a system whose matrix differs from the given one by at most g^(3n+1) - 1 times that product, so by a small amount relative to the largest element of the upper factor.  Cholesky factorisation (scale, symmetric_matrix_rank_1_update on one triangle) succeeds for every matrix that is positive definite with a small margin, and the solver made of it and two triangular_matrix_vector_solve computes the exact solution of a system whose matrix differs from the given one by at most (g^(3n+1) - 1) / (2 - g^(n+1)) times sqrt(a_ii a_jj).",
  ANY + "; every arithmetic with relative error at most u < 1 per operation (no overflow or underflow)", "rounding errors accumulate over a number of calls that grows with the size, for all inputs", N+"blas1_vector_idx_abs_max.hpp", N+"blas1_linalg_swap.hpp", N+"blas1_scale.hpp", N+"blas2_matrix_rank_1_update.hpp", N+"blas2_matrix_vector_solve.hpp", N+"blas3_triangular_matrix_matrix_solve.hpp")
p("a call with a Kokkos policy is finished when it returns",
  "When a call with a Kokkos execution policy returns, its work is done, although kernels run asynchronously: the code after the call, on the host or with any policy, finds the result in memory, and no kernel that reads or writes the arguments is still waiting.  A call sees the results of all earlier calls with the same policy.",
  "every call of the backend, every data, every schedule of the kernels and every moment at which the execution space runs a waiting kernel; every program after the call", "whether a kernel has run when the host goes on depends on timing; on the serial and OpenMP backends every test passes", K+"parallel_matrix.hpp: for_each_matrix_element, for_each_triangle_matrix_element", K+"blas1_copy_kk.hpp", K+"blas1_swap_elements_kk.hpp", K+"blas1_scale_kk.hpp", K+"blas1_matrix_frob_norm_kk.hpp", K+"blas2_gemv_kk.hpp", K+"blas2_symv_kk.hpp", K+"blas3_matrix_product_kk.hpp: trmm_left, trmm_right", K+"blas3_overwriting_gemm_kk.hpp", K+"blas3_triangular_matrix_matrix_solve.hpp")
p("calls with matching sizes end normally",
  "If the extents of the arguments of a call fit together as documented and every element of the arguments that the documentation lets the call access lies in allocated memory, then the call returns: it runs no undefined operation, whatever the values of the elements and however the arguments overlap, and it allocates and frees nothing.  The same holds for sequences of such calls, and for sequences in several threads that do not write each other's arguments; output elements that the formula does not use may be uninitialised before the call and are initialised after it.  Sizes are not checked at run time: with a vector that is too short, dot, copy and matrix_vector_product always run beyond its end.",
  "every call, every memory, all extents, layouts, values and overlaps; every schedule of the threads", "an access outside of the arguments can depend on any size; tests use a few, without bounds checks", N+"blas1_dot.hpp", N+"blas1_linalg_copy.hpp", N+"blas1_vector_idx_abs_max.hpp", N+"blas2_matrix_vector_product.hpp", N+"blas2_matrix_vector_solve.hpp", N+"blas2_matrix_rank_1_update.hpp", N+"blas2_matrix_rank_2_update.hpp", N+"blas3_matrix_product.hpp", N+"blas3_matrix_rank_k_update.hpp", N+"blas3_triangular_matrix_matrix_solve.hpp")
p("what a call does when its output overlaps its inputs",
  "The order in which elements are read and written is fixed, so calls with overlapping arguments have one definite effect.  copy, add, matrix_vector_product and matrix_product give the result for separate arguments if no output element is written before the last read of the input element in the same cell (copy, add: element by element; products: row by row).  So copy moves a range of an array to smaller indices by any distance, and to larger ones with views that run backwards; with forward views it repeats the first k elements, k the distance.  swap_elements of a vector and its reversal, or of a square matrix and its transposed view, changes nothing, and copy(transposed(A), A) copies the upper triangle to the lower one: neither transposes in place.  add of a range and the same range moved by one, onto the latter, gives prefix sums, and with the first argument scaled by t the values of Horner's scheme.  matrix_vector_product with its input vector as output uses in row i the new elements before i, the old ones after i and in the place of element i the sum so far; so the updating one with a matrix whose diagonal is zero is a sweep of the method of Gauss and Seidel.  matrix_product with one of its factors as output does the same with each column (of the right factor) or row (of the left one).  matrix_rank_1_update reads x(i) and y(j) anew for every element, row by row: it gives the result for separate arguments if x is the last column of A or y the last row, and uses the updated values to the right of an earlier column and below an earlier row.  With the Kokkos backend swap_elements of vectors is defined exactly if the vectors overlap at most element by element; copy of matrices with different layouts whose rows start in the same cells in another order, and the updating matrix_vector_product with an input vector that overlaps the output, are data races.",
  "every memory, all extents, layouts, distances and values; no law of arithmetic for copy, add and swap_elements", "the effect depends on the relative position of the arguments, of which tests see a few (usually none)", N+"blas1_linalg_copy.hpp: copy_rank_1, copy_rank_2", N+"blas1_linalg_add.hpp: add_rank_1", N+"blas1_linalg_swap.hpp: swap_rank_1, swap_rank_2", N+"transposed.hpp", N+"blas2_matrix_vector_product.hpp", N+"blas3_matrix_product.hpp", N+"blas2_matrix_rank_1_update.hpp", K+"blas1_swap_elements_kk.hpp", K+"blas1_copy_kk.hpp", K+"blas2_gemv_kk.hpp")
here = os.path.dirname(os.path.dirname(os.path.abspath(__file__)))
with open(os.path.join(here, "properties.jsonl"), "w") as f:
    for q in P: f.write(json.dumps(q) + "\n")
print(len(P))

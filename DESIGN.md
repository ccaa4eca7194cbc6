# Formal model of kokkos/stdBLAS in Lean 4: design

## 1. What is modelled, and how

The library is a set of C++ templates over `mdspan`. The model follows the native
implementation (the `inline_exec_t` overloads in
`/repo/include/experimental/__p1673_bits/`), function by function, plus the
view-producing functions, the overload dispatch, and parts of the optional
Kokkos backend (`/repo/tpl-implementations/.../kokkos-kernels/`).

### Machine

* **Memory** (`Heap α := Nat → Option α`): an address either holds a value of
  the element type or is not readable/writable (`none`).
* **Outcomes** (`Prog α β := Heap α → Except Err (β × Heap α)`): a call returns a
  value and a memory, or ends in `Err.ub` (out-of-extent index, access to an
  unallocated cell, `0 / 0`-style precondition failures where noted),
  `Err.assertFail` (`assert(false)`) or `Err.exn` (an exception, Kokkos backend).
  Undefined behaviour is therefore an outcome, never assumed away. A theorem that
  says a call "ends normally" proves that none of these happen.
* **mdspan**: `Vec`/`Mat` = extents + an index-to-address function (data handle,
  layout and offset combined) for views with `default_accessor` (these can be
  written); `VecV α`/`MatV α` = the same plus an accessor function `α → α`
  (`scaled`, `conjugated`, any nesting; read only). An access checks the extents.
  The layout is an arbitrary function: theorems quantify over all layouts;
  uniqueness (injectivity on in-range indices) is a hypothesis, only on outputs.
  `layout_left`, `layout_right`, `layout_stride`, padded layouts,
  `layout_transpose`, `layout_blas_general` are modelled separately as instances.
* **Loops** are structural recursion over the list of index values in the order
  in which the C++ loop visits them (`forEach (List.range' lo n)`, reversed for
  descending loops). Loop bodies are written statement by statement with reads and
  writes in the order of the C++ source.
* **Reads outside a triangle**: theorems about symmetric / Hermitian /
  triangular algorithms only assume that the cells of the named triangle are
  allocated. A call that touched any other cell would end in `ub` on memories
  where that cell is unallocated, so the theorem would be false. That is how
  "never accessed" is stated.

### Scalars

Kernels are defined for any type with the operations used (`Add`, `Mul`, `Zero`,
`Sub`, `Div`, ...), so the same definition runs over integers, rationals, reals,
complex numbers or an arithmetic with rounding. `conj_if_needed`,
`real_if_needed`, `abs_if_needed` are modelled by a class `Scalar` of operations;
laws are hypotheses only where a theorem needs them. Theorems that need algebra
assume (semi)rings, not necessarily commutative where the code does not need it.
Norms and Givens rotations are over `ℝ` and `ℂ` (exact arithmetic), `setup_givens_rotation` also in floating-point arithmetic (C61).
NaN, infinities and overflow: C55 and C56 use the numbers of `Spec/Ieee.lean` (zero has no sign).
Rounding: section C47 uses an arithmetic on `ℝ` in which each operation is
followed by an arbitrary rounding with relative error at most `u`.

Mixed element types: `Model/Mixed.lean` has the algorithms once more, with one type `D` for the values
of all element types and the conversions of C++ at each assignment (C57). The other properties are
about calls whose elements all have one type.

Single accesses: `Model/Steps.lean` has the native algorithms once more, as trees of loads and stores
(`Task`, also used for the Kokkos backend), in the order of the C++ statements. `C58_same_model` proves
that running such a tree is the function that the other properties are about. A local variable is not
memory; an element access is one access (no tearing), and compilers may not invent writes (true of
C++11 and later).

### Integers

Indices are `Nat` except where the C++ code does arithmetic that can wrap or mix
signedness (`i - 1`, descending loops, `ptrdiff_t` conversions, the
`numeric_limits<size_type>::max()` result). There an explicit fixed-width model
(`IntTy` = signedness and width, with C++ conversions) is used. C51 justifies the use of `Nat`:
every native algorithm, written with the integer types of its source, is equal to the one over
`Nat`; the exceptions are proved as such.

### Trusted base

* Lean 4.33.0's kernel, and the axioms `propext`, `Classical.choice`,
  `Quot.sound` (no others; no `sorry`, `native_decide`, `bv_decide`, own axioms).
* Mathlib's definitions used in statements (`Finset.sum`, `Real.sqrt`, `ℂ`, ...).
* That the model follows the C++ text: each definition cites file and lines.
* C++ facts assumed: `mdspan` from the reference implementation indexes as
  `accessor.access(data_handle, mapping(i...))`, `common_type` of the index types
  represents every extent, extents are the ones of the mapping.
* Kokkos (an external library) is assumed to behave as in `Core/Parallel.lean`:
  `parallel_for` interleaves the accesses of the iterations in any way, each access is
  atomic and memory is sequentially consistent (programs with a data race are errors in
  the model, so weaker memory orders make no difference to the others);
  `parallel_reduce` joins chunks along any tree; kernels submitted to one execution
  space run in order of submission. `Kokkos::View` is modelled as an address function.
  For C79 (`Core/Async.lean`) `parallel_for` and `deep_copy` with an execution space only
  submit work, `parallel_reduce` into a host variable waits for everything submitted to
  that space, `fence()` waits for everything, and the device may run submitted work at any
  time, in order of submission.
* KokkosKernels (an external library) is assumed to follow its documentation, in the form
  written down in `Spec/KokkosLib.lean`. These are hypotheses of the theorems, not axioms.
* Overload resolution (C64): the signatures, constraints and inner calls of all native overloads
  are generated from the headers by `tools/gen_overloads.py` (each record cites its lines) and
  trusted to be transcribed correctly; template argument deduction, constraints and partial
  ordering are modelled in `Core/Overloads.lean` as far as these signatures use them. The tactic
  `kernel_rfl` (`Lemmas/KernelRfl.lean`) hands `Eq.refl` to the kernel without checking it first in
  the elaborator; the kernel checks it as it checks everything.
* Not modelled: in the dispatch to backends SFINAE beyond a boolean "custom implementation
  available", in the algorithms static
  extents (a static extent is just a value there; the checks of static extents are in C63,
  their use by `transposed` in C38), exceptions thrown by user-defined element types, the
  sign of zero, overflow/underflow of the element arithmetic except in C55, C56, C61, C62,
  code under `#if 0`, the P1674 proposal sources, tests, benchmarks and examples,
  the BLAS C interface code in `blas3_matrix_product.hpp` (all under `#if 0`).

## 2. Property by property

For every property: model = which definitions, proof = the method. "Frame" is:
all memory cells other than the output view's cells are unchanged.

| id | model | proof |
|----|-------|-------|
| C01 | `dot` loop on the heap | induction on the loop; sum over `Finset.range`; lawless fold form too; UB when v2 shorter |
| C02 | `dotc` through the conjugated view | from C01; complex corollaries |
| C03 | `vectorSumOfSquares` with real scale/ssq and division | loop invariant scale²·ssq = …; scale = running max |
| C04 | `vectorTwoNorm` | from C03 |
| C05 | `vectorAbsSum` real and complex | fold = sum |
| C06 | `vectorIdxAbsMax` | invariant "best so far, first"; sentinel for empty |
| C07 | `matrixFrobNorm` with the quotient as written | the property is **false** for the code: negation with a 1×2 witness; partial theorem: exact when nonzero magnitudes are weakly increasing in row-major order, and in general never below the true norm |
| C08 | `matrixOneNorm`, `matrixInfNorm` | max over columns/rows of fold sums |
| C09–C12 | `copy`, `swapElements`, `scale`, `add`, rank 1 and 2 | element-wise loop lemma with frame; aliasing variants |
| C13 | `setupGivensReal` with its three loops as well-founded / fuel recursion | Archimedean termination, scaling invariant |
| C14 | `setupGivensComplex` | **false** for the code when the down-scaling count is ≥ 2: negation; partial theorem on the other branches |
| C15 | `applyGivens` real and complex | element-wise pairs; norm algebra |
| C16 | `gemv` both | element-wise loop lemma |
| C17–C20 | `symv`, `hemv`, `trmv` all variants | refinement of the heap loop to a pure loop on vectors, then invariants on partial sums |
| C21, C22 | `trsvUpper`, `trsvLower` | invariant on solved suffix/prefix; uniqueness by induction |
| C23 | descending-loop start in the fixed-width integer model | **false** for unsigned 32-bit index types: negation; partial for all others |
| C24 | composition of C20 and C21 (and C36, C37) | from uniqueness |
| C25–C30 | all rank updates | element-wise loop lemma over triangle index lists |
| C31–C33 | `gemm`, `symm`, `hemm` | element-wise loop lemma; hemm right side is **false** for non-real stored diagonals: negation and partial |
| C34 | updating `symm`/`hemm` | **false**: the bodies are `assert(false)`; negation for both build modes |
| C35 | `trmm` left/right, with fixed-width inner bound | element-wise loop lemma + integer lemma |
| C36 | in-place `trmm` | column/row-wise refinement and invariants |
| C37 | `trsm` four variants | as C21 per column/row |
| C38–C43 | layouts and views | algebra on address functions; C39, C40 **false** for `layout_blas_general`: negation and exact characterisation |
| C44 | `Model/Proxy`: proxies with the two value types and the conversions between them | evaluation for any operator; **false** when the product type is not the element type |
| C45 | dispatch: policy mapping and table of detected/called names | finite table by kernel computation, plus a theorem over all policies; **false** for the algorithms whose detected and called names differ: negation |
| C46 | the algorithms above | equality of results |
| C47 | kernels over rounded reals | induction with (1+u)^n bounds |
| C48 | `Core/Parallel`: iterations as sequences of single memory accesses, any interleaving, data races are errors; `Model/Kokkos`: the backend's kernels on it | invariant over all reachable states (each iteration owns the cells it writes); general theorem: all interleavings give the memory of the sequential loop; per kernel: what that memory is |
| C49 | `parReduce`: any split into chunks, any order in a chunk, any tree of joins | induction on the tree; permutation invariance of sums and maxima |
| C50 | the Kokkos kernels and the native ones | both memories are determined by their contracts; negations where they differ |
| C51 | `Core/IntTypes` (promotion, usual arithmetic conversions, wrap-around, signed overflow = UB) and the algorithms rewritten with these types: triangular kernels in `Model/IndexTypes`, all others in `Model/IndexTypesAll` | equality of programs with the natural-number kernels; **false** for `make_signed_t` |
| C52 | the checks at the head of each backend function | the checks are the only source of exceptions: structural induction over the kernels (`NoThrow`), all schedules |
| C53 | `Model/KokkosKernels`: the forwarding functions with the library as a parameter `K`; `Spec/KokkosLib`: contracts of the library functions | unfolding, contracts, transport of inputs over the copies; a library built from the native algorithms shows the contracts are consistent |
| C54 | no new code; `Spec/Order`: `leftSum`, `leftDiff`, `triSeq`, `triSeqInPlace`, `triElement`, `solveRow` | law-free loop invariants (`Lemmas/Ordered`: only `+ - * /` and `conj` as uninterpreted symbols); examples in the free term type; reproducibility from the stated expression, for the solve by induction along the recurrence |
| C55 | `Model/FloatReductions`: the reductions for any `Scalar` type (equal to the real ones with `R = ℝ`: `Lemmas/FloatReductions`); `Spec/Ieee`: numbers with `inf` and NaN; `Spec/Absorb`: values that every operation passes on | from the expressions of C54 by induction on sums; for the norms "once NaN, always NaN"; **false** for the one and infinity norms: `std::max` drops NaN |
| C56 | as C55; `Spec/BinaryFormat`: `double` and `float` with subnormals as instances | loop invariant "scale is the maximum, 1 ≤ ssq ≤ count" with monotone rounding; **false** for `matrix_frob_norm` and for two infinities: concrete witnesses |
| C57 | `Model/Mixed`: all kernels with conversions at the assignments (`Core/MixedTypes`: class of operations between types); `Spec/Mixed`: `leftSumAs`, `solveRowAs`, ..., numbers with a precision, numbers of type int, real or complex | instances of the law-free theorems of C54 with the addition `a, b ↦ T(a + b)`; separate folds for the solves and in-place products; exactness and rounding by induction on the sums; **false** for the lower triangular left solve and for norms of integers |
| C58 | `Model/Steps`: all native algorithms as sequences of single memory accesses; `Model/Calls`: one type `Call` with a constructor per algorithm; `Spec/Calls`: which cells are inputs and outputs; `Spec/Steps`: states of an execution | the step model equals the model of the other properties (`C58_same_model`); a footprint judgment (`Task.Within`) proved for each algorithm by its structure, carried through all states by induction on the execution |
| C59 | as C58; `Mem`: memory with indeterminate values | a second judgment (`Task.Inits`: the cells the task may rely on, and those it has initialised at its end), with a simulation between two memories |
| C60 | as C58; threads as in `Core/Parallel` | footprints of different threads are disjoint, so the interleaving theorem of C48 applies |
| C61 | `Model/GivensFloat`: `setup_givens_rotation` for any type with its own operations (real and complex), equal to the exact model for `ℝ` (`Lemmas/GivensExact`); numbers of `Spec/Ieee` with `Format.Scaled` (relative and absolute rounding error, products with powers of two) | **false** for infinities (endless loop): negation; otherwise error analysis of the three branches, at most two iterations; complex version: `Spec/GivensComplex`, `Lemmas/GivensComplex`, `Lemmas/GivensComplexScale` (the main branch; perturbation of the exact rotation by the underflow of the scaling), `Lemmas/GivensComplexTiny`, `Lemmas/GivensComplexTail` (the branch for a zero or tiny first number; `hypot` is a parameter assumed accurate, `Spec/Hypot`) |
| C62 | numbers of `Spec/Ieee` (overflow, subnormal numbers, infinities, NaN); `Spec/Accurate`: `Format.Errors u η` and `FP.Accurate`; complex elements: `Spec/AccurateComplex`, the product with the recovery from NaN and the division as parameters; `Spec/Modulus`: `std::abs` of a complex number as a parameter | the expressions of C54, then induction over the sums; a row of a solve by its residual; two-norms by the invariant `q >= 1`, which makes underflow a relative error; **false** for solves with an infinite diagonal element: negation |
| C63 | static extents as `Option Nat`, function bodies as lists of `static_assert`s and discarded expressions (`Model/StaticExtents`); sizes that fit: `Spec/StaticExtents` | from matching static extents, choice of a value for the dynamic ones; **false** for unchecked, discarded and non-transitive checks: negations, partial theorems |
| C64 | all native overloads as data (`Model/OverloadTable`, generated), deduction, constraints, partial ordering and inner calls in `Core/Overloads`; documented forms: `Spec/CallForms` | computation with symbolic types, categories and layouts for every form of the table (complete, not a sample); endless recursion as an infinite sequence; **false** in four places: negations, partial theorems |
| C65 | kernels as C48; expressions without laws: `Spec/Order`, `Spec/KokkosOrder` | each iteration evaluates one expression, whatever runs between its accesses; examples in the free type `Term` |
| C66 | kernels as C48, reductions for any `Scalar` in `Model/KokkosFloat`; numbers `FP` (`Spec/Ieee`), `FP.Accurate` (`Spec/Accurate`) | products and updates: C65 and the error bounds of C62 in the order of the kernels; sums: the bound is an invariant of every reduction tree (`Bounds.tree`); maxima: one value (`FP.LargestOf`); scaled norms: quotients by the largest magnitude have bounded errors (`Lemmas/KokkosAccurateNorms`) |
| C67 | native model as C54, Kokkos kernels as C48 | `SameOutcome` for every element type: both sides are one expression (C54, C65), and the expressions are equal term by term; negations on `double` data with an overflow in one order (`DifferentOutcome`) |
| C68 | algorithms as sequences of accesses (`Model/Steps`, as C58); `Spec/Cost`: trace of a run, number of reads and writes | cost of each loop body whatever values are read, summed over the loops; closed forms; one bound for all algorithms |
| C69 | the type-annotated algorithms of `Model/Mixed` (C57) with integers of 8 to 64 bits; `Spec/IntElements`: promotion, common type, wraparound, overflow as undefined | the expression that C57 gives, evaluated modulo `2^bits`, or exactly by induction over the partial sums; substitution by induction over the rows |
| C70 | the model of C54 and C65 with floating-point elements; `Spec/FloatExact`: formats that have all multiples of a unit up to a bound; `Spec/ComplexExact`: the same for both parts of a complex number, the bound being on the sum of their magnitudes | every partial sum of the given expression is a multiple of the unit and below the bound, hence representable: induction over sums, reduction trees and rows of a solve |
| C71 | sequences of calls of the native model, composed in `Prog` | the theorems about the single calls give the memory after each; frame lemmas carry the inputs over; the identities of sums are those of Mathlib |
| C72 | two triangular solves in sequence, on one or two stored factors and their transposed views | as C71 with the theorems about the solves (the equations have one solution: induction over rows); rounded arithmetic: the perturbed factors of C47 multiplied out |
| C73 | native algorithms on parts of their arguments (`Spec/Blocks`) | outermost loop: the two programs are equal (fold over an append of index ranges); other loops: the exact expressions of C54 for both sides, sums split by `leftSum_add`; tiles: induction over the three lists of sizes; blocks of a triangle: `withBlock`, the values of `C` after each of the three calls |
| C74 | native norms, dot, products, composed as programs | the values of C01-C08, C11, C12, C16 and C31 for each call; Cauchy-Schwarz and Minkowski from Mathlib on the sums; row and column bounds for the matrix norms |
| C75 | user programs made of native calls (`Spec/Clients`) | invariant of the outer loop: leading columns factored, trailing block holds the Schur complement (LU, Cholesky), Gram matrices kept and leading columns zero below the diagonal (QR); the values of the calls from C02, C03, C10, C15, C18, C37; nonzero pivots from injectivity (determinant of a triangular matrix) or positive definiteness; blocks: induction over the sizes; LU: the solves are unique, so they find the blocks of the factors; Cholesky: the trailing block is positive definite because the transposed leading factor can be solved for; CholeskyQR: L (Q^T Q - I) L^T = 0 and forward substitution; Gram-Schmidt: finished columns orthonormal and orthogonal to the rest, columns stay independent; conjugate gradients: memory holds the pure iteration, whose residuals are orthogonal (induction), at most n of them are nonzero; Gauss-Seidel: bound of the error row by row in the order of the solve |
| C76 | all native calls (`Model/Calls`) for two element types at once; `Spec/Transfer`: operations, memories and calls that respect a relation; `Spec/TransferTypes`: packs, dual numbers, intervals | a relation between programs (same error, or related results and memories) that is kept by sequence, branches, loops, loads and stores; then each algorithm by its structure. Derivatives: functions of a parameter are a third element type, related to numbers by evaluation and to dual numbers by value and derivative. Kokkos backend (`Spec/KokkosTransfer`): iterations that make corresponding accesses; every interleaving of one loop is one of the other, races and errors included; reductions along the same tree |
| C77 | all native calls on two sets of views; `Spec/Moved`: a one-to-one relation of addresses, memories, views and calls that correspond | a relation between programs (same error, or same result and corresponding memories, other cells unchanged) that is kept by sequence, branches, loops, loads and stores; then each algorithm by its structure; layouts by numbering the elements of all arguments. Kokkos backend: as for C76, the same development with both relations |
| C78 | the solvers of C75 with rounded operations (`luPivotF`, `gesvF`, `potrfF`, `posvF` in `Spec/Clients`) | the law-free values of the calls; each finished product and the unfinished rest carry a factor near one (`Near`) per rounding, multiplied from step to step; backward substitution from C47; Cauchy-Schwarz for the rows of the Cholesky factor; success: a pivot that is not positive gives a vector on which the form is too small |
| C79 | the calls of the Kokkos backend as programs of the host that submit kernels and wait (`Core/Async`, `Model/KokkosHost`); a queue of waiting kernels that the execution space may run at any moment | the waiting aside they are the functions of C48 and C53 (`C79_same_work*`); a kernel followed by a fence or a reduction leaves nothing waiting; induction on the program for sequences of calls; witnesses for the calls without a fence |
| C80 | the calls as sequences of reads and writes (`Model/Steps`, `Model/Calls`); the documented size preconditions and the accessed elements of each call (`Spec/Sizes`, `Spec/Calls`) | no step fails in a call with matching sizes (structural, one lemma per call, `Lemmas/Sizes`) and the accesses are those of the specification (C58), so all of them are to allocated cells; threads by C68; too short vectors: the loop reaches the index of the extent |
| C81 | the loops of C09, C10, C12, C16, C25 and C31 on views that share cells | loop rules in which iteration `i` finds the results of the earlier iterations (`Lemmas/Overlap`); products in place by recursion over the rows (a new element depends on the earlier new ones); exchanging along an involution by induction over the pairs done; Kokkos: two iterations that by reads alone get to conflicting accesses (`Lemmas/Races`) |

Properties that turn out false for the unchanged code are kept in full in
`properties.jsonl`; the model proves the negation with a concrete witness and the
strongest positive part under a name ending in `_partial` (see section 4).

## 3. File layout

* `Verif/Core/` machine, loops, mdspan views, scalars.
* `Verif/Model/` the model, one file per group of headers; every definition
  cites its source lines.
* `Verif/Spec/` small independent specifications.
* `Verif/Lemmas/` helper lemmas.
* `Verif/Props/` the property theorems (one file per group) with, beside each, an
  example that a concrete non-trivial case meets its hypotheses.

## 4. Disagreements found between code and property

Each is proved (negation with a concrete witness, or the exact wrong outcome) in the theorems named.

* **C07** `matrix_frob_norm` (`blas1_matrix_frob_norm.hpp`): both branches of the update use
  `scale/|a|`; the result is too large unless the nonzero magnitudes come in weakly increasing
  order. `C07_*`.
* **C14** complex `setup_givens_rotation` (`blas1_givens.hpp:366`): the loop that undoes down-scaling
  starts at `i = 1` and runs to `-count`, so `r` is scaled too often; and in the branch for very
  small `f` the rotation is not unitary. `C14_r_false`, `C14_unitary_false`.
* **C23** `for (ptrdiff_t i = A_num_rows - 1; ...)` with a 32-bit unsigned `size_type` and an empty
  matrix starts at 4294967295: undefined behaviour. `C23_trsv_uint32_false`,
  `C23_trsm_left_uint32_false`.
* **C33** right-side `hermitian_matrix_product` does not drop the imaginary part of the stored
  diagonal. `C33_hemm_right_false`.
* **C34** the four updating symmetric / Hermitian products are `assert(false)`.
  `C34_updating_products_false`.
* **C51** `make_signed_t<size_type>` in the right-side lower solve: with `uint8_t` index types and
  129 to 255 columns the loop is skipped. `C51_trsm_right_false`.
* **C38** `transposed` of a padded (default configuration) or user layout cannot be applied twice (the
  second call does not compile), and with `LINALG_FIX_TRANSPOSED_FOR_PADDED_LAYOUTS` a static padded
  layout can violate the precondition of the padded mapping's constructor.
  `C38_transposed_twice_false`, `C38_transposed_padded_static_false`.
* **C39, C40** `layout_blas_general` multiplies the whole offset of the packed layout by the leading
  dimension, and `transposed` passes it a stride as leading dimension.
  `C39_transposed_blas_general_false`, `C40_meaning_false`, `C40_unique_false`. (The class also cannot
  be instantiated as it stands: `mapping` is private and ignores its extents.)
* **C44** `scaled_scalar` whose product type differs from the element type (`0.5 * int`) is converted
  to the element type before every operation. `C44_mixed_types_false`.
* **C45** the availability trait of the 3-argument `matrix_product` can never hold; those of the
  triangular, symmetric and Hermitian products and of `triangular_matrix_matrix_solve` test another
  call than the one they guard (for the right-side triangular product also with another argument
  order). `C45_backend_not_called_false`, `C45_no_backend_ill_formed_false`,
  `C45_right_product_reordered_false`. A mapper with a cycle of length two passes the `static_assert`
  and dispatch does not end: `C45_cyclic_mapper_endless_false`.
* **C46** follows C33: the right-side Hermitian product differs from the general product on the full
  Hermitian matrix when the stored diagonal is not real. `C46_hemm_right_full_false`.
* **C50** Kokkos backend (`tpl-implementations/.../kokkos-kernels`) against the native code, in exact
  arithmetic. Rank-1 mdspans with a stride are read as contiguous
  (`C50_strided_vector_false`); transposed views are read untransposed
  (`C50_transposed_matrix_false`); the updating `matrix_vector_product` adds `y` once per column
  (`C50_gemv_update_false`); `vector_two_norm` and `matrix_frob_norm` add `init` under the root
  (`C50_norm2_init_false`, `C50_frob_norm_init_false`); `matrix_frob_norm` of a zero matrix and
  `vector_sum_of_squares` of a zero vector divide by zero (`C50_frob_norm_zero_matrix_false`,
  `C50_sum_of_squares_zero_vector_false`); `vector_sum_of_squares` rescales the old sum by the wrong
  factor (`C50_sum_of_squares_init_false`, `C50_sum_of_squares_empty_false`); `vector_abs_sum` of
  complex elements adds magnitudes (`C50_abs_sum_complex_false`); `matrix_one_norm` without rows
  reads out of bounds (`C50_one_norm_no_rows_false`); imaginary parts on the diagonal of a Hermitian
  matrix are kept or conjugated (`C50_*_imaginary_diagonal_false`).
* **C52** `copy` between different rank-2 layouts checks no extents (`C52_copy_wrong_size_false`), and
  the updating right-side `hermitian_matrix_product` does not check `E`
  (`C52_hemm_right_update_wrong_E_false`): out-of-bounds accesses instead of an exception.
* **C53** Kokkos backend: the overwriting `matrix_vector_product` ignores that `A` is a transposed view
  (`C53_gemv_transposed_false`); `trmm_kk` passes `"U"` for the lower triangle while the solves pass
  `"L"`, so the two cannot both be right (`C53_trmm_left_standard_false`,
  `C53_trmm_right_standard_false`); `vector_idx_abs_max` of complex elements differs from the native
  result if `iamax` measures by the modulus (`C50_idx_abs_max_complex_false`). The third overload of
  `matrix_vector_product` cannot be instantiated (`scale_factor` is not a member).
* **C55** `matrix_one_norm` and `matrix_inf_norm` combine the sums with `std::max(sum, result)`, which
  is `sum` if `result` is NaN: a NaN in any column (row) but the last is lost.
  `C55_matrix_one_norm_false`, `C55_matrix_inf_norm_false`.
* **C56** `matrix_frob_norm` divides the larger magnitude by the smaller one (see C07) and overflows for
  harmless data: `C56_matrix_frob_norm_false`. `vector_two_norm` of two infinite elements computes
  `inf / inf`: NaN. `C56_vector_two_norm_two_infinities`.
* **C57** `trsm_lower_triangular_left_side` keeps the partial sum in the element type of `X`, all other
  solves in the type of `B - A * X`: with integers on the right-hand side the matrix and vector solves
  differ (`C57_trsm_lower_left_differs`). `vector_two_norm` of integers without `init` divides integers:
  the norm of `(3, 4)` is 4 (`C57_vector_two_norm_int_false`).
* **C61** `setup_givens_rotation` with an infinite argument never returns: the loop that scales the
  numbers down multiplies the infinity by `safmn2` forever
  (`C61_setup_givens_real_first_infinite_false`, `C61_setup_givens_real_second_infinite_false`,
  `C61_setup_givens_complex_infinite_false`).  The complex version returns an `r` that is too large by
  `1 / safmn2 ^ 2` for extremely small numbers (`C61_setup_givens_complex_extremely_small_r_false`, the
  floating-point counterpart of `C14_r_false`).
* **C62** A triangular solve with an infinite diagonal element can return a finite solution: it divides
  by infinity and stores 0 (`C62_trsv_infinite_diagonal_false`).  This is IEEE arithmetic, not a slip
  of the code, but a finite result then says nothing about the data.  The rank updates with `alpha`
  compute `alpha * x(i)` first, which may overflow although the final term would fit: the theorems
  ask for that product to be finite.
* **C63** Several files of the Kokkos backend write `Impl::static_extent_match(...);` without
  `static_assert`, so the mandates are never checked (`C63_kokkos_discarded_false`).  As assertions they
  would be right for most calls (`C63_kokkos_discarded_conditions`), but in
  `symmetric_matrix_vector_product` the third line compares `A` with `x` twice and never with `y`
  (`C63_kokkos_symv_conditions_false`).
  The checks that are asserted compare neighbours only; matching is not transitive, so a dynamic extent
  between two different static ones passes (`C63_kokkos_dynamic_between_false`).  The native headers
  check only the BLAS 1 algorithms with two or three vectors or matrices.
* **C64** The policy overloads of `symmetric_matrix_rank_1_update`, `hermitian_matrix_rank_1_update`,
  `symmetric_matrix_rank_k_update` and `hermitian_matrix_rank_k_update` test the deduced forwarding
  type without removing the reference, so a policy passed as an lvalue, such as `std::execution::par`,
  has no viable overload (`C64_lvalue_policy_false`); a policy type that is not registered is taken
  for `alpha` (`C64_unregistered_policy_false`).  `copy` of rank 3 and more is accepted and calls
  itself without end, because only the loop requires rank 2 at most (`C64_copy_rank3_endless_false`).
  With a layout that is not always unique and a policy, the overwriting
  `symmetric_matrix_vector_product`, the overwriting and the in-place
  `triangular_matrix_vector_product` call themselves without end
  (`C64_nonunique_layout_endless_false`), and `matrix_vector_product(A, x, y)` and the updating
  products with a policy fail to compile inside the library instead of at the call
  (`C64_nonunique_layout_breaks_false`).
* **C65** A sum over a parallel range depends on the way the range is split:
  `dot` of `[2^1023, 2^1023, -2^1023]` and ones in `double` is infinite or exact (`C65_dot_false`).
* **C66** `vector_norm2` of the Kokkos backend adds unscaled squares: the norm of `[2^600]` is infinite and
  that of `[2^-600]` is 0 (`C66_vector_norm2_overflow_false`, `C66_vector_norm2_underflow_false`), unlike
  the native one (C56).  `matrix_frob_norm` of a zero matrix and the sum of `vector_sum_of_squares` of a
  zero vector are NaN (`C66_matrix_frob_norm_zero_false`, `C66_vector_sum_of_squares_zero_false`), and so is
  the sum of `vector_sum_of_squares` of `[2^-600]`: the old part is divided by the square of the largest
  magnitude, which underflows (`C66_vector_sum_of_squares_underflow_false`).
  `matrix_inf_norm` and `matrix_one_norm` of a matrix of NaN return `init` plus the identity of
  `Kokkos::Max`, a huge negative number (`C66_matrix_inf_norm_nan_false`).
* **C67** The Kokkos kernels add in another order than the native loops: the products with a vector of an
  upper symmetric or Hermitian triangle start with the stored part of the row, those of an upper triangle
  with implicit unit diagonal and the in-place triangular products add the diagonal last, and the updating
  products with a vector add the old value last.  With `[2^1023, 2^1023, -2^1023]` one order overflows and the other
  does not (`C67_symv_upper_false`, `C67_hemv_upper_false`, `C67_trmv_upper_unit_false`,
  `C67_*_update_false`, `C67_trmm_*_in_place_false`, `C67_dot_false`).
* **C69** `dot` of `uint16_t` elements has undefined behaviour for `65535 * 65535`, because the factors are
  promoted to `int` (`C69_dot_uint16_wraps_false`); an `init` of type `int64_t` does not prevent the overflow
  of a product of `int32_t` elements (`C69_dot_wide_init_false`; see also `C69_dot_int32_wraps_false`); `add` of
  `int32_t` -1 and `uint32_t` 0 into `int64_t` is 4294967295 (`C69_add_mixed_signs_false`); the integer
  solve of `2 v = 3` gives 1 (`C69_trsv_fraction_false`).
* **C79** On an asynchronous execution space the triangular matrix-matrix products with an implicit unit
  diagonal return before their kernels have run: `trmm_left` and `trmm_right` have no fence
  (`C79_trmm_false`); so do the calls that only forward to KokkosBlas, whose functions are not blocking
  (`C79_scale_false`, `C79_library_returns_early`), unlike `copy`, which fences.  `matrix_frob_norm` of a 1×1
  matrix and `matrix_product` for other accessors read memory on the host without waiting for earlier calls
  with the same policy (`C79_frob_norm_false`).
* The headers of the Kokkos backend are written for an older `mdspan`: all of them name
  `std::experimental::extents<ext_x>` and `extents<>::size_type`, while the native headers of the same
  commit use `extents<SizeType, ext_x>`, whose first template parameter is a type.  With one `mdspan` for
  both they do not compile together.  The theorems about the backend (C48-C50, C52, C53, C63, C65-C67)
  are about its functions as they are written, read against the older interface.

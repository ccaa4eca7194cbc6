/-
Execution-policy dispatch.

Every algorithm `f` has three overloads:
  * `f(inline_exec_t, args...)`: the native loops (modelled in `Verif.Model.Blas*`);
  * `f(exec, args...)` for any other policy: asks a trait `is_custom_f_avail`
    whether a call with the mapped policy compiles, then either makes a call with
    the mapped policy or calls the inline overload;
  * `f(args...)`: calls `f(default_exec_t{}, args...)`.

This file models the second and third kind.  A *call* is a name together with
the list of the formal parameters it passes, so that the table below records
for each overload which call its trait tests and which call it makes, with the
arguments in the order of the source.

Simplified: overload resolution between a backend's function and the library's
generic one always prefers the backend's (it is more specialised in its policy
parameter).  Only compile-time failures of two kinds are modelled: the
`static_assert` of `map_execpolicy_with_check`, and a call to a name for which
no function is declared.  `vector_idx_abs_max` with a policy returns
`numeric_limits<SizeType>::max()` on an empty vector before it dispatches
(blas1_vector_idx_abs_max.hpp:141-143), as the native one does; that shortcut
is not in the table.
-/
namespace StdBLAS.Dispatch

/-- Formal parameters of the algorithms, by the names used in the sources. -/
inductive Param
  | alpha | init | c | s | v1 | v2 | x | y | z | b | A | B | C | E | X | t | d | side | divide
  deriving DecidableEq, Repr

/-- The functions a call can name: first the library's policy overloads (one
constructor per overload), then the names that only a backend declares. -/
inductive Fn
  -- blas1
  | dot | applyGivensReal | applyGivensComplex | add | copy | swapElements
  | matrixFrobNorm | matrixInfNorm | matrixOneNorm | scale | vectorAbsSum
  | vectorIdxAbsMax | vectorTwoNorm | vectorSumOfSquares
  -- blas2
  | matrixRank1Update | symRank1UpdateAlpha | symRank1Update
  | hermRank1UpdateAlpha | hermRank1Update | symRank2Update | hermRank2Update
  | matVec | matVecUpdate | symMatVec | symMatVecUpdate | hermMatVec | hermMatVecUpdate
  | triMatVec | triMatVecUpdate | triMatVecInPlace
  | triMatVecSolve | triMatVecSolveDivide
  -- blas3
  | matProd | matProdUpdate | triMatProdLeft | triMatProdRight
  | triMatLeftInPlace | triMatRightInPlace
  | symMatProdLeft | symMatProdRight | symMatProdLeftUpdate | symMatProdRightUpdate
  | hermMatProdLeft | hermMatProdRight | hermMatProdLeftUpdate | hermMatProdRightUpdate
  | symRank2kUpdate | hermRank2kUpdate
  | symRankkUpdateAlpha | symRankkUpdate | hermRankkUpdateAlpha | hermRankkUpdate
  | triMatMatLeftSolve | triMatMatRightSolve | triMatMatSolve
  -- names the library calls or tests but does not declare with these arguments
  | beTriMatLeftProd | beTriMatRightProd
  | beSymLeftProd | beSymRightProd | beSymLeftProdUpdate | beSymRightProdUpdate
  | beHermLeftProd | beHermRightProd | beHermLeftProdUpdate | beHermRightProdUpdate
  | beTriMatMatRightSolveSide
  deriving DecidableEq, Repr

/-- A call: a function and the parameters passed to it after the policy. -/
structure Call where
  fn : Fn
  args : List Param
  deriving DecidableEq, Repr

/-- One policy overload. -/
structure Entry where
  /-- formal parameters after the policy -/
  params : List Param
  /-- the call the trait tests with the mapped policy; `none` if the trait is
  never true or the overload does not consult one -/
  tested : Option Call
  /-- the call made with the mapped policy when the trait holds -/
  custom : Call
  /-- the call made with `inline_exec_t` otherwise -/
  native : Call
  /-- maps the policy with `map_execpolicy_with_check` (otherwise plain
  `execpolicy_mapper`, or not at all) -/
  checked : Bool := true
  deriving Repr

/-- Overloads that test and make the call they were made with. -/
def Entry.same (f : Fn) (ps : List Param) (checked : Bool := true) : Entry :=
  { params := ps, tested := some ⟨f, ps⟩, custom := ⟨f, ps⟩, native := ⟨f, ps⟩, checked }

open Param in
/-- The policy overload of each function; `none` for names that the library
does not declare.  Paths are relative to include/experimental/__p1673_bits. -/
def overload : Fn → Option Entry
  -- blas1_dot.hpp:122-141
  | .dot => some (.same .dot [v1, v2, init])
  -- blas1_givens.hpp:424-441
  | .applyGivensReal => some (.same .applyGivensReal [x, y, c, s])
  -- blas1_givens.hpp:520-536
  | .applyGivensComplex => some (.same .applyGivensComplex [x, y, c, s])
  -- blas1_linalg_add.hpp:220-237
  | .add => some (.same .add [x, y, z])
  -- blas1_linalg_copy.hpp:170-184
  | .copy => some (.same .copy [x, y])
  -- blas1_linalg_swap.hpp:177-191
  | .swapElements => some (.same .swapElements [x, y])
  -- blas1_matrix_frob_norm.hpp:137-151
  | .matrixFrobNorm => some (.same .matrixFrobNorm [A, init])
  -- blas1_matrix_inf_norm.hpp:127-141
  | .matrixInfNorm => some (.same .matrixInfNorm [A, init])
  -- blas1_matrix_one_norm.hpp:130-145
  | .matrixOneNorm => some (.same .matrixOneNorm [A, init])
  -- blas1_scale.hpp:134-149
  | .scale => some (.same .scale [alpha, x])
  -- blas1_vector_abs_sum.hpp:117-131
  | .vectorAbsSum => some (.same .vectorAbsSum [x, init])
  -- blas1_vector_idx_abs_max.hpp:138-155
  | .vectorIdxAbsMax => some (.same .vectorIdxAbsMax [x])
  -- blas1_vector_norm2.hpp:109-123
  | .vectorTwoNorm => some (.same .vectorTwoNorm [x, init])
  -- blas1_vector_sum_of_squares.hpp:136-150
  | .vectorSumOfSquares => some (.same .vectorSumOfSquares [x, init])
  -- blas2_matrix_rank_1_update.hpp:207-222
  | .matrixRank1Update => some (.same .matrixRank1Update [x, y, A])
  -- blas2_matrix_rank_1_update.hpp:358-374, mapper not checked
  | .symRank1UpdateAlpha => some (.same .symRank1UpdateAlpha [alpha, x, A, t] false)
  -- blas2_matrix_rank_1_update.hpp:464-479
  | .symRank1Update => some (.same .symRank1Update [x, A, t])
  -- blas2_matrix_rank_1_update.hpp:573-589, mapper not checked
  | .hermRank1UpdateAlpha => some (.same .hermRank1UpdateAlpha [alpha, x, A, t] false)
  -- blas2_matrix_rank_1_update.hpp:681-696
  | .hermRank1Update => some (.same .hermRank1Update [x, A, t])
  -- blas2_matrix_rank_2_update.hpp:149-165
  | .symRank2Update => some (.same .symRank2Update [x, y, A, t])
  -- blas2_matrix_rank_2_update.hpp:242-258
  | .hermRank2Update => some (.same .hermRank2Update [x, y, A, t])
  -- blas2_matrix_vector_product.hpp:328-341
  | .matVec => some (.same .matVec [A, x, y])
  -- blas2_matrix_vector_product.hpp:454-469
  | .matVecUpdate => some (.same .matVecUpdate [A, x, y, z])
  -- blas2_matrix_vector_product.hpp:576-590
  | .symMatVec => some (.same .symMatVec [A, t, x, y])
  -- blas2_matrix_vector_product.hpp:703-718
  | .symMatVecUpdate => some (.same .symMatVecUpdate [A, t, x, y, z])
  -- blas2_matrix_vector_product.hpp:832-846
  | .hermMatVec => some (.same .hermMatVec [A, t, x, y])
  -- blas2_matrix_vector_product.hpp:963-978
  | .hermMatVecUpdate => some (.same .hermMatVecUpdate [A, t, x, y, z])
  -- blas2_matrix_vector_product.hpp:1096-1116
  | .triMatVec => some (.same .triMatVec [A, t, d, x, y])
  -- blas2_matrix_vector_product.hpp:1245-1263
  | .triMatVecUpdate => some (.same .triMatVecUpdate [A, t, d, x, y, z])
  -- blas2_matrix_vector_product.hpp:1372-1388, mapper not checked
  | .triMatVecInPlace => some (.same .triMatVecInPlace [A, t, d, y] false)
  -- blas2_matrix_vector_solve.hpp:339-358
  | .triMatVecSolve => some (.same .triMatVecSolve [A, t, d, b, x])
  -- blas2_matrix_vector_solve.hpp:308-320: always inline, no mapping
  | .triMatVecSolveDivide => some
      { params := [A, t, d, b, x, divide]
        tested := none
        custom := ⟨.triMatVecSolveDivide, [A, t, d, b, x, divide]⟩
        native := ⟨.triMatVecSolveDivide, [A, t, d, b, x, divide]⟩
        checked := false }
  -- blas3_matrix_product.hpp:748-761.  The trait (2101-2116) also demands that
  -- the result type of the call differ from that of `linalg::matrix_product`;
  -- both are `void`, so it never holds.
  | .matProd => some
      { params := [A, B, C]
        tested := none
        custom := ⟨.matProd, [A, B, C]⟩
        native := ⟨.matProd, [A, B, C]⟩ }
  -- blas3_matrix_product.hpp:839-854
  | .matProdUpdate => some (.same .matProdUpdate [A, B, E, C])
  -- blas3_matrix_product.hpp:956-971
  | .triMatProdLeft => some
      { params := [A, t, d, B, C]
        tested := some ⟨.triMatProdLeft, [A, t, d, B, C]⟩
        custom := ⟨.beTriMatLeftProd, [A, t, d, B, C]⟩
        native := ⟨.triMatProdLeft, [A, t, d, B, C]⟩ }
  -- blas3_matrix_product.hpp:1070-1086
  | .triMatProdRight => some
      { params := [B, A, t, d, C]
        tested := some ⟨.triMatProdRight, [B, A, t, d, C]⟩
        custom := ⟨.beTriMatRightProd, [A, t, d, B, C]⟩
        native := ⟨.triMatProdRight, [B, A, t, d, C]⟩ }
  -- blas3_matrix_product.hpp:1174-1188
  | .triMatLeftInPlace => some (.same .triMatLeftInPlace [A, t, d, C])
  -- blas3_matrix_product.hpp:1272-1286
  | .triMatRightInPlace => some (.same .triMatRightInPlace [A, t, d, C])
  -- blas3_matrix_product.hpp:1371-1386
  | .symMatProdLeft => some
      { params := [A, t, B, C]
        tested := some ⟨.symMatProdLeft, [A, t, B, C]⟩
        custom := ⟨.beSymLeftProd, [A, t, B, C]⟩
        native := ⟨.symMatProdLeft, [A, t, B, C]⟩ }
  -- blas3_matrix_product.hpp:1474-1489
  | .symMatProdRight => some
      { params := [B, A, t, C]
        tested := some ⟨.symMatProdRight, [B, A, t, C]⟩
        custom := ⟨.beSymRightProd, [A, t, B, C]⟩
        native := ⟨.symMatProdRight, [B, A, t, C]⟩ }
  -- blas3_matrix_product.hpp:1563-1578
  | .symMatProdLeftUpdate => some
      { params := [A, t, B, E, C]
        tested := some ⟨.symMatProdLeftUpdate, [A, t, B, E, C]⟩
        custom := ⟨.beSymLeftProdUpdate, [A, t, B, E, C]⟩
        native := ⟨.symMatProdLeftUpdate, [A, t, B, E, C]⟩ }
  -- blas3_matrix_product.hpp:1657-1672
  | .symMatProdRightUpdate => some
      { params := [B, A, t, E, C]
        tested := some ⟨.symMatProdRightUpdate, [B, A, t, E, C]⟩
        custom := ⟨.beSymRightProdUpdate, [A, t, B, E, C]⟩
        native := ⟨.symMatProdRightUpdate, [B, A, t, E, C]⟩ }
  -- blas3_matrix_product.hpp:1771-1786
  | .hermMatProdLeft => some
      { params := [A, t, B, C]
        tested := some ⟨.hermMatProdLeft, [A, t, B, C]⟩
        custom := ⟨.beHermLeftProd, [A, t, B, C]⟩
        native := ⟨.hermMatProdLeft, [A, t, B, C]⟩ }
  -- blas3_matrix_product.hpp:1873-1888
  | .hermMatProdRight => some
      { params := [B, A, t, C]
        tested := some ⟨.hermMatProdRight, [B, A, t, C]⟩
        custom := ⟨.beHermRightProd, [A, t, B, C]⟩
        native := ⟨.hermMatProdRight, [B, A, t, C]⟩ }
  -- blas3_matrix_product.hpp:1962-1977
  | .hermMatProdLeftUpdate => some
      { params := [A, t, B, E, C]
        tested := some ⟨.hermMatProdLeftUpdate, [A, t, B, E, C]⟩
        custom := ⟨.beHermLeftProdUpdate, [A, t, B, E, C]⟩
        native := ⟨.hermMatProdLeftUpdate, [A, t, B, E, C]⟩ }
  -- blas3_matrix_product.hpp:2056-2071
  | .hermMatProdRightUpdate => some
      { params := [B, A, t, E, C]
        tested := some ⟨.hermMatProdRightUpdate, [B, A, t, E, C]⟩
        custom := ⟨.beHermRightProdUpdate, [A, t, B, E, C]⟩
        native := ⟨.hermMatProdRightUpdate, [B, A, t, E, C]⟩ }
  -- blas3_matrix_rank_2k_update.hpp:145-160
  | .symRank2kUpdate => some (.same .symRank2kUpdate [A, B, C, t])
  -- blas3_matrix_rank_2k_update.hpp:238-253
  | .hermRank2kUpdate => some (.same .hermRank2kUpdate [A, B, C, t])
  -- blas3_matrix_rank_k_update.hpp:184-200
  | .symRankkUpdateAlpha => some (.same .symRankkUpdateAlpha [alpha, A, C, t])
  -- blas3_matrix_rank_k_update.hpp:283-298
  | .symRankkUpdate => some (.same .symRankkUpdate [A, C, t])
  -- blas3_matrix_rank_k_update.hpp:386-402
  | .hermRankkUpdateAlpha => some (.same .hermRankkUpdateAlpha [alpha, A, C, t])
  -- blas3_matrix_rank_k_update.hpp:488-503
  | .hermRankkUpdate => some (.same .hermRankkUpdate [A, C, t])
  -- blas3_triangular_matrix_matrix_solve.hpp:314-332
  | .triMatMatLeftSolve => some (.same .triMatMatLeftSolve [A, t, d, B, X])
  -- blas3_triangular_matrix_matrix_solve.hpp:383-401
  | .triMatMatRightSolve => some (.same .triMatMatRightSolve [A, t, d, B, X])
  -- blas3_triangular_matrix_matrix_solve.hpp:455-475, trait at 250-271
  | .triMatMatSolve => some
      { params := [A, t, d, side, B, X]
        tested := some ⟨.beTriMatMatRightSolveSide, [A, t, d, side, B, X]⟩
        custom := ⟨.triMatMatSolve, [A, t, d, side, B, X]⟩
        native := ⟨.triMatMatSolve, [A, t, d, side, B, X]⟩ }
  | _ => none

/-- What a program supplies to the dispatch: its policy types, the policy
mapper (linalg_execpolicy_mapper.hpp:67-72 and the user's overloads of
`execpolicy_mapper`), the backends, and the types of its arguments (as the
Boolean answers of the two lookups). -/
structure World (P V R : Type) where
  /-- `impl::inline_exec_t` -/
  inl : P
  /-- `impl::default_exec_t` -/
  dflt : P
  /-- `execpolicy_mapper` -/
  mapper : P → P
  /-- a backend declares this function for this policy and these arguments -/
  has : P → Fn → List V → Bool
  /-- argument-dependent lookup finds the library's own policy overload of this
  function, and it is viable for this policy and these arguments -/
  finds : P → Fn → List V → Bool
  /-- what the backend's function does -/
  backend : P → Fn → List V → R
  /-- what the inline overload does -/
  inline : Fn → List V → R

/-- Ways in which a program with a policy call can fail to compile. -/
inductive Ill
  /-- the `static_assert` of `map_execpolicy_with_check` -/
  | staticAssert
  /-- no function with this name and these arguments -/
  | noFunction (f : Fn)
  /-- unbounded template instantiation -/
  | endless
  deriving DecidableEq, Repr

/-- The value bound to a parameter. -/
def bind1 {V : Type} (ps : List Param) (vs : List V) (p : Param) : Option V :=
  (ps.zip vs).lookup p

/-- The values passed by a call made inside the overload with formal parameters
`ps` bound to `vs`. -/
def bindArgs {V : Type} (ps : List Param) (vs : List V) (c : Call) : List V :=
  c.args.filterMap (bind1 ps vs)

variable {P V R : Type} [DecidableEq P]

/-- `is_custom_..._avail<decltype(mapped policy), decltype(args)...>::value`,
for example blas1_dot.hpp:66-86: false for `inline_exec_t`, otherwise whether
the tested call compiles. -/
def World.avail (W : World P V R) (e : Entry) (m : P) (vs : List V) : Bool :=
  match e.tested with
  | none => false
  | some c =>
    let as := bindArgs e.params vs c
    m ≠ W.inl && (W.has m c.fn as || ((overload c.fn).isSome && W.finds m c.fn as))

/-- The policy overload of `f` called with policy `p` and arguments `vs`;
`fuel` bounds the depth of template instantiation.  One unfolding is the body
of the overload, for example blas1_dot.hpp:122-141.  A policy of type
`inline_exec_t` selects the inline overload. -/
def World.call (W : World P V R) : Nat → P → Fn → List V → Except Ill R
  | 0, _, _, _ => .error .endless
  | fuel + 1, p, f, vs =>
    match overload f with
    | none => .error (.noFunction f)
    | some e =>
      if p = W.inl then .ok (W.inline f vs)
      else
        let m := W.mapper p
        if e.checked && m = p then .error .staticAssert
        else if W.avail e m vs then
          let as := bindArgs e.params vs e.custom
          if W.has m e.custom.fn as then .ok (W.backend m e.custom.fn as)
          else W.call fuel m e.custom.fn as
        else .ok (W.inline e.native.fn (bindArgs e.params vs e.native))

/-- The overload without policy: `f(default_exec_t{}, args...)`, for example
blas1_dot.hpp:144-156. -/
def World.callDefault (W : World P V R) (fuel : Nat) (f : Fn) (vs : List V) : Except Ill R :=
  W.call fuel W.dflt f vs

end StdBLAS.Dispatch

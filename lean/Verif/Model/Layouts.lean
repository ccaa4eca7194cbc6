import Verif.Core.Mdspan

/-!
# Layout mappings and `transposed`

Rank-2 layout mappings as values.  `layout_left`, `layout_right`, `layout_stride` and the
padded layouts belong to mdspan (not in `/repo`): they are modelled from the C++ standard
(`[mdspan.layout]`).  `layout_transpose`, `layout_blas_general` and `transposed_layout` are
modelled from `/repo`.

Simplifications: `index_type` is unbounded (`Nat`); `layout_blas_packed` is not modelled
(`layout_triangle.hpp:104-105` only declares it, `packed_layout.hpp` is disabled by `#if 0`).
-/

namespace StdBLAS

/-- `extents<index_type, static0, static1>`: static extents (`none` is `dynamic_extent`) and
the values of the dynamic ones, in order. -/
structure Exts where
  /-- `static_extent(0)` -/
  static0 : Option Nat
  /-- `static_extent(1)` -/
  static1 : Option Nat
  /-- values of the dynamic extents -/
  dyn : List Nat

namespace Exts

/-- `extent(0)`. -/
def e0 (e : Exts) : Nat := e.static0.getD (e.dyn.getD 0 0)

/-- `extent(1)`: its value comes after that of `extent(0)` if the latter is dynamic. -/
def e1 (e : Exts) : Nat := e.static1.getD (e.dyn.getD (if e.static0.isNone then 1 else 0) 0)

/-- The constructor takes one value for each dynamic extent. -/
def WF (e : Exts) : Prop :=
  e.dyn.length = (if e.static0.isNone then 1 else 0) + (if e.static1.isNone then 1 else 0)

/-- Two dynamic extents. -/
def of (m n : Nat) : Exts := ⟨none, none, [m, n]⟩

/-- `transposed.hpp:60-95` `transpose_extents_t` (static extents swapped) and
`transpose_extents` (83-94, the four cases in the order of the source). -/
def transpose (e : Exts) : Exts :=
  match e.static0, e.static1 with
  | none, none => ⟨e.static1, e.static0, [e.e1, e.e0]⟩
  | none, some _ => ⟨e.static1, e.static0, [e.e0]⟩
  | some _, none => ⟨e.static1, e.static0, [e.e1]⟩
  | some _, some _ => ⟨e.static1, e.static0, []⟩

end Exts

/-- `layout_tags.hpp:56-59` `column_major_t`, `row_major_t`. -/
inductive StorageOrder where
  | columnMajor
  | rowMajor
  deriving DecidableEq, Repr

/-- `transposed.hpp:317-321` `opposite_storage_t`. -/
def StorageOrder.opposite : StorageOrder → StorageOrder
  | .columnMajor => .rowMajor
  | .rowMajor => .columnMajor

/-- LEAST-MULTIPLE-AT-LEAST of `[mdspan.layout.leftpad.expo]`: the least multiple of `x` that
is at least `y`, and `y` if `x` is 0. -/
def leastMultiple (x y : Nat) : Nat := if x = 0 then y else (y + (x - 1)) / x * x

/-- A rank-2 layout mapping object. -/
inductive Layout where
  /-- `layout_left::mapping` -/
  | left (e : Exts)
  /-- `layout_right::mapping` -/
  | right (e : Exts)
  /-- `layout_stride::mapping` with strides `s0`, `s1` -/
  | stride (e : Exts) (s0 s1 : Nat)
  /-- `layout_left_padded<PaddingValue>::mapping` (`none` is `dynamic_extent`) whose
  `stride(1)` is `s` -/
  | leftPadded (pv : Option Nat) (e : Exts) (s : Nat)
  /-- `layout_right_padded<PaddingValue>::mapping` whose `stride(0)` is `s` -/
  | rightPadded (pv : Option Nat) (e : Exts) (s : Nat)
  /-- `layout_blas_general.hpp:55-61` `__layout_blas_impl` with `__lda`.  Simplification: the
  base layout is taken to be the layout_left/layout_right mapping of the extents; in the
  source it is the layout itself (191-201), which has no extents, so the class cannot be
  instantiated as it stands. -/
  | blasGeneral (o : StorageOrder) (e : Exts) (lda : Nat)
  /-- `transposed.hpp:98-186` `layout_transpose<Layout>::mapping` around a nested mapping -/
  | transpose (nested : Layout)
  /-- a user-defined mapping: any offsets, strides and span -/
  | user (e : Exts) (offset : Nat → Nat → Nat) (stride : Nat → Nat) (span : Nat)

namespace Layout

/-- `mapping.extents()`; for `layout_transpose`, `transposed.hpp:113-121`; for
`layout_blas_general`, `layout_blas_general.hpp:152`. -/
def exts : Layout → Exts
  | left e => e
  | right e => e
  | stride e _ _ => e
  | leftPadded _ e _ => e
  | rightPadded _ e _ => e
  | blasGeneral _ e _ => e
  | transpose n => n.exts.transpose
  | user e _ _ _ => e

/-- `extents().extent(0)`. -/
def ext0 (L : Layout) : Nat := L.exts.e0
/-- `extents().extent(1)`. -/
def ext1 (L : Layout) : Nat := L.exts.e1

/-- `mapping(i, j)`; `layout_transpose`: `transposed.hpp:131-138` calls `nested(j, i)`;
`layout_blas_general`: `layout_blas_general.hpp:138-142`. -/
def offset : Layout → Nat → Nat → Nat
  | left e, i, j => i + j * e.e0
  | right e, i, j => i * e.e1 + j
  | stride _ s0 s1, i, j => i * s0 + j * s1
  | leftPadded _ _ s, i, j => i + j * s
  | rightPadded _ _ s, i, j => i * s + j
  | blasGeneral .columnMajor e lda, i, j => lda * (i + j * e.e0)
  | blasGeneral .rowMajor e lda, i, j => lda * (i * e.e1 + j)
  | transpose n, i, j => n.offset j i
  | user _ f _ _, i, j => f i j

/-- `mapping.stride(r)`; `layout_transpose`: `transposed.hpp:168-173`;
`layout_blas_general`: `layout_blas_general.hpp:159-162`. -/
def strideOf : Layout → Nat → Nat
  | left e, r => if r = 0 then 1 else e.e0
  | right e, r => if r = 0 then e.e1 else 1
  | stride _ s0 s1, r => if r = 0 then s0 else s1
  | leftPadded _ _ s, r => if r = 0 then 1 else s
  | rightPadded _ _ s, r => if r = 0 then s else 1
  | blasGeneral .columnMajor e lda, r => (if r = 0 then 1 else e.e0) * lda
  | blasGeneral .rowMajor e lda, r => (if r = 0 then e.e1 else 1) * lda
  | transpose n, r => n.strideOf (if r = 0 then 1 else 0)
  | user _ _ g _, r => g r

/-- Span of a strided mapping (`[mdspan.layout.stride.expo]` REQUIRED-SPAN-SIZE): 0 if there is
no element, else one more than the largest offset. -/
def stridedSpan (e : Exts) (s0 s1 : Nat) : Nat :=
  if e.e0 = 0 ∨ e.e1 = 0 then 0 else 1 + (e.e0 - 1) * s0 + (e.e1 - 1) * s1

/-- `mapping.required_span_size()`; `layout_transpose`: `transposed.hpp:124-129`;
`layout_blas_general`: `layout_blas_general.hpp:154-157`. -/
def span : Layout → Nat
  | left e => e.e0 * e.e1
  | right e => e.e0 * e.e1
  | stride e s0 s1 => stridedSpan e s0 s1
  | leftPadded _ e s => stridedSpan e 1 s
  | rightPadded _ e s => stridedSpan e s 1
  | blasGeneral _ e lda => (e.e0 * e.e1) * lda
  | transpose n => n.span
  | user _ _ _ w => w

/-- `mapping.is_unique()`; `layout_blas_general`: `layout_blas_general.hpp:144` answers `true`
always; `layout_transpose`: `transposed.hpp:155-158`; standard layouts: `true`.  For a
user-defined mapping any answer is possible; not modelled (`true`). -/
def isUnique : Layout → Bool
  | transpose n => n.isUnique
  | _ => true

/-- The rank-2 mdspan with this mapping and data handle `p` (`default_accessor`). -/
def mat (L : Layout) (p : Nat) : Mat := ⟨L.ext0, L.ext1, fun i j => p + L.offset i j⟩

end Layout

/-- Why `transposed(a)` gives no view. -/
inductive NoTranspose where
  /-- the call does not compile -/
  | illFormed
  /-- a precondition of a mapping constructor of mdspan is violated -/
  | precondition
  deriving DecidableEq, Repr

/-- Constructor `layout_left_padded<PaddingValue>::mapping(ext, pad)` of mdspan
(`[mdspan.layout.leftpad.cons]`): precondition `pad > 0`, and `PaddingValue == pad` if
`PaddingValue` is not `dynamic_extent`; `stride(1)` becomes the least multiple of `pad` that is
at least `extent(0)`. -/
def mkLeftPadded (pv : Option Nat) (e : Exts) (pad : Nat) : Except NoTranspose Layout :=
  if 0 < pad ∧ (pv = none ∨ pv = some pad) then .ok (.leftPadded pv e (leastMultiple pad e.e0))
  else .error .precondition

/-- Constructor `layout_right_padded<PaddingValue>::mapping(ext, pad)` of mdspan
(`[mdspan.layout.rightpad.cons]`). -/
def mkRightPadded (pv : Option Nat) (e : Exts) (pad : Nat) : Except NoTranspose Layout :=
  if 0 < pad ∧ (pv = none ∨ pv = some pad) then .ok (.rightPadded pv e (leastMultiple pad e.e1))
  else .error .precondition

/-- `transposed.hpp:207-362` `transposed_layout<Layout>::mapping(orig_map)`.
`fix`: whether `LINALG_FIX_TRANSPOSED_FOR_PADDED_LAYOUTS` is defined (273-315); if not, the
padded layouts fall under the generic case.
* generic 207-219: `layout_transpose` of the original mapping;
* `layout_left` 222-232, `layout_right` 235-245: the other one, extents transposed;
* `layout_stride` 248-271: strides `stride(1), stride(0)`;
* padded 274-314: the other padded layout, constructed with `stride(1)` / `stride(0)`;
* `layout_blas_general` 324-336: opposite order, constructed with `whichStride` as leading
  dimension (constructor `layout_blas_general.hpp:89-95`);
* `layout_transpose<Nested>` 359-362: declares `layout_type` but no `mapping` function, so
  that the call at 372 does not compile. -/
def Layout.transposed (fix : Bool) : Layout → Except NoTranspose Layout
  | .left e => .ok (.right e.transpose)
  | .right e => .ok (.left e.transpose)
  | .stride e s0 s1 =>
    .ok (.stride e.transpose ((Layout.stride e s0 s1).strideOf 1) ((Layout.stride e s0 s1).strideOf 0))
  | .leftPadded pv e s =>
    if fix then mkRightPadded pv e.transpose ((Layout.leftPadded pv e s).strideOf 1)
    else .ok (.transpose (.leftPadded pv e s))
  | .rightPadded pv e s =>
    if fix then mkLeftPadded pv e.transpose ((Layout.rightPadded pv e s).strideOf 0)
    else .ok (.transpose (.rightPadded pv e s))
  | .blasGeneral o e lda =>
    let whichStride := if o = .columnMajor then (Layout.blasGeneral o e lda).strideOf 1
      else (Layout.blasGeneral o e lda).strideOf 0
    .ok (.blasGeneral o.opposite e.transpose whichStride)
  | .transpose _ => .error .illFormed
  | .user e f g w => .ok (.transpose (.user e f g w))

/-- Rank-1 layout mappings (`layout_left` and `layout_right` coincide). -/
inductive Layout1 where
  /-- `layout_left`/`layout_right` of rank 1 with `extent(0) = n` -/
  | contiguous (n : Nat)
  /-- `layout_stride` of rank 1 -/
  | stride (n s : Nat)

/-- The rank-1 mdspan with this mapping and data handle `p`. -/
def Layout1.vec (p : Nat) : Layout1 → Vec
  | .contiguous n => ⟨n, fun i => p + i⟩
  | .stride n s => ⟨n, fun i => p + i * s⟩

/-- `required_span_size()` of a rank-1 mapping. -/
def Layout1.span : Layout1 → Nat
  | .contiguous n => n
  | .stride n s => if n = 0 then 0 else 1 + (n - 1) * s

end StdBLAS

import Verif.Lemmas.Layouts
import Verif.Model.Views

/-!
# Layouts: C38, C39, C40, C43
-/

namespace StdBLAS

/-! ## Specification -/

/-- `M` is a mapping for the transpose of what `L` maps: extents swapped, same span, and for
every in-range `(i, j)` of `M` the offset that `L` gives to `(j, i)`. -/
structure IsTransposeOf (M L : Layout) : Prop where
  ext0 : M.ext0 = L.ext1
  ext1 : M.ext1 = L.ext0
  span : M.span = L.span
  offset : ∀ i j, i < M.ext0 → j < M.ext1 → M.offset i j = L.offset j i

/-- Two mappings agree: same extents, same span, same offset for every in-range index. -/
structure SameCells (M L : Layout) : Prop where
  ext0 : M.ext0 = L.ext0
  ext1 : M.ext1 = L.ext1
  span : M.span = L.span
  offset : ∀ i j, i < L.ext0 → j < L.ext1 → M.offset i j = L.offset i j

/-- The view that `transposed` builds on a data handle has the cells of the transposed view,
i.e. of `Mat.transposed` (`Model/Views.lean`), which the algorithms' theorems use. -/
theorem IsTransposeOf.mat {M L : Layout} (h : IsTransposeOf M L) (p : Nat) :
    (M.mat p).rows = (L.mat p).transposed.rows ∧ (M.mat p).cols = (L.mat p).transposed.cols ∧
    ∀ i j, i < (M.mat p).rows → j < (M.mat p).cols →
      (M.mat p).addr i j = (L.mat p).transposed.addr i j := by
  refine ⟨h.ext0, h.ext1, fun i j hi hj => ?_⟩
  simp only [Layout.mat, Mat.transposed]
  rw [h.offset i j hi hj]

/-! ## C38 -/

/-- **C38** (layouts of the standard, and user-defined ones).  For `layout_left`,
`layout_right`, `layout_stride` and any user-defined layout, whatever the extents (static or
dynamic) and strides, `transposed` gives a mapping of the transpose.  The padded layouts are
included when the library is built in its default configuration. -/
theorem C38_transposed (L : Layout)
    (hL : (∃ e, L = .left e) ∨ (∃ e, L = .right e) ∨ (∃ e s0 s1, L = .stride e s0 s1) ∨
      (∃ e f g w, L = .user e f g w) ∨ (∃ pv e s, L = .leftPadded pv e s) ∨
      ∃ pv e s, L = .rightPadded pv e s) :
    ∃ M, L.transposed false = .ok M ∧ IsTransposeOf M L ∧
      ∀ r, r < 2 → M.strideOf r = L.strideOf (1 - r) := by
  have hr : ∀ r, r < 2 → r = 0 ∨ r = 1 := by omega
  rcases hL with ⟨e, rfl⟩ | ⟨e, rfl⟩ | ⟨e, s0, s1, rfl⟩ | ⟨e, f, g, w, rfl⟩ | ⟨pv, e, s, rfl⟩ |
    ⟨pv, e, s, rfl⟩
  all_goals refine ⟨_, rfl, ⟨Exts.e0_transpose, Exts.e1_transpose, ?_, fun i j _ _ => ?_⟩,
    fun r h => ?_⟩
  all_goals first
    | rfl
    | (rcases hr r h with rfl | rfl <;>
        simp [Layout.strideOf, Exts.e0_transpose, Exts.e1_transpose])
    | (simp [Layout.span, Layout.offset, Layout.strideOf, Exts.e0_transpose, Exts.e1_transpose,
        stridedSpan_transpose, Nat.mul_comm, Nat.add_comm])

/-- The configuration macro matters for the padded layouts only. -/
theorem transposed_config (L : Layout) (h1 : ∀ pv e s, L ≠ .leftPadded pv e s)
    (h2 : ∀ pv e s, L ≠ .rightPadded pv e s) : L.transposed true = L.transposed false := by
  cases L <;> first | rfl | exact absurd rfl (h1 _ _ _) | exact absurd rfl (h2 _ _ _)

/-- **C38** (padded layouts, `LINALG_FIX_TRANSPOSED_FOR_PADDED_LAYOUTS` defined): correct for
dynamic padding and every stride that a padded mapping can have, except 0 (an empty
matrix), and for static padding if the stride is the padding value.  See below for the
other cases. -/
theorem C38_transposed_padded_partial (pv : Option Nat) (e : Exts) (s : Nat) (hs : 0 < s)
    (hpv : pv = none ∨ pv = some s) :
    (e.e0 ≤ s → ∃ M, (Layout.leftPadded pv e s).transposed true = .ok M ∧
      IsTransposeOf M (.leftPadded pv e s)) ∧
    (e.e1 ≤ s → ∃ M, (Layout.rightPadded pv e s).transposed true = .ok M ∧
      IsTransposeOf M (.rightPadded pv e s)) := by
  constructor
  · intro h
    refine ⟨.rightPadded pv e.transpose (leastMultiple s e.e0), ?_, Exts.e0_transpose,
      Exts.e1_transpose, ?_, fun i j _ hj => ?_⟩
    · simp [Layout.transposed, mkRightPadded, Layout.strideOf, hs, hpv, Exts.e1_transpose]
    · rcases Nat.eq_zero_or_pos e.e0 with h0 | h0
      · simp [Layout.span, Layout.stridedSpan, Exts.e0_transpose, Exts.e1_transpose, h0]
      · rw [leastMultiple_self h0 h]; exact stridedSpan_transpose
    · have h0 : 0 < e.e0 := by
        have : j < e.transpose.e1 := hj
        rw [Exts.e1_transpose] at this; omega
      rw [leastMultiple_self h0 h]
      exact Nat.add_comm _ _
  · intro h
    refine ⟨.leftPadded pv e.transpose (leastMultiple s e.e1), ?_, Exts.e0_transpose,
      Exts.e1_transpose, ?_, fun i j hi _ => ?_⟩
    · simp [Layout.transposed, mkLeftPadded, Layout.strideOf, hs, hpv, Exts.e0_transpose]
    · rcases Nat.eq_zero_or_pos e.e1 with h0 | h0
      · simp [Layout.span, Layout.stridedSpan, Exts.e0_transpose, Exts.e1_transpose, h0]
      · rw [leastMultiple_self h0 h]; exact stridedSpan_transpose
    · have h0 : 0 < e.e1 := by
        have : i < e.transpose.e0 := hi
        rw [Exts.e0_transpose] at this; omega
      rw [leastMultiple_self h0 h]
      exact Nat.add_comm _ _

/-- **C38 is false** with `LINALG_FIX_TRANSPOSED_FOR_PADDED_LAYOUTS` and a static padding
value: the stride is passed where the padding value is required, and a
`layout_left_padded<4>` matrix with 6 rows has stride 8.  Whenever the stride differs from the
static padding value a precondition of the mapping's constructor is violated. -/
theorem C38_transposed_padded_static_false :
    (∀ pv e s, pv ≠ s →
      (Layout.leftPadded (some pv) e s).transposed true = .error .precondition ∧
      (Layout.rightPadded (some pv) e s).transposed true = .error .precondition) ∧
    mkLeftPadded (some 4) (Exts.of 6 5) 4 = .ok (.leftPadded (some 4) (Exts.of 6 5) 8) ∧
    (Layout.leftPadded (some 4) (Exts.of 6 5) 8).transposed true = .error .precondition := by
  refine ⟨fun pv e s h => ⟨?_, ?_⟩, rfl, rfl⟩
  · simp [Layout.transposed, mkRightPadded, Layout.strideOf, h]
  · simp [Layout.transposed, mkLeftPadded, Layout.strideOf, h]

/-- **C38** (transposing twice) for `layout_left`, `layout_right` and `layout_stride`: the same
cells again. -/
theorem C38_transposed_twice (fix : Bool) (L : Layout)
    (hL : (∃ e, L = .left e) ∨ (∃ e, L = .right e) ∨ ∃ e s0 s1, L = .stride e s0 s1) :
    ∃ M N, L.transposed fix = .ok M ∧ M.transposed fix = .ok N ∧ SameCells N L := by
  have e0 : ∀ e : Exts, e.transpose.transpose.e0 = e.e0 := fun e => by
    rw [Exts.e0_transpose, Exts.e1_transpose]
  have e1 : ∀ e : Exts, e.transpose.transpose.e1 = e.e1 := fun e => by
    rw [Exts.e1_transpose, Exts.e0_transpose]
  rcases hL with ⟨e, rfl⟩ | ⟨e, rfl⟩ | ⟨e, s0, s1, rfl⟩
  · refine ⟨_, _, rfl, rfl, e0 e, e1 e, ?_, fun i j _ _ => ?_⟩ <;>
      simp [Layout.span, Layout.offset, e0, e1]
  · refine ⟨_, _, rfl, rfl, e0 e, e1 e, ?_, fun i j _ _ => ?_⟩ <;>
      simp [Layout.span, Layout.offset, e0, e1]
  · refine ⟨.stride e.transpose s1 s0, .stride e.transpose.transpose s0 s1, rfl, rfl, e0 e, e1 e,
      ?_, fun i j _ _ => rfl⟩
    simp only [Layout.span, Layout.stridedSpan, e0, e1]

/-- **C38** (transposing twice) for non-empty padded matrices with
`LINALG_FIX_TRANSPOSED_FOR_PADDED_LAYOUTS`. -/
theorem C38_transposed_twice_padded_partial (pv : Option Nat) (e : Exts) (s : Nat)
    (hpv : pv = none ∨ pv = some s) :
    (0 < e.e0 → e.e0 ≤ s →
      ((Layout.leftPadded pv e s).transposed true >>= Layout.transposed true) =
        .ok (.leftPadded pv e.transpose.transpose s)) ∧
    (0 < e.e1 → e.e1 ≤ s →
      ((Layout.rightPadded pv e s).transposed true >>= Layout.transposed true) =
        .ok (.rightPadded pv e.transpose.transpose s)) ∧
    e.transpose.transpose.e0 = e.e0 ∧ e.transpose.transpose.e1 = e.e1 := by
  refine ⟨fun h0 h => ?_, fun h0 h => ?_, ?_, ?_⟩
  · have hs : 0 < s := by omega
    simp [Layout.transposed, mkRightPadded, mkLeftPadded, Layout.strideOf, hs, hpv, bind,
      Except.bind, Exts.e1_transpose, Exts.e0_transpose, leastMultiple_self h0 h]
  · have hs : 0 < s := by omega
    simp [Layout.transposed, mkRightPadded, mkLeftPadded, Layout.strideOf, hs, hpv, bind,
      Except.bind, Exts.e1_transpose, Exts.e0_transpose, leastMultiple_self h0 h]
  · rw [Exts.e0_transpose, Exts.e1_transpose]
  · rw [Exts.e1_transpose, Exts.e0_transpose]

/-- **C38 is false** for transposing twice a view whose layout has no specialisation (any
user-defined layout; the padded layouts in the default configuration): the second call does
not compile. -/
theorem C38_transposed_twice_false (fix : Bool) (e : Exts) (f : Nat → Nat → Nat) (g : Nat → Nat)
    (w : Nat) (pv : Option Nat) (s : Nat) :
    ((Layout.user e f g w).transposed fix >>= Layout.transposed fix) = .error .illFormed ∧
    ((Layout.leftPadded pv e s).transposed false >>= Layout.transposed false) =
      .error .illFormed :=
  ⟨rfl, rfl⟩

/-- A 3×2 column-major matrix with static number of rows, transposed: cell (1,2) of the result
is cell (2,1) of the original, which lies at offset 5. -/
example : ∃ M, (Layout.left ⟨some 3, none, [2]⟩).transposed false = .ok M ∧
    M.ext0 = 2 ∧ M.ext1 = 3 ∧ M.offset 1 2 = 5 ∧
    (Layout.left ⟨some 3, none, [2]⟩).offset 2 1 = 5 := ⟨_, rfl, rfl, rfl, rfl, rfl⟩

/-- A user-defined layout (block layout with holes). -/
example : ∃ M, (Layout.user (Exts.of 2 3) (fun i j => 10 * i + 2 * j) (fun _ => 0) 15).transposed
    false = .ok M ∧ M.offset 2 1 = 14 := ⟨_, rfl, rfl⟩

/-- A padded matrix: 3 rows, stride 4. -/
example : ∃ M, (Layout.leftPadded none (Exts.of 3 2) 4).transposed true = .ok M ∧
    M.offset 1 2 = 6 := ⟨_, rfl, rfl⟩

example : ∃ M, (Layout.stride (Exts.of 2 3) 1 4).transposed false = .ok M ∧
    IsTransposeOf M (.stride (Exts.of 2 3) 1 4) ∧
    ∀ r, r < 2 → M.strideOf r = (Layout.stride (Exts.of 2 3) 1 4).strideOf (1 - r) :=
  C38_transposed _ (.inr (.inr (.inl ⟨_, _, _, rfl⟩)))

example : ∃ M N, (Layout.right (Exts.of 2 3)).transposed true = .ok M ∧ M.transposed true = .ok N ∧
    SameCells N (.right (Exts.of 2 3)) :=
  C38_transposed_twice true _ (.inr (.inl ⟨_, rfl⟩))

example : ∃ M, (Layout.leftPadded (some 4) (Exts.of 3 2) 4).transposed true = .ok M ∧
    IsTransposeOf M (.leftPadded (some 4) (Exts.of 3 2) 4) :=
  (C38_transposed_padded_partial (some 4) (Exts.of 3 2) 4 (by decide) (.inr rfl)).1 (by decide)

example : ((Layout.leftPadded none (Exts.of 3 2) 4).transposed true >>= Layout.transposed true) =
    .ok (.leftPadded none (Exts.of 3 2).transpose.transpose 4) :=
  (C38_transposed_twice_padded_partial none (Exts.of 3 2) 4 (.inl rfl)).1 (by decide) (by decide)

/-! ## C39 -/

/-- Number of elements in a column (column-major) or row (row-major). -/
def runLength (o : StorageOrder) (L : Layout) : Nat :=
  match o with
  | .columnMajor => L.ext0
  | .rowMajor => L.ext1

/-- What `transposed` gives for `layout_blas_general`, exactly: each offset is multiplied by the
run length. -/
theorem C39_transposed_blas_general_exact (fix : Bool) (o : StorageOrder) (e : Exts) (lda : Nat) :
    ∃ M, (Layout.blasGeneral o e lda).transposed fix = .ok M ∧
      M.ext0 = e.e1 ∧ M.ext1 = e.e0 ∧
      ∀ i j, M.offset i j =
        runLength o (.blasGeneral o e lda) * (Layout.blasGeneral o e lda).offset j i := by
  cases o
  · refine ⟨_, rfl, Exts.e0_transpose, Exts.e1_transpose, fun i j => ?_⟩
    simp only [StorageOrder.opposite, Layout.offset, Layout.strideOf, Exts.e1_transpose,
      runLength, Layout.ext0, Layout.exts, reduceIte, one_ne_zero]
    ring
  · refine ⟨_, rfl, Exts.e0_transpose, Exts.e1_transpose, fun i j => ?_⟩
    simp only [StorageOrder.opposite, Layout.offset, Layout.strideOf,
      Exts.e0_transpose, runLength, Layout.ext1, Layout.exts, reduceIte, reduceCtorEq]
    ring

/-- **C39, the part that holds**: it is right if each run has one element. -/
theorem C39_transposed_blas_general_partial (fix : Bool) (o : StorageOrder) (e : Exts) (lda : Nat)
    (h : runLength o (.blasGeneral o e lda) = 1) :
    ∃ M, (Layout.blasGeneral o e lda).transposed fix = .ok M ∧
      IsTransposeOf M (.blasGeneral o e lda) := by
  obtain ⟨M, hM, h0, h1, hO⟩ := C39_transposed_blas_general_exact fix o e lda
  refine ⟨M, hM, h0, h1, ?_, fun i j _ _ => by rw [hO, h, Nat.one_mul]⟩
  injection hM with hM
  subst hM
  cases o <;> simp only [runLength, Layout.ext0, Layout.ext1, Layout.exts] at h <;>
    simp [Layout.span, Layout.strideOf, Exts.e0_transpose, Exts.e1_transpose, h]

/-- **C39 is false**: for a 2×2 column-major matrix with leading dimension 3, the transposed
view's (1,1) is not the original's (1,1), and lies outside the original's span. -/
theorem C39_transposed_blas_general_false :
    ∃ M, (Layout.blasGeneral .columnMajor (Exts.of 2 2) 3).transposed false = .ok M ∧
      ¬ IsTransposeOf M (.blasGeneral .columnMajor (Exts.of 2 2) 3) ∧
      (Layout.blasGeneral .columnMajor (Exts.of 2 2) 3).span ≤ M.offset 1 1 := by
  refine ⟨_, rfl, fun h => ?_, by decide⟩
  exact absurd (h.offset 1 1 (by decide) (by decide)) (by decide)

example : runLength .columnMajor (.blasGeneral .columnMajor (Exts.of 1 4) 5) = 1 := rfl

/-! ## C40 -/

/-- The meaning of a leading dimension in the BLAS. -/
def blasOffset (o : StorageOrder) (lda i j : Nat) : Nat :=
  match o with
  | .columnMajor => i + j * lda
  | .rowMajor => i * lda + j

/-- **C40 is false**: no leading dimension whatever makes a `layout_blas_general` matrix with at
least two rows and two columns have the BLAS meaning. -/
theorem C40_meaning_false (o : StorageOrder) (e : Exts) (lda : Nat) (h0 : 2 ≤ e.e0)
    (h1 : 2 ≤ e.e1) :
    ∃ i j, i < e.e0 ∧ j < e.e1 ∧ (Layout.blasGeneral o e lda).offset i j ≠ blasOffset o lda i j := by
  by_contra hc
  push Not at hc
  have a := hc 1 0 (by omega) (by omega)
  have b := hc 0 1 (by omega) (by omega)
  cases o
  · simp only [Layout.offset, blasOffset] at a b
    have : lda = 1 := by simpa using a
    subst this
    omega
  · simp only [Layout.offset, blasOffset] at a b
    have : lda = 1 := by simpa using b
    subst this
    omega

/-- What it maps to instead: `lda` times the offset of the packed layout. -/
theorem C40_meaning_exact (e : Exts) (lda i j : Nat) :
    (Layout.blasGeneral .columnMajor e lda).offset i j = lda * (Layout.left e).offset i j ∧
    (Layout.blasGeneral .rowMajor e lda).offset i j = lda * (Layout.right e).offset i j :=
  ⟨rfl, rfl⟩

/-- **C40, the part that holds**: with a single column (row) of stride `lda = 1`, or a single row
(column), the meaning is that of the BLAS. -/
theorem C40_meaning_partial (e : Exts) (lda : Nat) (h : e.e1 = 1 ∧ lda = 1 ∨ e.e0 = 1) (i j : Nat)
    (hi : i < e.e0) (hj : j < e.e1) :
    (Layout.blasGeneral .columnMajor e lda).offset i j = blasOffset .columnMajor lda i j := by
  simp only [Layout.offset, blasOffset]
  rcases h with ⟨h, rfl⟩ | h
  · have : j = 0 := by omega
    subst this; simp
  · have : i = 0 := by omega
    subst this
    rw [h]; ring

/-- **C40, uniqueness and span**: with `lda ≥ 1` the mapping is unique and stays in its span. -/
theorem C40_unique_partial (o : StorageOrder) (e : Exts) (lda : Nat) (h : 1 ≤ lda) (p : Nat) :
    ((Layout.blasGeneral o e lda).mat p).Unique ∧
    ∀ i j, i < e.e0 → j < e.e1 →
      (Layout.blasGeneral o e lda).offset i j < (Layout.blasGeneral o e lda).span := by
  constructor
  · intro i j k l hi hj _ hk hl _ heq
    simp only [Layout.mat, Layout.ext0, Layout.ext1, Layout.exts] at hi hj hk hl heq
    cases o
    · simp only [Layout.offset] at heq
      have := Nat.eq_of_mul_eq_mul_left h (Nat.add_left_cancel heq)
      exact add_mul_inj le_rfl hi hk this
    · simp only [Layout.offset] at heq
      have := Nat.eq_of_mul_eq_mul_left h (Nat.add_left_cancel heq)
      obtain ⟨a, b⟩ := add_mul_inj (i := j) (k := l) (j := i) (l := k) le_rfl hj hl (by omega)
      exact ⟨b, a⟩
  · intro i j hi hj
    cases o
    · simp only [Layout.offset, Layout.span]
      rw [Nat.mul_comm lda]
      exact Nat.mul_lt_mul_of_pos_right (left_lt hi hj) h
    · simp only [Layout.offset, Layout.span]
      rw [Nat.mul_comm lda, Nat.mul_comm e.e0, Nat.add_comm (i * e.e1)]
      exact Nat.mul_lt_mul_of_pos_right (left_lt hj hi) h

/-- **C40 is false** for uniqueness: with `lda = 0`, which the constructor accepts, `is_unique()`
answers `true` although all elements share one cell. -/
theorem C40_unique_false :
    (Layout.blasGeneral .columnMajor (Exts.of 2 2) 0).isUnique = true ∧
    ¬ ((Layout.blasGeneral .columnMajor (Exts.of 2 2) 0).mat 0).Unique := by
  refine ⟨rfl, fun h => ?_⟩
  have := h 0 0 1 1 (by decide) (by decide) trivial (by decide) (by decide) trivial (by decide)
  exact absurd this.1 (by decide)

example : (2 : Nat) ≤ (Exts.of 3 2).e0 ∧ 2 ≤ (Exts.of 3 2).e1 := by decide

/-- A 3×2 matrix with leading dimension 5. -/
example : ∃ i j, i < 3 ∧ j < 2 ∧ (Layout.blasGeneral .columnMajor (Exts.of 3 2) 5).offset i j ≠
    blasOffset .columnMajor 5 i j :=
  C40_meaning_false .columnMajor (Exts.of 3 2) 5 (by decide) (by decide)

/-- A single row. -/
example (j : Nat) (hj : j < 4) : (Layout.blasGeneral .columnMajor (Exts.of 1 4) 5).offset 0 j =
    blasOffset .columnMajor 5 0 j :=
  C40_meaning_partial (Exts.of 1 4) 5 (.inr rfl) 0 j (by decide) hj

example : ((Layout.blasGeneral .rowMajor (Exts.of 3 2) 5).mat 7).Unique :=
  (C40_unique_partial .rowMajor (Exts.of 3 2) 5 (by decide) 7).1

/-! ## C43 -/

/-- Mappings that mdspan and the library produce for matrices that can be written: for
`layout_stride`, one of the two strides jumps over a whole run of the other (the precondition
of its constructor, `[mdspan.layout.stride.cons]`); for the padded layouts, the stride is at
least the run length. -/
def Layout.Proper : Layout → Prop
  | .left _ => True
  | .right _ => True
  | .stride e s0 s1 => (1 ≤ s0 ∧ e.e0 * s0 ≤ s1) ∨ (1 ≤ s1 ∧ e.e1 * s1 ≤ s0)
  | .leftPadded _ e s => e.e0 ≤ s
  | .rightPadded _ e s => e.e1 ≤ s
  | .blasGeneral _ _ lda => 1 ≤ lda
  | .transpose n => n.Proper
  | .user _ _ _ _ => False

private theorem proper_inj_lt : ∀ (L : Layout), L.Proper →
    (∀ i j k l, i < L.ext0 → j < L.ext1 → k < L.ext0 → l < L.ext1 →
      L.offset i j = L.offset k l → i = k ∧ j = l) ∧
    ∀ i j, i < L.ext0 → j < L.ext1 → L.offset i j < L.span := by
  intro L
  induction L with
  | left e =>
    intro _
    exact ⟨fun i j k l hi _ hk _ h => add_mul_inj le_rfl hi hk h, fun i j hi hj => left_lt hi hj⟩
  | right e =>
    intro _
    refine ⟨fun i j k l _ hj _ hl h => ?_, fun i j hi hj => ?_⟩
    · simp only [Layout.offset] at h
      obtain ⟨a, b⟩ := add_mul_inj (m := e.e1) (s := e.e1) (i := j) (k := l) (j := i) (l := k) le_rfl
        hj hl (by omega)
      exact ⟨b, a⟩
    · have := left_lt hj hi
      simp only [Layout.offset, Layout.span]
      rw [Nat.mul_comm, Nat.add_comm] at *
      simp only [Layout.ext0, Layout.ext1, Layout.exts] at this
      rw [Nat.mul_comm] at this
      linarith [Nat.mul_comm i e.e1]
  | stride e s0 s1 =>
    intro hp
    refine ⟨fun i j k l hi hj hk hl h => ?_, fun i j hi hj => strided_lt hi hj⟩
    rcases hp with ⟨a, b⟩ | ⟨a, b⟩
    · exact strided_inj a b hi hk h
    · simp only [Layout.offset] at h
      obtain ⟨x, y⟩ := strided_inj (i := j) (k := l) (j := i) (l := k) a b hj hl (by omega)
      exact ⟨y, x⟩
  | leftPadded pv e s =>
    intro hp
    refine ⟨fun i j k l hi _ hk _ h => add_mul_inj hp hi hk h, fun i j hi hj => ?_⟩
    have := strided_lt (e := e) (s0 := 1) (s1 := s) hi hj
    simpa [Layout.offset, Layout.span] using this
  | rightPadded pv e s =>
    intro hp
    refine ⟨fun i j k l _ hj _ hl h => ?_, fun i j hi hj => ?_⟩
    · simp only [Layout.offset] at h
      obtain ⟨a, b⟩ := add_mul_inj (i := j) (k := l) (j := i) (l := k) hp hj hl (by omega)
      exact ⟨b, a⟩
    · have := strided_lt (e := e) (s0 := s) (s1 := 1) hi hj
      simpa [Layout.offset, Layout.span] using this
  | blasGeneral o e lda =>
    intro hp
    obtain ⟨h, h'⟩ := C40_unique_partial o e lda hp 0
    refine ⟨fun i j k l hi hj hk hl heq => ?_, h'⟩
    exact h i j k l hi hj trivial hk hl trivial (by simp only [Layout.mat, heq])
  | transpose n ih =>
    intro hp
    obtain ⟨h, h'⟩ := ih hp
    have a0 : (Layout.transpose n).ext0 = n.ext1 := Exts.e0_transpose
    have a1 : (Layout.transpose n).ext1 = n.ext0 := Exts.e1_transpose
    rw [a0, a1]
    refine ⟨fun i j k l hi hj hk hl heq => ?_, fun i j hi hj => h' j i hj hi⟩
    exact (h j i l k hj hi hl hk heq).symm
  | user e f g w => intro hp; exact absurd hp id

/-- **C43.**  A mapping of the standard (or of this library with `lda ≥ 1`) sends distinct
in-range indices to distinct offsets below `required_span_size()`. -/
theorem C43_layouts_injective_in_span (L : Layout) (hL : L.Proper) :
    (∀ i j k l, i < L.ext0 → j < L.ext1 → k < L.ext0 → l < L.ext1 →
      (i, j) ≠ (k, l) → L.offset i j ≠ L.offset k l) ∧
    ∀ i j, i < L.ext0 → j < L.ext1 → L.offset i j < L.span := by
  obtain ⟨h, h'⟩ := proper_inj_lt L hL
  refine ⟨fun i j k l hi hj hk hl hne heq => hne ?_, h'⟩
  obtain ⟨rfl, rfl⟩ := h i j k l hi hj hk hl heq
  rfl

/-- **C43** in terms of memory: writing one element of such a matrix leaves every other
element as it was, whatever the memory. -/
theorem C43_write_changes_one_element {α : Type} (L : Layout) (hL : L.Proper) (p : Nat)
    (h : Heap α) (hA : (L.mat p).Alloc h) (i j : Nat) (hi : i < L.ext0) (hj : j < L.ext1) (v : α) :
    Ends ((L.mat p).set i j v) h fun _ h' =>
      h' ((L.mat p).addr i j) = some v ∧
      ∀ k l, k < L.ext0 → l < L.ext1 → (k, l) ≠ (i, j) →
        h' ((L.mat p).addr k l) = h ((L.mat p).addr k l) := by
  rw [ends_mat_set]
  refine ⟨⟨hi, hj⟩, hA i j hi hj trivial, by simp, fun k l hk hl hne => ?_⟩
  refine Function.update_of_ne (fun heq => ?_) _ _
  exact (C43_layouts_injective_in_span L hL).1 k l i j hk hl hi hj hne (Nat.add_left_cancel heq)

/-- **C43** supplies the hypotheses of the theorems about algorithms: the matrix is unique, and
two matrices whose memory blocks `[p, p + required_span_size())` do not overlap have no cell
in common. -/
theorem C43_unique_and_apart (L M : Layout) (hL : L.Proper) (hM : M.Proper) (p q : Nat)
    (hpq : p + L.span ≤ q ∨ q + M.span ≤ p) :
    (L.mat p).Unique ∧ Apart (L.mat p).Cell (M.mat q).Cell := by
  constructor
  · intro i j k l hi hj _ hk hl _ heq
    exact (proper_inj_lt L hL).1 i j k l hi hj hk hl (Nat.add_left_cancel heq)
  · rintro a ⟨i, j, hi, hj, _, rfl⟩ ⟨k, l, hk, hl, _, heq⟩
    have a := (proper_inj_lt L hL).2 i j hi hj
    have b := (proper_inj_lt M hM).2 k l hk hl
    simp only [Layout.mat] at heq
    omega

/-- **C43** for vectors: contiguous, or strided with a stride of at least 1. -/
theorem C43_vectors (L : Layout1) (hL : ∀ n s, L = .stride n s → 1 ≤ s) (p : Nat) :
    (L.vec p).Unique ∧ ∀ a, (L.vec p).Cell a → p ≤ a ∧ a < p + L.span := by
  cases L with
  | contiguous n =>
    refine ⟨fun i k _ _ h => Nat.add_left_cancel h, ?_⟩
    rintro a ⟨i, hi, rfl⟩
    simp only [Layout1.vec, Layout1.span] at *
    omega
  | stride n s =>
    have hs := hL n s rfl
    refine ⟨fun i k _ _ h => Nat.eq_of_mul_eq_mul_right hs (Nat.add_left_cancel h), ?_⟩
    rintro a ⟨i, hi, rfl⟩
    simp only [Layout1.vec, Layout1.span] at *
    rw [if_neg (by omega)]
    have : i * s ≤ (n - 1) * s := Nat.mul_le_mul_right _ (by omega)
    omega

/-- A 3×4 strided matrix with strides 2 and 7. -/
example : (Layout.stride (Exts.of 3 4) 2 7).Proper ∧
    (Layout.stride (Exts.of 3 4) 2 7).offset 2 3 = 25 ∧
    (Layout.stride (Exts.of 3 4) 2 7).span = 26 := by
  refine ⟨Or.inl (by decide), by decide, by decide⟩

/-- Two matrices side by side in memory, the second one transposed. -/
example : Apart ((Layout.left (Exts.of 3 4)).mat 10).Cell
    ((Layout.transpose (.leftPadded none (Exts.of 2 5) 3)).mat 22).Cell :=
  (C43_unique_and_apart (.left (Exts.of 3 4)) (.transpose (.leftPadded none (Exts.of 2 5) 3))
    trivial (by show (2 : Nat) ≤ 3; decide) 10 22 (Or.inl (by decide))).2

/-- Writing element (2, 3) of a strided matrix in a memory of zeros. -/
example : Ends (((Layout.stride (Exts.of 3 4) 2 7).mat 10).set 2 3 (9 : ℤ)) (fun _ => some 0)
    fun _ h' => h' 35 = some 9 ∧ ∀ k l, k < 3 → l < 4 → (k, l) ≠ (2, 3) →
      h' (((Layout.stride (Exts.of 3 4) 2 7).mat 10).addr k l) = some 0 :=
  C43_write_changes_one_element (.stride (Exts.of 3 4) 2 7) (.inl (by decide)) 10 (fun _ => some (0 : ℤ))
    (fun _ _ _ _ _ => ⟨0, rfl⟩) 2 3 (by decide) (by decide) 9

end StdBLAS

import Verif.Core.Mdspan

/-!
# Specification vocabulary about memory

What it means that a view holds given elements, that an output is written and
nothing else is, and that views do not overlap.
-/

namespace StdBLAS

/-- A set of matrix positions. -/
abbrev Region := Nat → Nat → Prop

/-- All positions. -/
def everywhere : Region := fun _ _ => True

/-- Positions of a triangle, diagonal included: upper is `i ≤ j`, lower is `j ≤ i`. -/
def Triangle.region : Triangle → Region
  | .upper => fun i j => i ≤ j
  | .lower => fun i j => j ≤ i

/-- The other triangle. -/
def Triangle.other : Triangle → Triangle
  | .upper => .lower
  | .lower => .upper

/-- Positions that a triangular algorithm may read: the triangle, without its diagonal
if that is an implicit unit diagonal. -/
def triRegion (t : Triangle) (d : Diag) : Region :=
  fun i j => t.region i j ∧ (d = .implicitUnit → i ≠ j)

variable {α : Type}

/-- In memory `h`, reading `x(i)` gives `f i`, for every in-range `i`. -/
def VecV.Holds (x : VecV α) (h : Heap α) (f : Nat → α) : Prop :=
  ∀ i, i < x.ext → ∃ v, h (x.addr i) = some v ∧ x.acc v = f i

/-- In memory `h`, `x(i)` is `f i`, for every in-range `i`. -/
def Vec.Holds (x : Vec) (h : Heap α) (f : Nat → α) : Prop :=
  ∀ i, i < x.ext → h (x.addr i) = some (f i)

/-- In memory `h`, reading `A(i,j)` gives `f i j`, for every in-range `(i,j)` in `R`.
Nothing is said about other positions: they may be inaccessible. -/
def MatV.HoldsOn (A : MatV α) (h : Heap α) (R : Region) (f : Nat → Nat → α) : Prop :=
  ∀ i j, i < A.rows → j < A.cols → R i j → ∃ v, h (A.addr i j) = some v ∧ A.acc v = f i j

/-- In memory `h`, reading `A(i,j)` gives `f i j`, for every in-range `(i,j)`. -/
def MatV.Holds (A : MatV α) (h : Heap α) (f : Nat → Nat → α) : Prop :=
  A.HoldsOn h everywhere f

/-- In memory `h`, `A(i,j)` is `f i j`, for every in-range `(i,j)` in `R`. -/
def Mat.HoldsOn (A : Mat) (h : Heap α) (R : Region) (f : Nat → Nat → α) : Prop :=
  ∀ i j, i < A.rows → j < A.cols → R i j → h (A.addr i j) = some (f i j)

/-- In memory `h`, `A(i,j)` is `f i j`, for every in-range `(i,j)`. -/
def Mat.Holds (A : Mat) (h : Heap α) (f : Nat → Nat → α) : Prop :=
  A.HoldsOn h everywhere f

/-- Address `a` belongs to view `x`. -/
def Vec.Cell (x : Vec) (a : Nat) : Prop := ∃ i, i < x.ext ∧ x.addr i = a

/-- Address `a` is that of some position of `A` in region `R`. -/
def Mat.CellOn (A : Mat) (R : Region) (a : Nat) : Prop :=
  ∃ i j, i < A.rows ∧ j < A.cols ∧ R i j ∧ A.addr i j = a

/-- Address `a` belongs to view `A`. -/
def Mat.Cell (A : Mat) (a : Nat) : Prop := A.CellOn everywhere a

/-- The layout is unique: different indices, different cells (`is_unique()`). -/
def Vec.Unique (x : Vec) : Prop :=
  ∀ i k, i < x.ext → k < x.ext → x.addr i = x.addr k → i = k

/-- The layout is unique on region `R`. -/
def Mat.UniqueOn (A : Mat) (R : Region) : Prop :=
  ∀ i j k l, i < A.rows → j < A.cols → R i j → k < A.rows → l < A.cols → R k l →
    A.addr i j = A.addr k l → i = k ∧ j = l

/-- The layout is unique (`is_unique()`). -/
def Mat.Unique (A : Mat) : Prop := A.UniqueOn everywhere

/-- All elements of `x` can be accessed. -/
def Vec.Alloc (x : Vec) (h : Heap α) : Prop := ∀ i, i < x.ext → ∃ v, h (x.addr i) = some v

/-- All elements of `A` in region `R` can be accessed. -/
def Mat.AllocOn (A : Mat) (h : Heap α) (R : Region) : Prop :=
  ∀ i j, i < A.rows → j < A.cols → R i j → ∃ v, h (A.addr i j) = some v

/-- All elements of `A` can be accessed. -/
def Mat.Alloc (A : Mat) (h : Heap α) : Prop := A.AllocOn h everywhere

/-- Two sets of cells do not overlap. -/
def Apart (P Q : Nat → Prop) : Prop := ∀ a, P a → ¬ Q a

/-- `x` and `z` overlap at most element by element: `x(i)` and `z(k)` can be the same cell
only if `i = k`.  Holds when the views are disjoint and when they are the same view with a
unique layout. -/
def Vec.Aligned (x z : Vec) : Prop :=
  ∀ i k, i < x.ext → k < z.ext → x.addr i = z.addr k → i = k

/-- `A` and `C` overlap at most element by element. -/
def Mat.Aligned (A C : Mat) : Prop :=
  ∀ i j k l, i < A.rows → j < A.cols → k < C.rows → l < C.cols →
    A.addr i j = C.addr k l → i = k ∧ j = l

/-- Memory `h'` differs from `h` at most on the cells in `P`. -/
def OnlyChanges (P : Nat → Prop) (h h' : Heap α) : Prop := ∀ a, ¬ P a → h' a = h a

/-- Output contract for a vector: `y` holds `f` afterwards and nothing else has changed. -/
def Vec.Becomes (y : Vec) (h h' : Heap α) (f : Nat → α) : Prop :=
  y.Holds h' f ∧ OnlyChanges y.Cell h h'

/-- Output contract for the part `R` of a matrix: it holds `f` afterwards and nothing
else (not even the rest of the matrix) has changed. -/
def Mat.BecomesOn (C : Mat) (h h' : Heap α) (R : Region) (f : Nat → Nat → α) : Prop :=
  C.HoldsOn h' R f ∧ OnlyChanges (C.CellOn R) h h'

/-- Output contract for a matrix. -/
def Mat.Becomes (C : Mat) (h h' : Heap α) (f : Nat → Nat → α) : Prop :=
  C.BecomesOn h h' everywhere f

end StdBLAS

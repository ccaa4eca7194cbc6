import Verif.Core.Machine

/-!
# mdspan views

`Vec`/`Mat`: an mdspan of rank 1/2 with `default_accessor`: extents and the
address of each element (data handle + layout mapping).  The address function is
arbitrary, so a statement about every `Mat` is a statement about every layout.

`VecV α`/`MatV α`: an mdspan with any accessor; the accessor turns the stored
value into the value read (`scaled`, `conjugated`, and nestings of these, whose
`reference` is a value: such mdspans can only be read).

Modelled from `mdspan::operator()`: `accessor.access(data_handle, mapping(i...))`.
An index outside the extents is a precondition violation of mdspan: `Err.ub`.
Simplification: all mdspans of one call have the same element type `α`.  (`Model/Mixed.lean` models
the algorithms once more for mdspans of different element types.)
-/

namespace StdBLAS

/-- Rank-1 mdspan that can be read and written. -/
structure Vec where
  /-- `extent(0)` -/
  ext : Nat
  /-- address of element `i` -/
  addr : Nat → Nat

/-- Rank-2 mdspan that can be read and written. -/
structure Mat where
  /-- `extent(0)` -/
  rows : Nat
  /-- `extent(1)` -/
  cols : Nat
  /-- address of element `(i, j)` -/
  addr : Nat → Nat → Nat

/-- Rank-1 mdspan with an accessor (read only). -/
structure VecV (α : Type) extends Vec where
  /-- what the accessor makes of the stored value -/
  acc : α → α

/-- Rank-2 mdspan with an accessor (read only). -/
structure MatV (α : Type) extends Mat where
  /-- what the accessor makes of the stored value -/
  acc : α → α

/-- `default_accessor`: the value read is the value stored. -/
def Vec.view {α : Type} (v : Vec) : VecV α := { v with acc := id }
/-- `default_accessor`: the value read is the value stored. -/
def Mat.view {α : Type} (m : Mat) : MatV α := { m with acc := id }

/-- `layout_tags.hpp:61-64` `upper_triangle_t`, `lower_triangle_t`. -/
inductive Triangle where
  | upper
  | lower
  deriving DecidableEq, Repr

/-- `layout_tags.hpp:66-69` `implicit_unit_diagonal_t`, `explicit_diagonal_t`. -/
inductive Diag where
  | implicitUnit
  | explicit
  deriving DecidableEq, Repr

/-- `layout_tags.hpp:71-74` `left_side_t`, `right_side_t`. -/
inductive Side where
  | left
  | right
  deriving DecidableEq, Repr

section access
variable {α : Type}
open Prog

/-- Read `x(i)`. -/
def VecV.get (x : VecV α) (i : Nat) : Prog α α :=
  if i < x.ext then do let v ← load (x.addr i); pure (x.acc v) else fail .ub

/-- Read `A(i, j)`. -/
def MatV.get (A : MatV α) (i j : Nat) : Prog α α :=
  if i < A.rows ∧ j < A.cols then do let v ← load (A.addr i j); pure (A.acc v) else fail .ub

/-- Read `x(i)`. -/
def Vec.get (x : Vec) (i : Nat) : Prog α α :=
  if i < x.ext then load (x.addr i) else fail .ub

/-- Read `A(i, j)`. -/
def Mat.get (A : Mat) (i j : Nat) : Prog α α :=
  if i < A.rows ∧ j < A.cols then load (A.addr i j) else fail .ub

/-- Write `x(i) = v`. -/
def Vec.set (x : Vec) (i : Nat) (v : α) : Prog α Unit :=
  if i < x.ext then store (x.addr i) v else fail .ub

/-- Write `A(i, j) = v`. -/
def Mat.set (A : Mat) (i j : Nat) (v : α) : Prog α Unit :=
  if i < A.rows ∧ j < A.cols then store (A.addr i j) v else fail .ub

end access

section rules
variable {α : Type} {h : Heap α}

@[simp] theorem ends_vecV_get {x : VecV α} {i : Nat} {Q : α → Heap α → Prop} :
    Ends (x.get i) h Q ↔ i < x.ext ∧ ∃ v, h (x.addr i) = some v ∧ Q (x.acc v) h := by
  unfold VecV.get
  split <;> simp_all

@[simp] theorem ends_vec_get {x : Vec} {i : Nat} {Q : α → Heap α → Prop} :
    Ends (x.get i) h Q ↔ i < x.ext ∧ ∃ v, h (x.addr i) = some v ∧ Q v h := by
  unfold Vec.get
  split <;> simp_all

@[simp] theorem ends_matV_get {A : MatV α} {i j : Nat} {Q : α → Heap α → Prop} :
    Ends (A.get i j) h Q ↔
      (i < A.rows ∧ j < A.cols) ∧ ∃ v, h (A.addr i j) = some v ∧ Q (A.acc v) h := by
  unfold MatV.get
  split <;> simp_all

@[simp] theorem ends_mat_get {A : Mat} {i j : Nat} {Q : α → Heap α → Prop} :
    Ends (A.get i j) h Q ↔
      (i < A.rows ∧ j < A.cols) ∧ ∃ v, h (A.addr i j) = some v ∧ Q v h := by
  unfold Mat.get
  split <;> simp_all

@[simp] theorem ends_vec_set {x : Vec} {i : Nat} {v : α} {Q : Unit → Heap α → Prop} :
    Ends (x.set i v) h Q ↔
      i < x.ext ∧ (∃ w, h (x.addr i) = some w) ∧ Q () (Function.update h (x.addr i) (some v)) := by
  unfold Vec.set
  split <;> simp_all

@[simp] theorem ends_mat_set {A : Mat} {i j : Nat} {v : α} {Q : Unit → Heap α → Prop} :
    Ends (A.set i j v) h Q ↔
      (i < A.rows ∧ j < A.cols) ∧ (∃ w, h (A.addr i j) = some w) ∧
        Q () (Function.update h (A.addr i j) (some v)) := by
  unfold Mat.set
  split <;> simp_all

end rules

end StdBLAS

import Verif.Core.Mdspan
import Verif.Spec.LinAlg

/-! # Specification of evaluation order

Sums written out with their order and bracketing, for element types whose `+` and `*` satisfy no
law at all (as for floating-point numbers, which neither associate nor distribute, and for types
whose multiplication does not commute). -/

namespace StdBLAS

/-- `(((s + t 0) + t 1) + ...) + t (n - 1)`: start from `s` and add `n` terms one at a time, the
next term always on the right. -/
def leftSum {α : Type} [Add α] (s : α) : Nat → (Nat → α) → α
  | 0, _ => s
  | n + 1, t => leftSum s n t + t n

/-- `(((s - t 0) - t 1) - ...) - t (n - 1)`. -/
def leftDiff {α : Type} [Sub α] (s : α) : Nat → (Nat → α) → α
  | 0, _ => s
  | n + 1, t => leftDiff s n t - t n

/-- The term of column `c` in row `r` of a triangular matrix times `f`: with an implicit unit
diagonal the diagonal term is `f r` itself, no multiplication is carried out. -/
def triTerm {α : Type} [Mul α] (d : Diag) (a : Nat → Nat → α) (f : Nat → α) (r c : Nat) : α :=
  if d = .implicitUnit ∧ c = r then f r else a r c * f c

/-- Row `r` of a triangular product started from `s`: the columns of the triangle in ascending
order. -/
def triSeq {α : Type} [Add α] [Mul α] (t : Triangle) (d : Diag) (n : Nat)
    (a : Nat → Nat → α) (f : Nat → α) (s : α) (r : Nat) : α :=
  match t with
  | .lower => leftSum s (r + 1) fun c => triTerm d a f r c
  | .upper => leftSum s (n - r) fun c => triTerm d a f r (r + c)

/-- Row `r` of the in-place triangular product with diagonal part `s`: the columns of the strict
triangle, by increasing distance from the diagonal. -/
def triSeqInPlace {α : Type} [Add α] [Mul α] (t : Triangle) (n : Nat)
    (a : Nat → Nat → α) (f : Nat → α) (s : α) (r : Nat) : α :=
  match t with
  | .lower => leftSum s r fun k => a r (r - 1 - k) * f (r - 1 - k)
  | .upper => leftSum s (n - 1 - r) fun k => a r (r + 1 + k) * f (r + 1 + k)

/-- An element of a triangular matrix times a matrix, or of a matrix times a triangular matrix:
`t k` is the term of the strict triangle with summation index `k`, `diag` the term of the diagonal,
whose index is `i`.  `before` says that the strict triangle lies before the diagonal.  The terms
come in ascending order, except that the diagonal term comes last when it is implicit. -/
def triElement {α : Type} [Add α] (before : Bool) (d : Diag) (n i : Nat) (t : Nat → α)
    (diag : α) (s : α) : α :=
  match before, d with
  | true, _ => leftSum s i t + diag
  | false, .explicit => leftSum (s + diag) (n - 1 - i) fun k => t (i + 1 + k)
  | false, .implicitUnit => leftSum s (n - 1 - i) (fun k => t (i + 1 + k)) + diag

/-- Row `i` of a forward or backward substitution with right-hand side `b`, in terms of the other
rows of the solution `v`: the products are subtracted in ascending order, then the division by the
diagonal. -/
def solveRow {α : Type} [Sub α] [Div α] (t : Triangle) (d : Diag) (n i : Nat) (term : Nat → α)
    (b diag : α) : α :=
  let s := match t with
    | .lower => leftDiff b i term
    | .upper => leftDiff b (n - 1 - i) fun k => term (i + 1 + k)
  if d = .explicit then s / diag else s

end StdBLAS

import Verif.Spec.Order

/-!
# Order of the operations in the kernels of the Kokkos backend

As `Spec/Order`: expressions over an element type whose operations satisfy no law.
-/

namespace StdBLAS

/-- Row `i` of a symmetric or Hermitian matrix of which triangle `t` is stored, times the vector `f`:
first the terms of the stored part of the row, then those of the other part, whose elements `c`
transposes (the identity or the conjugation). -/
def kkSymSeq {α : Type} [Add α] [Mul α] [Zero α] (c : α → α) (t : Triangle) (n : Nat)
    (a : Nat → Nat → α) (f : Nat → α) (i : Nat) : α :=
  match t with
  | .upper => leftSum (leftSum 0 (n - i) fun k => a i (i + k) * f (i + k)) i fun k => c (a k i) * f k
  | .lower => leftSum (leftSum 0 (i + 1) fun k => a i k * f k) (n - (i + 1)) fun k =>
      c (a (i + 1 + k) i) * f (i + 1 + k)

/-- The terms of row `i` of a triangle, left to right: `term 0, ..., term i` of a lower triangle,
`term i, ..., term (n - 1)` of an upper one.  With an implicit unit diagonal `term i` is left out and
`unit` added at the end. -/
def kkTriSeq {α : Type} [Add α] [Zero α] (t : Triangle) (d : Diag) (n i : Nat) (term : Nat → α)
    (unit : α) : α :=
  match t, d with
  | .lower, .explicit => leftSum 0 (i + 1) term
  | .lower, .implicitUnit => leftSum 0 i term + unit
  | .upper, .explicit => leftSum 0 (n - i) fun k => term (i + k)
  | .upper, .implicitUnit => (leftSum 0 (n - (i + 1)) fun k => term (i + 1 + k)) + unit

end StdBLAS

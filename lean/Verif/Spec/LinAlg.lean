import Mathlib.Algebra.BigOperators.Group.Finset.Basic
import Mathlib.Algebra.BigOperators.Ring.Finset
import Verif.Core.Scalar
import Verif.Spec.Memory

/-!
# Specification vocabulary about linear algebra

Matrices and vectors of values are functions of `Nat` indices; the sizes are given
where a sum is taken.
-/

namespace StdBLAS
open Finset
variable {α : Type}

/-- Matrix times vector: row `i` of `a` times `x`, inner size `n`. -/
def mulVec [AddCommMonoid α] [Mul α] (n : Nat) (a : Nat → Nat → α) (x : Nat → α) (i : Nat) : α :=
  ∑ j ∈ range n, a i j * x j

/-- Matrix times matrix, inner size `n`. -/
def mulMat [AddCommMonoid α] [Mul α] (n : Nat) (a b : Nat → Nat → α) (i j : Nat) : α :=
  ∑ k ∈ range n, a i k * b k j

open Classical in
/-- The symmetric matrix named by triangle `t` of `a`. -/
noncomputable def symOf (t : Triangle) (a : Nat → Nat → α) (i j : Nat) : α :=
  if t.region i j then a i j else a j i

open Classical in
/-- The Hermitian matrix named by triangle `t` of `a`: real diagonal, the triangle as
stored, the other triangle its conjugate transpose. -/
noncomputable def hermOf [ConjOps α] (t : Triangle) (a : Nat → Nat → α) (i j : Nat) : α :=
  if i = j then ConjOps.re (a i i) else if t.region i j then a i j else ConjOps.conj (a j i)

open Classical in
/-- The triangular matrix named by triangle `t` of `a`, with unit diagonal if `d` says so. -/
noncomputable def triOf [Zero α] [One α] (t : Triangle) (d : Diag) (a : Nat → Nat → α)
    (i j : Nat) : α :=
  if i = j then (match d with | .implicitUnit => 1 | .explicit => a i i)
  else if t.region i j then a i j else 0

/-- `T X` or `X T`. -/
def sideMul [NonUnitalNonAssocSemiring α] (side : Side) (n : Nat) (T x : Nat → Nat → α) :
    Nat → Nat → α :=
  match side with
  | .left => mulMat n T x
  | .right => mulMat n x T

/-- The extent of `X` that must agree with the triangular matrix. -/
def sideExt (side : Side) (X : Mat) : Nat :=
  match side with
  | .left => X.rows
  | .right => X.cols

/-- The magnitude of real, integer and complex numbers is nonnegative. -/
class LawfulAbs (α : Type) [AbsOps α] : Prop where
  abs_nonneg : ∀ v : α, 0 ≤ AbsOps.abs v

instance : LawfulAbs ℝ := ⟨fun v => abs_nonneg v⟩
instance : LawfulAbs ℂ := ⟨fun v => norm_nonneg v⟩
instance : LawfulAbs ℤ := ⟨fun v => abs_nonneg (v : ℝ)⟩

end StdBLAS

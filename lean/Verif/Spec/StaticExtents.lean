import Verif.Core.Mdspan

/-!
# Static extents and the sizes that fit

Specification for C63, independent of the code: which run-time sizes are possible for given static
extents, and which sizes the arguments of an operation have to have.
-/

namespace StdBLAS.Extents

/-- The arguments of an algorithm. -/
inductive Arg | x | y | z | b | A | B | C | E | X
  deriving DecidableEq

/-- Static extents: `none` stands for `dynamic_extent`. -/
abbrev Statics := Arg → Nat → Option Nat

/-- Run-time extents. -/
abbrev Sizes := Arg → Nat → Nat

/-- The run-time extents are possible for mdspans with these static extents: an extent that is
known at compile time has that value. -/
def Statics.Allows (st : Statics) (n : Sizes) : Prop := ∀ a r k, st a r = some k → n a r = k

/-- Some run-time extents that the types allow satisfy the condition. -/
def Possible (st : Statics) (fits : Sizes → Prop) : Prop := ∃ n, st.Allows n ∧ fits n

/-! ## Sizes that fit, from the meaning of the operations -/

open Arg

/-- `x` and `y` have the same length. -/
def sameVec (n : Sizes) : Prop := n x 0 = n y 0

/-- Matrices `x` and `y` have the same shape. -/
def sameMat (n : Sizes) : Prop := n x 0 = n y 0 ∧ n x 1 = n y 1

/-- `x`, `y` and `z` have the same length. -/
def sameVec3 (n : Sizes) : Prop := n x 0 = n z 0 ∧ n y 0 = n z 0

/-- Matrices `x`, `y` and `z` have the same shape. -/
def sameMat3 (n : Sizes) : Prop := sameVec3 n ∧ n x 1 = n z 1 ∧ n y 1 = n z 1

/-- `y = A x` -/
def matVec (n : Sizes) : Prop := n y 0 = n A 0 ∧ n x 0 = n A 1

/-- `z = y + A x` -/
def matVecUpdate (n : Sizes) : Prop := matVec n ∧ n z 0 = n y 0

/-- `y = A x` for a square `A` -/
def squareVec (n : Sizes) : Prop := matVec n ∧ n A 0 = n A 1

/-- `z = y + A x` for a square `A` -/
def squareVecUpdate (n : Sizes) : Prop := squareVec n ∧ n z 0 = n y 0

/-- `A x = b` for a square `A` -/
def solveVec (n : Sizes) : Prop := n A 0 = n A 1 ∧ n x 0 = n A 1 ∧ n b 0 = n A 0

/-- `A = A + x yᵀ` -/
def outer (n : Sizes) : Prop := n A 0 = n x 0 ∧ n A 1 = n y 0

/-- `A = A + x xᵀ` for a square `A` -/
def outerSame (n : Sizes) : Prop := n A 0 = n A 1 ∧ n A 0 = n x 0

/-- `A = A + x yᵀ + y xᵀ` -/
def outerBoth (n : Sizes) : Prop := outerSame n ∧ n A 0 = n y 0

/-- `C = A B` -/
def matMat (n : Sizes) : Prop := n C 0 = n A 0 ∧ n A 1 = n B 0 ∧ n C 1 = n B 1

/-- `C = A B` for a square `A` -/
def leftProduct (n : Sizes) : Prop := matMat n ∧ n A 0 = n A 1

/-- `C = B A` for a square `A` -/
def rightProduct (n : Sizes) : Prop :=
  n C 0 = n B 0 ∧ n B 1 = n A 0 ∧ n C 1 = n A 1 ∧ n A 0 = n A 1

/-- `C = A C` for a square `A` -/
def leftProductInPlace (n : Sizes) : Prop := n C 0 = n A 1 ∧ n A 0 = n A 1

/-- `C = C A` for a square `A` -/
def rightProductInPlace (n : Sizes) : Prop := n C 1 = n A 0 ∧ n A 0 = n A 1

/-- `E` has the shape of `C`. -/
def withE (n : Sizes) : Prop := n E 0 = n C 0 ∧ n E 1 = n C 1

/-- `C = C + A Aᵀ` -/
def rankK (n : Sizes) : Prop := n C 0 = n C 1 ∧ n C 0 = n A 0

/-- `C = C + A Bᵀ + B Aᵀ` -/
def rank2K (n : Sizes) : Prop := rankK n ∧ n B 0 = n A 0 ∧ n B 1 = n A 1

/-- `A X = B` for a square `A` -/
def solveLeft (n : Sizes) : Prop :=
  n A 0 = n A 1 ∧ n X 0 = n A 1 ∧ n B 0 = n A 0 ∧ n X 1 = n B 1

/-- `X A = B` for a square `A` -/
def solveRight (n : Sizes) : Prop :=
  n A 0 = n A 1 ∧ n X 1 = n A 0 ∧ n B 1 = n A 1 ∧ n X 0 = n B 0

end StdBLAS.Extents

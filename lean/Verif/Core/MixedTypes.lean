import Verif.Core.Mdspan

/-!
# Values of several element types

A call may take mdspans whose element types differ (say `float` and `double`, or `double` and
`complex<double>`).  `T` is the set of types; `D` is the set of all values of all these types, so
that one memory can hold elements of any of them.  An operator takes operands of any two types and
yields a value of the type that C++ gives to the expression.  An assignment converts to the type of
the left side: `x(i) += e` on an element of type `t` is `x(i) = t(x(i) + e)`.
-/

namespace StdBLAS

/-- The types `T`, their values `D`, and what C++ does with them. -/
class MixedOps (D : Type) (T : outParam Type) extends Add D, Sub D, Mul D, Div D where
  /-- the type of a value -/
  ty : D → T
  /-- conversion to a type -/
  conv : T → D → D
  /-- `T{}` -/
  zero : T → D
  /-- the type of `a * b` for `a` and `b` of given types -/
  mulTy : T → T → T
  /-- the type of `a - b` for `a` and `b` of given types -/
  subTy : T → T → T

/-- What C++ guarantees for every type. -/
class LawfulMixed (D : Type) (T : outParam Type) [MixedOps D T] : Prop where
  ty_conv : ∀ (t : T) (v : D), MixedOps.ty (MixedOps.conv t v) = t
  /-- conversion to the type it already has does nothing -/
  conv_self : ∀ v : D, MixedOps.conv (MixedOps.ty v) v = v
  ty_zero : ∀ t : T, MixedOps.ty (MixedOps.zero (D := D) t) = t
  ty_mul : ∀ a b : D, MixedOps.ty (a * b) = MixedOps.mulTy D (MixedOps.ty a) (MixedOps.ty b)
  ty_sub : ∀ a b : D, MixedOps.ty (a - b) = MixedOps.subTy D (MixedOps.ty a) (MixedOps.ty b)

/-- `std::abs`, `std::sqrt`, `<`, comparison with `0.0`, and `T(1.0)`, which the reductions use. -/
class MixedMag (D : Type) (T : outParam Type) [MixedOps D T] where
  abs : D → D
  sqrt : D → D
  lt : D → D → Bool
  isZero : D → Bool
  one : T → D

/-- Rank-1 mdspan that can be read and written, with element type `elt`. -/
structure TVec (T : Type) extends Vec where
  elt : T

/-- Rank-2 mdspan that can be read and written, with element type `elt`. -/
structure TMat (T : Type) extends Mat where
  elt : T

section
variable {D T : Type} [MixedOps D T]

/-- Read `y(i)`. -/
def TVec.get (y : TVec T) (i : Nat) : Prog D D := y.toVec.get i
/-- Assign `y(i) = v`: `v` is converted to the element type. -/
def TVec.set (y : TVec T) (i : Nat) (v : D) : Prog D Unit := y.toVec.set i (MixedOps.conv y.elt v)
/-- `y(i) = ElementType_y{}` -/
def TVec.setZero (y : TVec T) (i : Nat) : Prog D Unit := y.toVec.set i (MixedOps.zero y.elt)
/-- `y(i) += v`: the sum is computed in its own type and converted to the element type. -/
def TVec.addTo (y : TVec T) (i : Nat) (v : D) : Prog D Unit := do
  let o ← y.get i
  y.set i (o + v)

/-- Read `C(i,j)`. -/
def TMat.get (C : TMat T) (i j : Nat) : Prog D D := C.toMat.get i j
/-- Assign `C(i,j) = v`: `v` is converted to the element type. -/
def TMat.set (C : TMat T) (i j : Nat) (v : D) : Prog D Unit :=
  C.toMat.set i j (MixedOps.conv C.elt v)
/-- `C(i,j) = ElementType_C{}` -/
def TMat.setZero (C : TMat T) (i j : Nat) : Prog D Unit := C.toMat.set i j (MixedOps.zero C.elt)
/-- `C(i,j) += v`: the sum is computed in its own type and converted to the element type. -/
def TMat.addTo (C : TMat T) (i j : Nat) (v : D) : Prog D Unit := do
  let o ← C.get i j
  C.set i j (o + v)

end
end StdBLAS

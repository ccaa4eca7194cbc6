import Verif.Model.KokkosKernels
import Verif.Spec.LinAlg
import Verif.Spec.Parallel

/-!
# What the backend assumes about Kokkos and KokkosKernels

One definition for each external function, restricted to the arguments that the backend can
pass.  The statements follow the documentation of KokkosKernels, which follows the BLAS.  A
result may depend on the schedule only in the order of the operations, so over exact numbers
it does not.
-/

namespace StdBLAS
open Finset
variable {α : Type}

/-- The element of `a`, or of its transpose. -/
def Op.apply (t : Op) (a : Nat → Nat → α) : Nat → Nat → α :=
  match t with
  | .N => a
  | .T => fun i j => a j i

/-- The rows of `A`, or of its transpose. -/
def Op.rows (t : Op) (A : Mat) : Nat :=
  match t with
  | .N => A.rows
  | .T => A.cols

/-- The columns of `A`, or of its transpose. -/
def Op.cols (t : Op) (A : Mat) : Nat :=
  match t with
  | .N => A.cols
  | .T => A.rows

/-- What a BLAS means by the flags `"U"` and `"L"`. -/
def Uplo.standard : Uplo → Triangle
  | .U => .upper
  | .L => .lower

/-- The opposite meaning. -/
def Uplo.reversed : Uplo → Triangle
  | .U => .lower
  | .L => .upper

/-- What a BLAS means by the flags `"U"` and `"N"` of a diagonal. -/
def UnitFlag.diag : UnitFlag → Diag
  | .U => .implicitUnit
  | .N => .explicit

/-- `r` is what `iamax` returns for `n` elements of magnitudes `m`: zero for no elements,
otherwise one more than the first position of a largest one. -/
def IsIamax (n : Nat) (m : Nat → ℝ) (r : Nat) : Prop :=
  (n = 0 ∧ r = 0) ∨
    ∃ i, r = i + 1 ∧ i < n ∧ (∀ k, k < n → m k ≤ m i) ∧ ∀ k, k < i → m k < m i

namespace KokkosLib
variable (K : KokkosLib α)

/-- `deep_copy` copies between views of equal extents that do not overlap or are the same,
and refuses unequal extents. -/
structure DeepCopyOk : Prop where
  vec : ∀ (dst src : Vec) (h : Heap α) (f : Nat → α), src.Holds h f → dst.Alloc h →
    dst.ext = src.ext → dst.Unique → (Apart src.Cell dst.Cell ∨ dst = src) →
    Surely (K.deepCopy1 dst src) h fun _ h' => dst.Becomes h h' f
  mat : ∀ (dst src : Mat) (h : Heap α) (f : Nat → Nat → α), src.Holds h f → dst.Alloc h →
    dst.rows = src.rows → dst.cols = src.cols → dst.Unique →
    (Apart src.Cell dst.Cell ∨ dst = src) →
    Surely (K.deepCopy2 dst src) h fun _ h' => dst.Becomes h h' f
  vec_ext : ∀ dst src : Vec, dst.ext ≠ src.ext → Throws (K.deepCopy1 dst src)
  mat_ext : ∀ dst src : Mat, (dst.rows ≠ src.rows ∨ dst.cols ≠ src.cols) →
    Throws (K.deepCopy2 dst src)

/-- `update(alpha, x, beta, y, 0, z)`: `z = alpha x + beta y`, element by element. -/
structure UpdateOk [Add α] [Mul α] [Zero α] : Prop where
  vec : ∀ (alpha : α) (x : Vec) (beta : α) (y z : Vec) (h : Heap α) (f g : Nat → α),
    x.Holds h f → y.Holds h g → z.Alloc h → x.ext = z.ext → y.ext = z.ext → z.Unique →
    x.Aligned z → y.Aligned z →
    Surely (K.update1 alpha x beta y 0 z) h fun _ h' =>
      z.Becomes h h' fun i => alpha * f i + beta * g i
  mat : ∀ (alpha : α) (x : Mat) (beta : α) (y z : Mat) (h : Heap α) (f g : Nat → Nat → α),
    x.Holds h f → y.Holds h g → z.Alloc h → x.rows = z.rows → y.rows = z.rows →
    x.cols = z.cols → y.cols = z.cols → z.Unique → x.Aligned z → y.Aligned z →
    Surely (K.update2 alpha x beta y 0 z) h fun _ h' =>
      z.Becomes h h' fun i j => alpha * f i j + beta * g i j

/-- `scal(x, alpha, x)`: `x = alpha x`. -/
structure ScalOk [Mul α] : Prop where
  vec : ∀ (alpha : α) (x : Vec) (h : Heap α) (f : Nat → α), x.Holds h f → x.Unique →
    Surely (K.scal1 x alpha x) h fun _ h' => x.Becomes h h' fun i => alpha * f i
  mat : ∀ (alpha : α) (x : Mat) (h : Heap α) (f : Nat → Nat → α), x.Holds h f → x.Unique →
    Surely (K.scal2 x alpha x) h fun _ h' => x.Becomes h h' fun i j => alpha * f i j

/-- `dot(x, y)`: the sum of `conj(x(i)) * y(i)`. -/
def DotOk [AddCommMonoid α] [Mul α] [ConjOps α] : Prop :=
  ∀ (x y : Vec) (h : Heap α) (f g : Nat → α), x.Holds h f → y.Holds h g → x.ext = y.ext →
    Surely (K.dot x y) h fun r h' => h' = h ∧ r = ∑ i ∈ range x.ext, ConjOps.conj (f i) * g i

/-- `iamax(x)`: one more than the first position of an element of largest magnitude, where
`mag` measures elements.  KokkosKernels' own implementation takes the modulus; a BLAS, which
it may be configured to call instead, takes `|re| + |im|`. -/
def IamaxOk (mag : α → ℝ) : Prop :=
  ∀ (x : Vec) (h : Heap α) (f : Nat → α), x.Holds h f →
    Surely (K.iamax x) h fun r h' => h' = h ∧ IsIamax x.ext (fun i => mag (f i)) r

/-- `gemv(trans, alpha, A, x, 0, y)`: `y = alpha op(A) x`. -/
def GemvOk [AddCommMonoid α] [Mul α] : Prop :=
  ∀ (trans : Op) (alpha : α) (A : Mat) (x y : Vec) (h : Heap α) (a : Nat → Nat → α)
    (f : Nat → α), A.Holds h a → x.Holds h f → y.Alloc h → trans.cols A = x.ext →
    trans.rows A = y.ext → y.Unique → Apart A.Cell y.Cell → Apart x.Cell y.Cell →
    Surely (K.gemv trans alpha A x 0 y) h fun _ h' =>
      y.Becomes h h' fun i => alpha * mulVec (trans.cols A) (trans.apply a) f i

/-- `gemm(transA, transB, alpha, A, B, 0, C)`: `C = alpha op(A) op(B)`. -/
def GemmOk [AddCommMonoid α] [Mul α] : Prop :=
  ∀ (transA transB : Op) (alpha : α) (A B C : Mat) (h : Heap α) (a b : Nat → Nat → α),
    A.Holds h a → B.Holds h b → C.Alloc h → transA.cols A = transB.rows B →
    transA.rows A = C.rows → transB.cols B = C.cols → C.Unique → Apart A.Cell C.Cell →
    Apart B.Cell C.Cell →
    Surely (K.gemm transA transB alpha A B 0 C) h fun _ h' =>
      C.Becomes h h' fun i j => alpha * mulMat (transA.cols A) (transA.apply a) (transB.apply b) i j

/-- `trsm(side, uplo, "N", diag, 1, A, X)`: solves `T X = B` or `X T = B` in place, where `T`
is the triangular matrix named by the triangle `m uplo` of `A` and the flag `diag`. -/
def TrsmOk [NonUnitalNonAssocSemiring α] [One α] (m : Uplo → Triangle) : Prop :=
  ∀ (side : Side) (uplo : Uplo) (diag : UnitFlag) (A X : Mat) (h : Heap α) (a b : Nat → Nat → α),
    A.HoldsOn h (triRegion (m uplo) diag.diag) a → X.Holds h b → A.rows = A.cols →
    sideExt side X = A.rows → X.Unique →
    Apart (A.CellOn (triRegion (m uplo) diag.diag)) X.Cell →
    (diag = .N → ∀ i, i < A.rows → a i i ≠ 0) →
    Surely (K.trsm side uplo .N diag 1 A X) h fun _ h' => ∃ x, X.Becomes h h' x ∧
      ∀ i j, i < X.rows → j < X.cols →
        sideMul side A.cols (triOf (m uplo) diag.diag a) x i j = b i j

/-- `trmm(side, uplo, "N", diag, 1, A, B)`: `B = T B` or `B = B T`. -/
def TrmmOk [NonUnitalNonAssocSemiring α] [One α] (m : Uplo → Triangle) : Prop :=
  ∀ (side : Side) (uplo : Uplo) (diag : UnitFlag) (A B : Mat) (h : Heap α) (a b : Nat → Nat → α),
    A.HoldsOn h (triRegion (m uplo) diag.diag) a → B.Holds h b → A.rows = A.cols →
    sideExt side B = A.rows → B.Unique →
    Apart (A.CellOn (triRegion (m uplo) diag.diag)) B.Cell →
    Surely (K.trmm side uplo .N diag 1 A B) h fun _ h' =>
      B.Becomes h h' (sideMul side A.cols (triOf (m uplo) diag.diag a) b)

end KokkosLib
end StdBLAS

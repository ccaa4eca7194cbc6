import Verif.Core.Mdspan
import Verif.Core.Scalar

/-!
# Views: scaled, conjugated, transposed, conjugate_transposed
-/

namespace StdBLAS
variable {α : Type}

/-- `scaled.hpp:86-88,126-131`: `access` multiplies the nested access by the scaling
factor, which stands on the left. Data handle and mapping are those of `x`. -/
def VecV.scaled [Mul α] (s : α) (x : VecV α) : VecV α := { x with acc := fun v => s * x.acc v }
/-- `scaled.hpp:86-88,126-131` for rank 2. -/
def MatV.scaled [Mul α] (s : α) (A : MatV α) : MatV α := { A with acc := fun v => s * A.acc v }

/-- `conjugated.hpp:79-83,97-128`: `access` conjugates the nested access.
(The overload at 131-139 for an already conjugated view is `conjugatedOf`.) -/
def VecV.conjugated [ConjOps α] (x : VecV α) : VecV α :=
  { x with acc := fun v => ConjOps.conj (x.acc v) }
/-- `conjugated.hpp:79-83,97-128` for rank 2. -/
def MatV.conjugated [ConjOps α] (A : MatV α) : MatV α :=
  { A with acc := fun v => ConjOps.conj (A.acc v) }

/-- `transposed.hpp:98-186,365-375`: extents swapped, `operator()(i,j) = nested(j,i)`,
same data handle and accessor.  (This is `layout_transpose`, used for every layout
without a specialisation; the specialised layouts are in `Model/Layouts.lean`, where
they are shown to give the same addresses.) -/
def Mat.transposed (A : Mat) : Mat := ⟨A.cols, A.rows, fun i j => A.addr j i⟩
/-- `transposed.hpp:365-375`, accessor kept. -/
def MatV.transposed (A : MatV α) : MatV α := { A.toMat.transposed with acc := A.acc }

/-- `conjugate_transposed.hpp:54-58`: `conjugated(transposed(a))`. -/
def MatV.conjugateTransposed [ConjOps α] (A : MatV α) : MatV α := A.transposed.conjugated

end StdBLAS

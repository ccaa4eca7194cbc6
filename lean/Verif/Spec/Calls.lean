import Verif.Model.Calls
import Verif.Spec.Memory

/-!
# What a call may read and write

For each call of a native algorithm: the cells of its inputs, the cells of its outputs, and whether
the old contents of the outputs are an input too.  A symmetric, Hermitian or triangular matrix is
given by one triangle: the cells of the other triangle (and, with an implicit unit diagonal, those of
the diagonal) belong to no input, and a symmetric or Hermitian update has one triangle as its output.
-/

namespace StdBLAS
variable {α R : Type}

/-- Address `a` belongs to an argument that the call only reads. -/
def Call.Input (a : Nat) : Call α R → Prop
  | .scale1 _ _ => False
  | .scale2 _ _ => False
  | .copy1 x _ => x.toVec.Cell a
  | .copy2 x _ => x.toMat.Cell a
  | .swap1 _ _ => False
  | .swap2 _ _ => False
  | .add1 x y _ => x.toVec.Cell a ∨ y.toVec.Cell a
  | .add2 x y _ => x.toMat.Cell a ∨ y.toMat.Cell a
  | .givens _ _ _ _ => False
  | .givensC _ _ _ _ => False
  | .dot v1 v2 _ _ _ => v1.toVec.Cell a ∨ v2.toVec.Cell a
  | .dotc v1 v2 _ _ _ => v1.toVec.Cell a ∨ v2.toVec.Cell a
  | .sumOfSquares x _ _ _ => x.toVec.Cell a
  | .twoNorm x _ _ _ => x.toVec.Cell a
  | .absSum x _ _ _ => x.toVec.Cell a
  | .idxAbsMax _ x _ _ => x.toVec.Cell a
  | .frobNorm A _ _ _ => A.toMat.Cell a
  | .oneNorm A _ _ _ => A.toMat.Cell a
  | .infNorm A _ _ _ => A.toMat.Cell a
  | .gemv A x _ => A.toMat.Cell a ∨ x.toVec.Cell a
  | .gemvUpdate A x y _ => A.toMat.Cell a ∨ x.toVec.Cell a ∨ y.toVec.Cell a
  | .symv A t x _ => A.toMat.CellOn t.region a ∨ x.toVec.Cell a
  | .symvUpdate A t x y _ => A.toMat.CellOn t.region a ∨ x.toVec.Cell a ∨ y.toVec.Cell a
  | .hemv A t x _ => A.toMat.CellOn t.region a ∨ x.toVec.Cell a
  | .hemvUpdate A t x y _ => A.toMat.CellOn t.region a ∨ x.toVec.Cell a ∨ y.toVec.Cell a
  | .trmv A t d x _ => A.toMat.CellOn (triRegion t d) a ∨ x.toVec.Cell a
  | .trmvUpdate A t d x y _ => A.toMat.CellOn (triRegion t d) a ∨ x.toVec.Cell a ∨ y.toVec.Cell a
  | .trmvInPlace A t d _ => A.toMat.CellOn (triRegion t d) a
  | .trsv _ A t d b _ => A.toMat.CellOn (triRegion t d) a ∨ b.toVec.Cell a
  | .ger x y _ => x.toVec.Cell a ∨ y.toVec.Cell a
  | .gerc x y _ => x.toVec.Cell a ∨ y.toVec.Cell a
  | .syrAlpha _ x _ _ => x.toVec.Cell a
  | .syr x _ _ => x.toVec.Cell a
  | .syr2 x y _ _ => x.toVec.Cell a ∨ y.toVec.Cell a
  | .herAlpha _ x _ _ => x.toVec.Cell a
  | .her x _ _ => x.toVec.Cell a
  | .her2 x y _ _ => x.toVec.Cell a ∨ y.toVec.Cell a
  | .syrkAlpha _ A _ _ => A.toMat.Cell a
  | .syrk A _ _ => A.toMat.Cell a
  | .syr2k A B _ _ => A.toMat.Cell a ∨ B.toMat.Cell a
  | .herkAlpha _ A _ _ => A.toMat.Cell a
  | .herk A _ _ => A.toMat.Cell a
  | .her2k A B _ _ => A.toMat.Cell a ∨ B.toMat.Cell a
  | .gemm A B _ => A.toMat.Cell a ∨ B.toMat.Cell a
  | .gemmUpdate A B E _ => A.toMat.Cell a ∨ B.toMat.Cell a ∨ E.toMat.Cell a
  | .trmmLeft A t d B _ => A.toMat.CellOn (triRegion t d) a ∨ B.toMat.Cell a
  | .trmmRight B A t d _ => B.toMat.Cell a ∨ A.toMat.CellOn (triRegion t d) a
  | .trmmLeftInPlace A t d _ => A.toMat.CellOn (triRegion t d) a
  | .trmmRightInPlace A t d _ => A.toMat.CellOn (triRegion t d) a
  | .symmLeft A t B _ => A.toMat.CellOn t.region a ∨ B.toMat.Cell a
  | .symmRight B A t _ => B.toMat.Cell a ∨ A.toMat.CellOn t.region a
  | .hemmLeft A t B _ => A.toMat.CellOn t.region a ∨ B.toMat.Cell a
  | .hemmRight B A t _ => B.toMat.Cell a ∨ A.toMat.CellOn t.region a
  | .trsm A t d _ B _ => A.toMat.CellOn (triRegion t d) a ∨ B.toMat.Cell a

/-- Address `a` belongs to an argument that the call writes. -/
def Call.Output (a : Nat) : Call α R → Prop
  | .scale1 _ x => x.Cell a
  | .scale2 _ A => A.Cell a
  | .copy1 _ y => y.Cell a
  | .copy2 _ y => y.Cell a
  | .swap1 x y => x.Cell a ∨ y.Cell a
  | .swap2 x y => x.Cell a ∨ y.Cell a
  | .add1 _ _ z => z.Cell a
  | .add2 _ _ z => z.Cell a
  | .givens x y _ _ => x.Cell a ∨ y.Cell a
  | .givensC x y _ _ => x.Cell a ∨ y.Cell a
  | .dot _ _ _ _ out => a = out
  | .dotc _ _ _ _ out => a = out
  | .sumOfSquares _ _ _ out => a = out
  | .twoNorm _ _ _ out => a = out
  | .absSum _ _ _ out => a = out
  | .idxAbsMax _ _ _ out => a = out
  | .frobNorm _ _ _ out => a = out
  | .oneNorm _ _ _ out => a = out
  | .infNorm _ _ _ out => a = out
  | .gemv _ _ y => y.Cell a
  | .gemvUpdate _ _ _ z => z.Cell a
  | .symv _ _ _ y => y.Cell a
  | .symvUpdate _ _ _ _ z => z.Cell a
  | .hemv _ _ _ y => y.Cell a
  | .hemvUpdate _ _ _ _ z => z.Cell a
  | .trmv _ _ _ _ y => y.Cell a
  | .trmvUpdate _ _ _ _ _ z => z.Cell a
  | .trmvInPlace _ _ _ y => y.Cell a
  | .trsv _ _ _ _ _ x => x.Cell a
  | .ger _ _ A => A.Cell a
  | .gerc _ _ A => A.Cell a
  | .syrAlpha _ _ A t => A.CellOn t.region a
  | .syr _ A t => A.CellOn t.region a
  | .syr2 _ _ A t => A.CellOn t.region a
  | .herAlpha _ _ A t => A.CellOn t.region a
  | .her _ A t => A.CellOn t.region a
  | .her2 _ _ A t => A.CellOn t.region a
  | .syrkAlpha _ _ C t => C.CellOn t.region a
  | .syrk _ C t => C.CellOn t.region a
  | .syr2k _ _ C t => C.CellOn t.region a
  | .herkAlpha _ _ C t => C.CellOn t.region a
  | .herk _ C t => C.CellOn t.region a
  | .her2k _ _ C t => C.CellOn t.region a
  | .gemm _ _ C => C.Cell a
  | .gemmUpdate _ _ _ C => C.Cell a
  | .trmmLeft _ _ _ _ C => C.Cell a
  | .trmmRight _ _ _ _ C => C.Cell a
  | .trmmLeftInPlace _ _ _ C => C.Cell a
  | .trmmRightInPlace _ _ _ C => C.Cell a
  | .symmLeft _ _ _ C => C.Cell a
  | .symmRight _ _ _ C => C.Cell a
  | .hemmLeft _ _ _ C => C.Cell a
  | .hemmRight _ _ _ C => C.Cell a
  | .trsm _ _ _ _ _ X => X.Cell a

/-- The result depends on the old contents of the outputs: they are updated or transformed in place.
(Otherwise they are overwritten.) -/
def Call.InPlace : Call α R → Prop
  | .scale1 _ _ => True
  | .scale2 _ _ => True
  | .swap1 _ _ => True
  | .swap2 _ _ => True
  | .givens _ _ _ _ => True
  | .givensC _ _ _ _ => True
  | .trmvInPlace _ _ _ _ => True
  | .ger _ _ _ => True
  | .gerc _ _ _ => True
  | .syrAlpha _ _ _ _ => True
  | .syr _ _ _ => True
  | .syr2 _ _ _ _ => True
  | .herAlpha _ _ _ _ => True
  | .her _ _ _ => True
  | .her2 _ _ _ _ => True
  | .syrkAlpha _ _ _ _ => True
  | .syrk _ _ _ => True
  | .syr2k _ _ _ _ => True
  | .herkAlpha _ _ _ _ => True
  | .herk _ _ _ => True
  | .her2k _ _ _ _ => True
  | .trmmLeftInPlace _ _ _ _ => True
  | .trmmRightInPlace _ _ _ _ => True
  | _ => False

/-- Address `a` belongs to an argument whose contents the result depends on. -/
def Call.Needs (c : Call α R) (a : Nat) : Prop := c.Input a ∨ c.InPlace ∧ c.Output a

/-- The output has the size of the result.  (Only for the calls whose loops are not governed by the
extents of the output anyway; other preconditions are not listed.) -/
def Call.Fits : Call α R → Prop
  | .add2 x _ z => z.rows = x.rows ∧ z.cols = x.cols
  | .gemv A _ y => y.ext = A.rows
  | .gemvUpdate A _ _ z => z.ext = A.rows
  | .symv A _ _ y => y.ext = A.rows
  | .symvUpdate A _ _ _ z => z.ext = A.rows
  | .hemv A _ _ y => y.ext = A.rows
  | .hemvUpdate A _ _ _ z => z.ext = A.rows
  | .trmv A _ _ _ y => y.ext = A.rows
  | .trmvUpdate A _ _ _ _ z => z.ext = A.rows
  | .trsv _ A _ _ _ x => x.ext = A.rows
  | .trsm A _ _ side B X => if side = .left then X.rows = A.rows ∧ X.cols = B.cols
      else X.rows = B.rows ∧ X.cols = A.cols
  | _ => True

end StdBLAS

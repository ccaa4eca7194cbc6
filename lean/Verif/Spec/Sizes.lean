import Verif.Model.Calls
import Verif.Spec.Calls

/-!
# Sizes that match

The preconditions on the sizes of the arguments that the library documents for each algorithm.
-/

namespace StdBLAS
variable {α R : Type}

/-- The sizes of the arguments match: a product has as many rows as its first factor and as many columns as
its second one, the matrices that stand for symmetric, Hermitian or triangular matrices are square, and so
on. -/
def Call.Conformant : Call α R → Prop
  | .scale1 _ _ => True
  | .scale2 _ _ => True
  | .copy1 x y => x.ext = y.ext
  | .copy2 x y => x.rows = y.rows ∧ x.cols = y.cols
  | .swap1 x y => x.ext = y.ext
  | .swap2 x y => x.rows = y.rows ∧ x.cols = y.cols
  | .add1 x y z => x.ext = z.ext ∧ y.ext = z.ext
  | .add2 x y z => x.rows = z.rows ∧ x.cols = z.cols ∧ y.rows = z.rows ∧ y.cols = z.cols
  | .givens x y _ _ => x.ext = y.ext
  | .givensC x y _ _ => x.ext = y.ext
  | .dot v1 v2 _ _ _ => v1.ext = v2.ext
  | .dotc v1 v2 _ _ _ => v1.ext = v2.ext
  | .sumOfSquares _ _ _ _ => True
  | .twoNorm _ _ _ _ => True
  | .absSum _ _ _ _ => True
  | .idxAbsMax _ _ _ _ => True
  | .frobNorm _ _ _ _ => True
  | .oneNorm _ _ _ _ => True
  | .infNorm _ _ _ _ => True
  | .gemv A x y => A.cols = x.ext ∧ A.rows = y.ext
  | .gemvUpdate A x y z => A.cols = x.ext ∧ A.rows = y.ext ∧ A.rows = z.ext
  | .symv A _ x y => A.rows = A.cols ∧ A.cols = x.ext ∧ A.rows = y.ext
  | .symvUpdate A _ x y z => A.rows = A.cols ∧ A.cols = x.ext ∧ A.rows = y.ext ∧ A.rows = z.ext
  | .hemv A _ x y => A.rows = A.cols ∧ A.cols = x.ext ∧ A.rows = y.ext
  | .hemvUpdate A _ x y z => A.rows = A.cols ∧ A.cols = x.ext ∧ A.rows = y.ext ∧ A.rows = z.ext
  | .trmv A _ _ x y => A.rows = A.cols ∧ A.cols = x.ext ∧ A.rows = y.ext
  | .trmvUpdate A _ _ x y z => A.rows = A.cols ∧ A.cols = x.ext ∧ A.rows = y.ext ∧ A.rows = z.ext
  | .trmvInPlace A _ _ y => A.rows = A.cols ∧ A.cols = y.ext
  | .trsv _ A _ _ b x => A.rows = A.cols ∧ A.rows = b.ext ∧ A.rows = x.ext
  | .ger x y A => A.rows = x.ext ∧ A.cols = y.ext
  | .gerc x y A => A.rows = x.ext ∧ A.cols = y.ext
  | .syrAlpha _ x A _ => A.rows = A.cols ∧ A.rows = x.ext
  | .syr x A _ => A.rows = A.cols ∧ A.rows = x.ext
  | .syr2 x y A _ => A.rows = A.cols ∧ A.rows = x.ext ∧ A.rows = y.ext
  | .herAlpha _ x A _ => A.rows = A.cols ∧ A.rows = x.ext
  | .her x A _ => A.rows = A.cols ∧ A.rows = x.ext
  | .her2 x y A _ => A.rows = A.cols ∧ A.rows = x.ext ∧ A.rows = y.ext
  | .syrkAlpha _ A C _ => C.rows = C.cols ∧ A.rows = C.rows
  | .syrk A C _ => C.rows = C.cols ∧ A.rows = C.rows
  | .syr2k A B C _ => C.rows = C.cols ∧ A.rows = C.rows ∧ B.rows = C.rows ∧ A.cols = B.cols
  | .herkAlpha _ A C _ => C.rows = C.cols ∧ A.rows = C.rows
  | .herk A C _ => C.rows = C.cols ∧ A.rows = C.rows
  | .her2k A B C _ => C.rows = C.cols ∧ A.rows = C.rows ∧ B.rows = C.rows ∧ A.cols = B.cols
  | .gemm A B C => A.cols = B.rows ∧ C.rows = A.rows ∧ C.cols = B.cols
  | .gemmUpdate A B E C => A.cols = B.rows ∧ C.rows = A.rows ∧ C.cols = B.cols ∧
      C.rows = E.rows ∧ C.cols = E.cols
  | .trmmLeft A _ _ B C => A.rows = A.cols ∧ A.cols = B.rows ∧ C.rows = A.rows ∧ C.cols = B.cols
  | .trmmRight B A _ _ C => A.rows = A.cols ∧ B.cols = A.rows ∧ C.rows = B.rows ∧ C.cols = A.cols
  | .trmmLeftInPlace A _ _ C => A.rows = A.cols ∧ A.cols = C.rows
  | .trmmRightInPlace A _ _ C => A.rows = A.cols ∧ C.cols = A.rows
  | .symmLeft A _ B C => A.rows = A.cols ∧ A.cols = B.rows ∧ C.rows = A.rows ∧ C.cols = B.cols
  | .symmRight B A _ C => A.rows = A.cols ∧ B.cols = A.rows ∧ C.rows = B.rows ∧ C.cols = A.cols
  | .hemmLeft A _ B C => A.rows = A.cols ∧ A.cols = B.rows ∧ C.rows = A.rows ∧ C.cols = B.cols
  | .hemmRight B A _ C => A.rows = A.cols ∧ B.cols = A.rows ∧ C.rows = B.rows ∧ C.cols = A.cols
  | .trsm A _ _ side B X => A.rows = A.cols ∧ X.rows = B.rows ∧ X.cols = B.cols ∧
      if side = .left then A.cols = B.rows else B.cols = A.rows

/-- Every element of every argument is in memory that can be accessed: of a symmetric, Hermitian or triangular
matrix, those of the named triangle. -/
def Call.Accessible (c : Call α R) (h : Heap α) : Prop :=
  ∀ a, c.Input a ∨ c.Output a → (h a).isSome

end StdBLAS

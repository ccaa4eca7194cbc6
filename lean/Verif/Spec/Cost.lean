import Verif.Model.Calls

/-!
# Counting accesses

What it costs to run a call, as the number of its accesses to elements of the arguments.
-/

namespace StdBLAS
variable {α β : Type}

/-- One access to an element. -/
inductive Access where
  | read (a : Nat)
  | write (a : Nat)
  deriving DecidableEq, Repr

/-- Is it a read? -/
def Access.isRead : Access → Bool
  | .read _ => true
  | .write _ => false

/-- Is it a write? -/
def Access.isWrite : Access → Bool
  | .read _ => false
  | .write _ => true

/-- The accesses of a call that is started in memory `h` and runs alone, in order, up to its end or
to an access that is undefined. -/
def Task.trace : Task α β → Heap α → List Access
  | .done _, _ => []
  | .fail _, _ => []
  | .load a k, h =>
    match h a with
    | some v => .read a :: (k v).trace h
    | none => []
  | .store a v k, h =>
    match h a with
    | some _ => .write a :: k.trace (Function.update h a (some v))
    | none => []

/-- The number of reads. -/
def Task.reads (p : Task α β) (h : Heap α) : Nat := (p.trace h).countP Access.isRead

/-- The number of writes. -/
def Task.writes (p : Task α β) (h : Heap α) : Nat := (p.trace h).countP Access.isWrite

/-- Started in memory `h`, the call never makes more than `r` reads and `w` writes, and if it ends
normally it has made exactly so many. -/
structure Performs (p : Task α β) (h : Heap α) (r w : Nat) : Prop where
  reads_le : p.reads h ≤ r
  writes_le : p.writes h ≤ w
  exact : ∀ b h', p.run h = .ok (b, h') → p.reads h = r ∧ p.writes h = w

/-- The number of pairs `j < i < n`: the elements of a triangle without the diagonal. -/
def pairs (n : Nat) : Nat := n * (n - 1) / 2

variable {R : Type}

/-- The matrices that stand for a symmetric, Hermitian or triangular matrix are square, and the
products with one of them are conformant. -/
def Call.Square : Call α R → Prop
  | .symv A _ _ _ => A.rows = A.cols
  | .symvUpdate A _ _ _ _ => A.rows = A.cols
  | .hemv A _ _ _ => A.rows = A.cols
  | .hemvUpdate A _ _ _ _ => A.rows = A.cols
  | .trmv A _ _ _ _ => A.rows = A.cols
  | .trmvUpdate A _ _ _ _ _ => A.rows = A.cols
  | .trmvInPlace A _ _ _ => A.rows = A.cols
  | .trsv _ A _ _ _ _ => A.rows = A.cols
  | .syrAlpha _ _ A _ => A.rows = A.cols
  | .syr _ A _ => A.rows = A.cols
  | .syr2 _ _ A _ => A.rows = A.cols
  | .herAlpha _ _ A _ => A.rows = A.cols
  | .her _ A _ => A.rows = A.cols
  | .her2 _ _ A _ => A.rows = A.cols
  | .syrkAlpha _ _ C _ => C.rows = C.cols
  | .syrk _ C _ => C.rows = C.cols
  | .syr2k _ _ C _ => C.rows = C.cols
  | .herkAlpha _ _ C _ => C.rows = C.cols
  | .herk _ C _ => C.rows = C.cols
  | .her2k _ _ C _ => C.rows = C.cols
  | .trmmLeft A _ _ _ C => A.rows = A.cols ∧ C.rows = A.cols
  | .trmmRight _ A _ _ C => A.rows = A.cols ∧ C.cols = A.rows
  | .trmmLeftInPlace A _ _ C => A.rows = A.cols ∧ C.rows = A.cols
  | .trmmRightInPlace A _ _ C => A.rows = A.cols ∧ C.cols = A.rows
  | .symmLeft A _ _ C => A.rows = A.cols ∧ C.rows = A.cols
  | .symmRight _ A _ C => A.rows = A.cols ∧ C.cols = A.rows
  | .hemmLeft A _ _ C => A.rows = A.cols ∧ C.rows = A.cols
  | .hemmRight _ A _ C => A.rows = A.cols ∧ C.cols = A.rows
  | .trsm A _ _ _ _ _ => A.rows = A.cols
  | _ => True

/-- The product of extents that the work of the algorithm is proportional to.  The elements of a
vector; the elements of a matrix and one of its rows or columns (which is written even if the matrix is
empty); for a product of matrices the elements of the result times the length of the sums, plus the
elements of the result.  An algorithm that returns a value writes this value. -/
def Call.work : Call α R → Nat
  | .scale1 _ x => x.ext
  | .scale2 _ A => A.rows * A.cols
  | .copy1 _ y => y.ext
  | .copy2 _ y => y.rows * y.cols
  | .swap1 _ y => y.ext
  | .swap2 _ y => y.rows * y.cols
  | .add1 _ _ z => z.ext
  | .add2 x _ _ => x.rows * x.cols
  | .givens x _ _ _ => x.ext
  | .givensC x _ _ _ => x.ext
  | .dot v _ _ _ _ => v.ext + 1
  | .dotc v _ _ _ _ => v.ext + 1
  | .sumOfSquares x _ _ _ => x.ext + 1
  | .twoNorm x _ _ _ => x.ext + 1
  | .absSum x _ _ _ => x.ext + 1
  | .idxAbsMax _ x _ _ => x.ext + 1
  | .frobNorm A _ _ _ => A.rows * A.cols + 1
  | .oneNorm A _ _ _ => A.rows * A.cols + 1
  | .infNorm A _ _ _ => A.rows * A.cols + 1
  | .gemv A _ _ => A.rows * (A.cols + 1)
  | .gemvUpdate A _ _ _ => A.rows * (A.cols + 1)
  | .symv A _ _ _ => A.rows * (A.cols + 1)
  | .symvUpdate A _ _ _ _ => A.rows * (A.cols + 1)
  | .hemv A _ _ _ => A.rows * (A.cols + 1)
  | .hemvUpdate A _ _ _ _ => A.rows * (A.cols + 1)
  | .trmv A _ _ _ _ => A.rows * (A.cols + 1)
  | .trmvUpdate A _ _ _ _ _ => A.rows * (A.cols + 1)
  | .trmvInPlace A _ _ _ => A.rows * (A.cols + 1)
  | .trsv _ A _ _ _ _ => A.rows * (A.cols + 1)
  | .ger _ _ A => A.rows * A.cols
  | .gerc _ _ A => A.rows * A.cols
  | .syrAlpha _ _ A _ => A.rows * A.cols
  | .syr _ A _ => A.rows * A.cols
  | .syr2 _ _ A _ => A.rows * A.cols
  | .herAlpha _ _ A _ => A.rows * (A.cols + 1)
  | .her _ A _ => A.rows * (A.cols + 1)
  | .her2 _ _ A _ => A.rows * (A.cols + 1)
  | .syrkAlpha _ A C _ => C.rows * C.cols * (A.cols + 1)
  | .syrk A C _ => C.rows * C.cols * (A.cols + 1)
  | .syr2k A _ C _ => C.rows * C.cols * (A.cols + 1)
  | .herkAlpha _ A C _ => C.rows * C.cols * (A.cols + 1)
  | .herk A C _ => C.rows * C.cols * (A.cols + 1)
  | .her2k A _ C _ => C.rows * C.cols * (A.cols + 1)
  | .gemm A _ C => C.rows * C.cols * (A.cols + 1)
  | .gemmUpdate A _ _ C => C.rows * C.cols * (A.cols + 1)
  | .trmmLeft A _ _ _ C => C.rows * C.cols * (A.cols + 1)
  | .trmmRight _ A _ _ C => C.rows * C.cols * (A.rows + 1)
  | .trmmLeftInPlace A _ _ C => C.rows * C.cols * (A.cols + 1)
  | .trmmRightInPlace A _ _ C => C.rows * C.cols * (A.rows + 1)
  | .symmLeft A _ _ C => C.rows * C.cols * (A.cols + 1)
  | .symmRight _ A _ C => C.rows * C.cols * (A.rows + 1)
  | .hemmLeft A _ _ C => C.rows * C.cols * (A.cols + 1)
  | .hemmRight _ A _ C => C.rows * C.cols * (A.rows + 1)
  | .trsm A _ _ side B _ => if side = .left then A.rows * B.cols * (A.rows + 1)
      else B.rows * A.cols * (A.rows + 1)

end StdBLAS

import Verif.Model.Calls

/-!
# The same call on arguments in other places

`p` relates the addresses of two memories: `p a b` says that the cell `a` of the first memory has become
the cell `b` of the second.  What it means that memories, views and calls correspond, and that two
programs do the same up to this renaming.
-/

namespace StdBLAS
variable {α R : Type}

/-- No cell becomes two cells, and no two cells become one. -/
def OneToOne (p : Nat → Nat → Prop) : Prop :=
  ∀ {a b a' b'}, p a b → p a' b' → (a = a' ↔ b = b')

/-- Cells that correspond are both inaccessible, or hold the same value.  (Nothing is said about the
other cells.) -/
def Heap.Moved (p : Nat → Nat → Prop) (h k : Heap α) : Prop := ∀ a b, p a b → h a = k b

/-- Two vectors have the same length, and their elements correspond. -/
structure Vec.Moved (p : Nat → Nat → Prop) (x y : Vec) : Prop where
  ext : x.ext = y.ext
  addr : ∀ i, i < x.ext → p (x.addr i) (y.addr i)

/-- Two matrices have the same extents, and their elements correspond. -/
structure Mat.Moved (p : Nat → Nat → Prop) (A B : Mat) : Prop where
  rows : A.rows = B.rows
  cols : A.cols = B.cols
  addr : ∀ i j, i < A.rows → j < A.cols → p (A.addr i j) (B.addr i j)

/-- Two vectors with the same accessor. -/
structure VecV.Moved (p : Nat → Nat → Prop) (x y : VecV α) : Prop where
  vec : x.toVec.Moved p y.toVec
  acc : x.acc = y.acc

/-- Two matrices with the same accessor. -/
structure MatV.Moved (p : Nat → Nat → Prop) (A B : MatV α) : Prop where
  mat : A.toMat.Moved p B.toMat
  acc : A.acc = B.acc

/-- Two programs do the same, started in these memories: both end with the same error, or both end
normally with the same result, in memories that correspond again and in which the cells without a
counterpart are unchanged. -/
def DoSameMoved {γ : Type} (p : Nat → Nat → Prop) (f g : Prog α γ) (h k : Heap α) : Prop :=
  (∃ e, f h = .error e ∧ g k = .error e) ∨
    ∃ a h' k', f h = .ok (a, h') ∧ g k = .ok (a, k') ∧ Heap.Moved p h' k' ∧
      (∀ a, (∀ b, ¬ p a b) → h' a = h a) ∧ ∀ b, (∀ a, ¬ p a b) → k' b = k b

/-- Two calls of the same algorithm with the same scalars, on views that correspond. -/
inductive Call.Moved (p : Nat → Nat → Prop) : Call α R → Call α R → Prop
  | scale1 (alpha : α) (x x' : Vec) :
      Vec.Moved p x x' →
        Call.Moved p (.scale1 alpha x) (.scale1 alpha x')
  | scale2 (alpha : α) (A A' : Mat) :
      Mat.Moved p A A' →
        Call.Moved p (.scale2 alpha A) (.scale2 alpha A')
  | copy1 (x x' : VecV α) (y y' : Vec) :
      VecV.Moved p x x' → Vec.Moved p y y' →
        Call.Moved p (.copy1 x y) (.copy1 x' y')
  | copy2 (x x' : MatV α) (y y' : Mat) :
      MatV.Moved p x x' → Mat.Moved p y y' →
        Call.Moved p (.copy2 x y) (.copy2 x' y')
  | swap1 (x x' : Vec) (y y' : Vec) :
      Vec.Moved p x x' → Vec.Moved p y y' →
        Call.Moved p (.swap1 x y) (.swap1 x' y')
  | swap2 (x x' : Mat) (y y' : Mat) :
      Mat.Moved p x x' → Mat.Moved p y y' →
        Call.Moved p (.swap2 x y) (.swap2 x' y')
  | add1 (x x' : VecV α) (y y' : VecV α) (z z' : Vec) :
      VecV.Moved p x x' → VecV.Moved p y y' → Vec.Moved p z z' →
        Call.Moved p (.add1 x y z) (.add1 x' y' z')
  | add2 (x x' : MatV α) (y y' : MatV α) (z z' : Mat) :
      MatV.Moved p x x' → MatV.Moved p y y' → Mat.Moved p z z' →
        Call.Moved p (.add2 x y z) (.add2 x' y' z')
  | givens (x x' : Vec) (y y' : Vec) (c : α) (s : α) :
      Vec.Moved p x x' → Vec.Moved p y y' →
        Call.Moved p (.givens x y c s) (.givens x' y' c s)
  | givensC (x x' : Vec) (y y' : Vec) (c : α) (s : α) :
      Vec.Moved p x x' → Vec.Moved p y y' →
        Call.Moved p (.givensC x y c s) (.givensC x' y' c s)
  | dot (v1 v1' : VecV α) (v2 v2' : VecV α) (init : α) (f : α → α) (out out' : Nat) :
      VecV.Moved p v1 v1' → VecV.Moved p v2 v2' → p out out' →
        Call.Moved p (.dot v1 v2 init f out) (.dot v1' v2' init f out')
  | dotc (v1 v1' : VecV α) (v2 v2' : VecV α) (init : α) (f : α → α) (out out' : Nat) :
      VecV.Moved p v1 v1' → VecV.Moved p v2 v2' → p out out' →
        Call.Moved p (.dotc v1 v2 init f out) (.dotc v1' v2' init f out')
  | sumOfSquares (x x' : VecV α) (init : SumOfSquaresOf R) (f : SumOfSquaresOf R →
        α) (out out' : Nat) :
      VecV.Moved p x x' → p out out' →
        Call.Moved p (.sumOfSquares x init f out) (.sumOfSquares x' init f out')
  | twoNorm (x x' : VecV α) (init : R) (f : R → α) (out out' : Nat) :
      VecV.Moved p x x' → p out out' →
        Call.Moved p (.twoNorm x init f out) (.twoNorm x' init f out')
  | absSum (x x' : VecV α) (init : R) (f : R → α) (out out' : Nat) :
      VecV.Moved p x x' → p out out' →
        Call.Moved p (.absSum x init f out) (.absSum x' init f out')
  | idxAbsMax (sizeMax : Nat) (x x' : VecV α) (f : Nat → α) (out out' : Nat) :
      VecV.Moved p x x' → p out out' →
        Call.Moved p (.idxAbsMax sizeMax x f out) (.idxAbsMax sizeMax x' f out')
  | frobNorm (A A' : MatV α) (init : R) (f : R → α) (out out' : Nat) :
      MatV.Moved p A A' → p out out' →
        Call.Moved p (.frobNorm A init f out) (.frobNorm A' init f out')
  | oneNorm (A A' : MatV α) (init : R) (f : R → α) (out out' : Nat) :
      MatV.Moved p A A' → p out out' →
        Call.Moved p (.oneNorm A init f out) (.oneNorm A' init f out')
  | infNorm (A A' : MatV α) (init : R) (f : R → α) (out out' : Nat) :
      MatV.Moved p A A' → p out out' →
        Call.Moved p (.infNorm A init f out) (.infNorm A' init f out')
  | gemv (A A' : MatV α) (x x' : VecV α) (y y' : Vec) :
      MatV.Moved p A A' → VecV.Moved p x x' → Vec.Moved p y y' →
        Call.Moved p (.gemv A x y) (.gemv A' x' y')
  | gemvUpdate (A A' : MatV α) (x x' : VecV α) (y y' : VecV α) (z z' : Vec) :
      MatV.Moved p A A' → VecV.Moved p x x' → VecV.Moved p y y' → Vec.Moved p z z' →
        Call.Moved p (.gemvUpdate A x y z) (.gemvUpdate A' x' y' z')
  | symv (A A' : MatV α) (t : Triangle) (x x' : VecV α) (y y' : Vec) :
      MatV.Moved p A A' → VecV.Moved p x x' → Vec.Moved p y y' →
        Call.Moved p (.symv A t x y) (.symv A' t x' y')
  | symvUpdate (A A' : MatV α) (t : Triangle) (x x' : VecV α) (y y' : VecV α) (z z' : Vec) :
      MatV.Moved p A A' → VecV.Moved p x x' → VecV.Moved p y y' → Vec.Moved p z z' →
        Call.Moved p (.symvUpdate A t x y z) (.symvUpdate A' t x' y' z')
  | hemv (A A' : MatV α) (t : Triangle) (x x' : VecV α) (y y' : Vec) :
      MatV.Moved p A A' → VecV.Moved p x x' → Vec.Moved p y y' →
        Call.Moved p (.hemv A t x y) (.hemv A' t x' y')
  | hemvUpdate (A A' : MatV α) (t : Triangle) (x x' : VecV α) (y y' : VecV α) (z z' : Vec) :
      MatV.Moved p A A' → VecV.Moved p x x' → VecV.Moved p y y' → Vec.Moved p z z' →
        Call.Moved p (.hemvUpdate A t x y z) (.hemvUpdate A' t x' y' z')
  | trmv (A A' : MatV α) (t : Triangle) (d : Diag) (x x' : VecV α) (y y' : Vec) :
      MatV.Moved p A A' → VecV.Moved p x x' → Vec.Moved p y y' →
        Call.Moved p (.trmv A t d x y) (.trmv A' t d x' y')
  | trmvUpdate (A A' : MatV α) (t : Triangle) (d : Diag) (x x' : VecV α) (y y' : VecV α)
        (z z' : Vec) :
      MatV.Moved p A A' → VecV.Moved p x x' → VecV.Moved p y y' → Vec.Moved p z z' →
        Call.Moved p (.trmvUpdate A t d x y z) (.trmvUpdate A' t d x' y' z')
  | trmvInPlace (A A' : MatV α) (t : Triangle) (d : Diag) (y y' : Vec) :
      MatV.Moved p A A' → Vec.Moved p y y' →
        Call.Moved p (.trmvInPlace A t d y) (.trmvInPlace A' t d y')
  | trsv (divide : α → α →
        α) (A A' : MatV α) (t : Triangle) (d : Diag) (b b' : VecV α) (x x' : Vec) :
      MatV.Moved p A A' → VecV.Moved p b b' → Vec.Moved p x x' →
        Call.Moved p (.trsv divide A t d b x) (.trsv divide A' t d b' x')
  | ger (x x' : VecV α) (y y' : VecV α) (A A' : Mat) :
      VecV.Moved p x x' → VecV.Moved p y y' → Mat.Moved p A A' →
        Call.Moved p (.ger x y A) (.ger x' y' A')
  | gerc (x x' : VecV α) (y y' : VecV α) (A A' : Mat) :
      VecV.Moved p x x' → VecV.Moved p y y' → Mat.Moved p A A' →
        Call.Moved p (.gerc x y A) (.gerc x' y' A')
  | syrAlpha (alpha : α) (x x' : VecV α) (A A' : Mat) (t : Triangle) :
      VecV.Moved p x x' → Mat.Moved p A A' →
        Call.Moved p (.syrAlpha alpha x A t) (.syrAlpha alpha x' A' t)
  | syr (x x' : VecV α) (A A' : Mat) (t : Triangle) :
      VecV.Moved p x x' → Mat.Moved p A A' →
        Call.Moved p (.syr x A t) (.syr x' A' t)
  | syr2 (x x' : VecV α) (y y' : VecV α) (A A' : Mat) (t : Triangle) :
      VecV.Moved p x x' → VecV.Moved p y y' → Mat.Moved p A A' →
        Call.Moved p (.syr2 x y A t) (.syr2 x' y' A' t)
  | herAlpha (alpha : α) (x x' : VecV α) (A A' : Mat) (t : Triangle) :
      VecV.Moved p x x' → Mat.Moved p A A' →
        Call.Moved p (.herAlpha alpha x A t) (.herAlpha alpha x' A' t)
  | her (x x' : VecV α) (A A' : Mat) (t : Triangle) :
      VecV.Moved p x x' → Mat.Moved p A A' →
        Call.Moved p (.her x A t) (.her x' A' t)
  | her2 (x x' : VecV α) (y y' : VecV α) (A A' : Mat) (t : Triangle) :
      VecV.Moved p x x' → VecV.Moved p y y' → Mat.Moved p A A' →
        Call.Moved p (.her2 x y A t) (.her2 x' y' A' t)
  | syrkAlpha (alpha : α) (A A' : MatV α) (C C' : Mat) (t : Triangle) :
      MatV.Moved p A A' → Mat.Moved p C C' →
        Call.Moved p (.syrkAlpha alpha A C t) (.syrkAlpha alpha A' C' t)
  | syrk (A A' : MatV α) (C C' : Mat) (t : Triangle) :
      MatV.Moved p A A' → Mat.Moved p C C' →
        Call.Moved p (.syrk A C t) (.syrk A' C' t)
  | syr2k (A A' : MatV α) (B B' : MatV α) (C C' : Mat) (t : Triangle) :
      MatV.Moved p A A' → MatV.Moved p B B' → Mat.Moved p C C' →
        Call.Moved p (.syr2k A B C t) (.syr2k A' B' C' t)
  | herkAlpha (alpha : α) (A A' : MatV α) (C C' : Mat) (t : Triangle) :
      MatV.Moved p A A' → Mat.Moved p C C' →
        Call.Moved p (.herkAlpha alpha A C t) (.herkAlpha alpha A' C' t)
  | herk (A A' : MatV α) (C C' : Mat) (t : Triangle) :
      MatV.Moved p A A' → Mat.Moved p C C' →
        Call.Moved p (.herk A C t) (.herk A' C' t)
  | her2k (A A' : MatV α) (B B' : MatV α) (C C' : Mat) (t : Triangle) :
      MatV.Moved p A A' → MatV.Moved p B B' → Mat.Moved p C C' →
        Call.Moved p (.her2k A B C t) (.her2k A' B' C' t)
  | gemm (A A' : MatV α) (B B' : MatV α) (C C' : Mat) :
      MatV.Moved p A A' → MatV.Moved p B B' → Mat.Moved p C C' →
        Call.Moved p (.gemm A B C) (.gemm A' B' C')
  | gemmUpdate (A A' : MatV α) (B B' : MatV α) (E E' : MatV α) (C C' : Mat) :
      MatV.Moved p A A' → MatV.Moved p B B' → MatV.Moved p E E' → Mat.Moved p C C' →
        Call.Moved p (.gemmUpdate A B E C) (.gemmUpdate A' B' E' C')
  | trmmLeft (A A' : MatV α) (t : Triangle) (d : Diag) (B B' : MatV α) (C C' : Mat) :
      MatV.Moved p A A' → MatV.Moved p B B' → Mat.Moved p C C' →
        Call.Moved p (.trmmLeft A t d B C) (.trmmLeft A' t d B' C')
  | trmmRight (B B' : MatV α) (A A' : MatV α) (t : Triangle) (d : Diag) (C C' : Mat) :
      MatV.Moved p B B' → MatV.Moved p A A' → Mat.Moved p C C' →
        Call.Moved p (.trmmRight B A t d C) (.trmmRight B' A' t d C')
  | trmmLeftInPlace (A A' : MatV α) (t : Triangle) (d : Diag) (C C' : Mat) :
      MatV.Moved p A A' → Mat.Moved p C C' →
        Call.Moved p (.trmmLeftInPlace A t d C) (.trmmLeftInPlace A' t d C')
  | trmmRightInPlace (A A' : MatV α) (t : Triangle) (d : Diag) (C C' : Mat) :
      MatV.Moved p A A' → Mat.Moved p C C' →
        Call.Moved p (.trmmRightInPlace A t d C) (.trmmRightInPlace A' t d C')
  | symmLeft (A A' : MatV α) (t : Triangle) (B B' : MatV α) (C C' : Mat) :
      MatV.Moved p A A' → MatV.Moved p B B' → Mat.Moved p C C' →
        Call.Moved p (.symmLeft A t B C) (.symmLeft A' t B' C')
  | symmRight (B B' : MatV α) (A A' : MatV α) (t : Triangle) (C C' : Mat) :
      MatV.Moved p B B' → MatV.Moved p A A' → Mat.Moved p C C' →
        Call.Moved p (.symmRight B A t C) (.symmRight B' A' t C')
  | hemmLeft (A A' : MatV α) (t : Triangle) (B B' : MatV α) (C C' : Mat) :
      MatV.Moved p A A' → MatV.Moved p B B' → Mat.Moved p C C' →
        Call.Moved p (.hemmLeft A t B C) (.hemmLeft A' t B' C')
  | hemmRight (B B' : MatV α) (A A' : MatV α) (t : Triangle) (C C' : Mat) :
      MatV.Moved p B B' → MatV.Moved p A A' → Mat.Moved p C C' →
        Call.Moved p (.hemmRight B A t C) (.hemmRight B' A' t C')
  | trsm (A A' : MatV α) (t : Triangle) (d : Diag) (side : Side) (B B' : MatV α) (X X' : Mat) :
      MatV.Moved p A A' → MatV.Moved p B B' → Mat.Moved p X X' →
        Call.Moved p (.trsm A t d side B X) (.trsm A' t d side B' X')

end StdBLAS

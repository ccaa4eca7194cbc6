import Verif.Model.Calls

/-!
# Two element types, the same call

A relation `rel` between the values of two element types, and what it means that the operations of
the types respect it, that two memories or two calls correspond, and that two programs do the same.
`srel` is such a relation for the `Scalar` types of the norms.

Examples of relations: `b` is `a` converted to a larger type; `b` is lane 3 of the pack `a`; the
interval `b` contains `a`; `b` is the pair of value and derivative of the function `a`.
-/

namespace StdBLAS
variable {α β R S : Type}

/-- The ring operations respect the relation. -/
structure Respects (rel : α → β → Prop) [Add α] [Sub α] [Mul α] [Zero α] [ConjOps α]
    [Add β] [Sub β] [Mul β] [Zero β] [ConjOps β] : Prop where
  zero : rel 0 0
  add : ∀ {a b c d}, rel a b → rel c d → rel (a + c) (b + d)
  sub : ∀ {a b c d}, rel a b → rel c d → rel (a - c) (b - d)
  mul : ∀ {a b c d}, rel a b → rel c d → rel (a * c) (b * d)
  conj : ∀ {a b}, rel a b → rel (ConjOps.conj a) (ConjOps.conj b)
  re : ∀ {a b}, rel a b → rel (ConjOps.re a) (ConjOps.re b)

/-- Division respects the relation. -/
def RespectsDiv (rel : α → β → Prop) [Div α] [Div β] : Prop :=
  ∀ {a b c d}, rel a b → rel c d → rel (a / c) (b / d)

/-- What `vector_abs_sum` adds to the sum `s` for an element `a`. -/
def addMagnitude [Add R] [MagOps α R] (s : R) (a : α) : R :=
  if MagOps.isArith α R then s + MagOps.abs a else s + MagOps.absRe a + MagOps.absIm a

/-- The operations of the norms respect the relations: arithmetic, square root, the outcome of every
comparison, and the magnitudes. -/
structure RespectsNorms (rel : α → β → Prop) (srel : R → S → Prop)
    [Zero R] [One R] [Add R] [Mul R] [Div R] [FloatOps R] [MagOps α R]
    [Zero S] [One S] [Add S] [Mul S] [Div S] [FloatOps S] [MagOps β S] : Prop where
  zero : srel 0 0
  one : srel 1 1
  add : ∀ {a b c d}, srel a b → srel c d → srel (a + c) (b + d)
  mul : ∀ {a b c d}, srel a b → srel c d → srel (a * c) (b * d)
  div : ∀ {a b c d}, srel a b → srel c d → srel (a / c) (b / d)
  sqrt : ∀ {a b}, srel a b → srel (FloatOps.sqrt a) (FloatOps.sqrt b)
  lt : ∀ {a b c d}, srel a b → srel c d → FloatOps.lt a c = FloatOps.lt b d
  ne : ∀ {a b c d}, srel a b → srel c d → FloatOps.ne a c = FloatOps.ne b d
  abs : ∀ {a b}, rel a b → srel (MagOps.abs a) (MagOps.abs b)
  addMagnitude : ∀ {s t a b}, srel s t → rel a b → srel (addMagnitude s a) (addMagnitude t b)
  idxMagnitude : ∀ {a b}, rel a b → srel (idxMagnitudeOf R a) (idxMagnitudeOf S b)

/-- Two memories correspond: the same cells can be accessed, and they hold related values. -/
def Heap.Related (rel : α → β → Prop) (h : Heap α) (k : Heap β) : Prop :=
  ∀ a, Option.Rel rel (h a) (k a)

/-- Two vectors correspond: the same cells, and accessors that make related values of related ones. -/
structure VecV.Related (rel : α → β → Prop) (x : VecV α) (y : VecV β) : Prop where
  same : x.toVec = y.toVec
  acc : ∀ {v w}, rel v w → rel (x.acc v) (y.acc w)

/-- Two matrices correspond. -/
structure MatV.Related (rel : α → β → Prop) (A : MatV α) (B : MatV β) : Prop where
  same : A.toMat = B.toMat
  acc : ∀ {v w}, rel v w → rel (A.acc v) (B.acc w)

/-- Two functions correspond. -/
def FunRelated {γ δ : Type} (r : γ → δ → Prop) (rel : α → β → Prop) (f : γ → α) (g : δ →
        β) : Prop :=
  ∀ {a b}, r a b → rel (f a) (g b)

/-- Two pairs of scaling factor and scaled sum correspond. -/
structure SumOfSquaresOf.Related (srel : R → S → Prop) (p : SumOfSquaresOf R)
    (q : SumOfSquaresOf S) : Prop where
  scale : srel p.scalingFactor q.scalingFactor
  sum : srel p.scaledSumOfSquares q.scaledSumOfSquares

/-- Two programs do the same, started in these memories: both end with the same error, or both end
normally with results related by `res` and memories related by `rel`. -/
def DoSame {γ δ : Type} (rel : α → β → Prop) (res : γ → δ → Prop) (p : Prog α γ) (q : Prog β δ)
    (h : Heap α) (k : Heap β) : Prop :=
  (∃ e, p h = .error e ∧ q k = .error e) ∨
    ∃ a b h' k', p h = .ok (a, h') ∧ q k = .ok (b, k') ∧ res a b ∧ Heap.Related rel h' k'

/-- Two calls correspond: the same algorithm, the same cells, related scalars and accessors. -/
inductive Call.Related (rel : α → β → Prop) (srel : R → S → Prop) : Call α R → Call β S → Prop
  | scale1 (alpha alpha') (x : Vec) :
      rel alpha alpha' → Call.Related rel srel (.scale1 alpha x) (.scale1 alpha' x)
  | scale2 (alpha alpha') (A : Mat) :
      rel alpha alpha' → Call.Related rel srel (.scale2 alpha A) (.scale2 alpha' A)
  | copy1 (x x') (y : Vec) :
      VecV.Related rel x x' → Call.Related rel srel (.copy1 x y) (.copy1 x' y)
  | copy2 (x x') (y : Mat) :
      MatV.Related rel x x' → Call.Related rel srel (.copy2 x y) (.copy2 x' y)
  | swap1 (x : Vec) (y : Vec) :
      Call.Related rel srel (.swap1 x y) (.swap1 x y)
  | swap2 (x : Mat) (y : Mat) :
      Call.Related rel srel (.swap2 x y) (.swap2 x y)
  | add1 (x x') (y y') (z : Vec) :
      VecV.Related rel x x' → VecV.Related rel y y' →
        Call.Related rel srel (.add1 x y z) (.add1 x' y' z)
  | add2 (x x') (y y') (z : Mat) :
      MatV.Related rel x x' → MatV.Related rel y y' →
        Call.Related rel srel (.add2 x y z) (.add2 x' y' z)
  | givens (x : Vec) (y : Vec) (c c') (s s') :
      rel c c' → rel s s' → Call.Related rel srel (.givens x y c s) (.givens x y c' s')
  | givensC (x : Vec) (y : Vec) (c c') (s s') :
      rel c c' → rel s s' → Call.Related rel srel (.givensC x y c s) (.givensC x y c' s')
  | dot (v1 v1') (v2 v2') (init init') (f f') (out : Nat) :
      VecV.Related rel v1 v1' → VecV.Related rel v2 v2' → rel init init' →
        FunRelated rel rel f f' →
        Call.Related rel srel (.dot v1 v2 init f out) (.dot v1' v2' init' f' out)
  | dotc (v1 v1') (v2 v2') (init init') (f f') (out : Nat) :
      VecV.Related rel v1 v1' → VecV.Related rel v2 v2' → rel init init' →
        FunRelated rel rel f f' →
        Call.Related rel srel (.dotc v1 v2 init f out) (.dotc v1' v2' init' f' out)
  | sumOfSquares (x x') (init init') (f f') (out : Nat) :
      VecV.Related rel x x' → SumOfSquaresOf.Related srel init init' →
        FunRelated (SumOfSquaresOf.Related srel) rel f f' →
        Call.Related rel srel (.sumOfSquares x init f out) (.sumOfSquares x' init' f' out)
  | twoNorm (x x') (init init') (f f') (out : Nat) :
      VecV.Related rel x x' → srel init init' → FunRelated srel rel f f' →
        Call.Related rel srel (.twoNorm x init f out) (.twoNorm x' init' f' out)
  | absSum (x x') (init init') (f f') (out : Nat) :
      VecV.Related rel x x' → srel init init' → FunRelated srel rel f f' →
        Call.Related rel srel (.absSum x init f out) (.absSum x' init' f' out)
  | idxAbsMax (sizeMax : Nat) (x x') (f f') (out : Nat) :
      VecV.Related rel x x' → FunRelated (fun i j => i = j) rel f f' →
        Call.Related rel srel (.idxAbsMax sizeMax x f out) (.idxAbsMax sizeMax x' f' out)
  | frobNorm (A A') (init init') (f f') (out : Nat) :
      MatV.Related rel A A' → srel init init' → FunRelated srel rel f f' →
        Call.Related rel srel (.frobNorm A init f out) (.frobNorm A' init' f' out)
  | oneNorm (A A') (init init') (f f') (out : Nat) :
      MatV.Related rel A A' → srel init init' → FunRelated srel rel f f' →
        Call.Related rel srel (.oneNorm A init f out) (.oneNorm A' init' f' out)
  | infNorm (A A') (init init') (f f') (out : Nat) :
      MatV.Related rel A A' → srel init init' → FunRelated srel rel f f' →
        Call.Related rel srel (.infNorm A init f out) (.infNorm A' init' f' out)
  | gemv (A A') (x x') (y : Vec) :
      MatV.Related rel A A' → VecV.Related rel x x' →
        Call.Related rel srel (.gemv A x y) (.gemv A' x' y)
  | gemvUpdate (A A') (x x') (y y') (z : Vec) :
      MatV.Related rel A A' → VecV.Related rel x x' → VecV.Related rel y y' →
        Call.Related rel srel (.gemvUpdate A x y z) (.gemvUpdate A' x' y' z)
  | symv (A A') (t : Triangle) (x x') (y : Vec) :
      MatV.Related rel A A' → VecV.Related rel x x' →
        Call.Related rel srel (.symv A t x y) (.symv A' t x' y)
  | symvUpdate (A A') (t : Triangle) (x x') (y y') (z : Vec) :
      MatV.Related rel A A' → VecV.Related rel x x' → VecV.Related rel y y' →
        Call.Related rel srel (.symvUpdate A t x y z) (.symvUpdate A' t x' y' z)
  | hemv (A A') (t : Triangle) (x x') (y : Vec) :
      MatV.Related rel A A' → VecV.Related rel x x' →
        Call.Related rel srel (.hemv A t x y) (.hemv A' t x' y)
  | hemvUpdate (A A') (t : Triangle) (x x') (y y') (z : Vec) :
      MatV.Related rel A A' → VecV.Related rel x x' → VecV.Related rel y y' →
        Call.Related rel srel (.hemvUpdate A t x y z) (.hemvUpdate A' t x' y' z)
  | trmv (A A') (t : Triangle) (d : Diag) (x x') (y : Vec) :
      MatV.Related rel A A' → VecV.Related rel x x' →
        Call.Related rel srel (.trmv A t d x y) (.trmv A' t d x' y)
  | trmvUpdate (A A') (t : Triangle) (d : Diag) (x x') (y y') (z : Vec) :
      MatV.Related rel A A' → VecV.Related rel x x' → VecV.Related rel y y' →
        Call.Related rel srel (.trmvUpdate A t d x y z) (.trmvUpdate A' t d x' y' z)
  | trmvInPlace (A A') (t : Triangle) (d : Diag) (y : Vec) :
      MatV.Related rel A A' → Call.Related rel srel (.trmvInPlace A t d y) (.trmvInPlace A' t d y)
  | trsv (divide divide') (A A') (t : Triangle) (d : Diag) (b b') (x : Vec) :
      (d = .explicit →
        ∀ {a b v w}, rel a b → rel v w → rel (divide a v) (divide' b w)) → MatV.Related rel A A' →
        VecV.Related rel b b' →
        Call.Related rel srel (.trsv divide A t d b x) (.trsv divide' A' t d b' x)
  | ger (x x') (y y') (A : Mat) :
      VecV.Related rel x x' → VecV.Related rel y y' →
        Call.Related rel srel (.ger x y A) (.ger x' y' A)
  | gerc (x x') (y y') (A : Mat) :
      VecV.Related rel x x' → VecV.Related rel y y' →
        Call.Related rel srel (.gerc x y A) (.gerc x' y' A)
  | syrAlpha (alpha alpha') (x x') (A : Mat) (t : Triangle) :
      rel alpha alpha' → VecV.Related rel x x' →
        Call.Related rel srel (.syrAlpha alpha x A t) (.syrAlpha alpha' x' A t)
  | syr (x x') (A : Mat) (t : Triangle) :
      VecV.Related rel x x' → Call.Related rel srel (.syr x A t) (.syr x' A t)
  | syr2 (x x') (y y') (A : Mat) (t : Triangle) :
      VecV.Related rel x x' → VecV.Related rel y y' →
        Call.Related rel srel (.syr2 x y A t) (.syr2 x' y' A t)
  | herAlpha (alpha alpha') (x x') (A : Mat) (t : Triangle) :
      rel alpha alpha' → VecV.Related rel x x' →
        Call.Related rel srel (.herAlpha alpha x A t) (.herAlpha alpha' x' A t)
  | her (x x') (A : Mat) (t : Triangle) :
      VecV.Related rel x x' → Call.Related rel srel (.her x A t) (.her x' A t)
  | her2 (x x') (y y') (A : Mat) (t : Triangle) :
      VecV.Related rel x x' → VecV.Related rel y y' →
        Call.Related rel srel (.her2 x y A t) (.her2 x' y' A t)
  | syrkAlpha (alpha alpha') (A A') (C : Mat) (t : Triangle) :
      rel alpha alpha' → MatV.Related rel A A' →
        Call.Related rel srel (.syrkAlpha alpha A C t) (.syrkAlpha alpha' A' C t)
  | syrk (A A') (C : Mat) (t : Triangle) :
      MatV.Related rel A A' → Call.Related rel srel (.syrk A C t) (.syrk A' C t)
  | syr2k (A A') (B B') (C : Mat) (t : Triangle) :
      MatV.Related rel A A' → MatV.Related rel B B' →
        Call.Related rel srel (.syr2k A B C t) (.syr2k A' B' C t)
  | herkAlpha (alpha alpha') (A A') (C : Mat) (t : Triangle) :
      rel alpha alpha' → MatV.Related rel A A' →
        Call.Related rel srel (.herkAlpha alpha A C t) (.herkAlpha alpha' A' C t)
  | herk (A A') (C : Mat) (t : Triangle) :
      MatV.Related rel A A' → Call.Related rel srel (.herk A C t) (.herk A' C t)
  | her2k (A A') (B B') (C : Mat) (t : Triangle) :
      MatV.Related rel A A' → MatV.Related rel B B' →
        Call.Related rel srel (.her2k A B C t) (.her2k A' B' C t)
  | gemm (A A') (B B') (C : Mat) :
      MatV.Related rel A A' → MatV.Related rel B B' →
        Call.Related rel srel (.gemm A B C) (.gemm A' B' C)
  | gemmUpdate (A A') (B B') (E E') (C : Mat) :
      MatV.Related rel A A' → MatV.Related rel B B' → MatV.Related rel E E' →
        Call.Related rel srel (.gemmUpdate A B E C) (.gemmUpdate A' B' E' C)
  | trmmLeft (A A') (t : Triangle) (d : Diag) (B B') (C : Mat) :
      MatV.Related rel A A' → MatV.Related rel B B' →
        Call.Related rel srel (.trmmLeft A t d B C) (.trmmLeft A' t d B' C)
  | trmmRight (B B') (A A') (t : Triangle) (d : Diag) (C : Mat) :
      MatV.Related rel B B' → MatV.Related rel A A' →
        Call.Related rel srel (.trmmRight B A t d C) (.trmmRight B' A' t d C)
  | trmmLeftInPlace (A A') (t : Triangle) (d : Diag) (C : Mat) :
      MatV.Related rel A A' →
        Call.Related rel srel (.trmmLeftInPlace A t d C) (.trmmLeftInPlace A' t d C)
  | trmmRightInPlace (A A') (t : Triangle) (d : Diag) (C : Mat) :
      MatV.Related rel A A' →
        Call.Related rel srel (.trmmRightInPlace A t d C) (.trmmRightInPlace A' t d C)
  | symmLeft (A A') (t : Triangle) (B B') (C : Mat) :
      MatV.Related rel A A' → MatV.Related rel B B' →
        Call.Related rel srel (.symmLeft A t B C) (.symmLeft A' t B' C)
  | symmRight (B B') (A A') (t : Triangle) (C : Mat) :
      MatV.Related rel B B' → MatV.Related rel A A' →
        Call.Related rel srel (.symmRight B A t C) (.symmRight B' A' t C)
  | hemmLeft (A A') (t : Triangle) (B B') (C : Mat) :
      MatV.Related rel A A' → MatV.Related rel B B' →
        Call.Related rel srel (.hemmLeft A t B C) (.hemmLeft A' t B' C)
  | hemmRight (B B') (A A') (t : Triangle) (C : Mat) :
      MatV.Related rel B B' → MatV.Related rel A A' →
        Call.Related rel srel (.hemmRight B A t C) (.hemmRight B' A' t C)
  | trsm (A A') (t : Triangle) (d : Diag) (side : Side) (B B') (X : Mat) :
      MatV.Related rel A A' → MatV.Related rel B B' →
        Call.Related rel srel (.trsm A t d side B X) (.trsm A' t d side B' X)

/-- The algorithms that compute magnitudes (norms). -/
def Call.IsNorm : Call α R → Prop
  | .sumOfSquares .. | .twoNorm .. | .absSum .. | .idxAbsMax .. | .frobNorm .. | .oneNorm ..
  | .infNorm .. => True
  | _ => False

/-- The algorithms that use the operator `/` of the element type.  (The vector solve is given its
division as an argument, `Call.Related` covers it.) -/
def Call.Divides : Call α R → Prop
  | .trsm _ _ d _ _ _ => d = .explicit
  | _ => False

end StdBLAS

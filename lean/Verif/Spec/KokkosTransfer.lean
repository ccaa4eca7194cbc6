import Verif.Model.Kokkos
import Verif.Spec.Transfer
import Verif.Spec.Moved

/-!
# The same call of the Kokkos backend, on other types and in other places

All the calls of the Kokkos backend whose loops are in the repository (`KCall`), and what it means that two
such calls correspond and that they do the same *whatever the schedule*.  `rel` relates the values of two
element types (as in `Spec/Transfer.lean`), `p` the addresses of two memories (as in
`Spec/Moved.lean`).
-/

namespace StdBLAS
variable {α β : Type}

/-- A call of the Kokkos backend.  A call that returns a number is followed by `*out = f(result)`.
Each constructor is the function of `Model/Kokkos.lean` that `KCall.sched` names. -/
inductive KCall (α : Type) where
  | copy2 (x : KMat) (y : KMat)
  | swap1 (x : KVec) (y : KVec)
  | swap2 (x : KMat) (y : KMat)
  | gemvUpdate (A : KMat) (x : KVec) (y : KVec) (z : KVec)
  | symv (A : KMat) (t : Triangle) (x : KVec) (y : KVec)
  | symvUpdate (A : KMat) (t : Triangle) (x : KVec) (y : KVec) (z : KVec)
  | hemv (A : KMat) (t : Triangle) (x : KVec) (y : KVec)
  | hemvUpdate (A : KMat) (t : Triangle) (x : KVec) (y : KVec) (z : KVec)
  | trmv (A : KMat) (t : Triangle) (d : Diag) (x : KVec) (y : KVec)
  | trmvUpdate (A : KMat) (t : Triangle) (d : Diag) (x : KVec) (y : KVec) (z : KVec)
  | ger (x : KVec) (y : KVec) (A : KMat)
  | gerc (x : KVec) (y : KVec) (A : KMat)
  | syr (x : KVec) (A : KMat) (t : Triangle)
  | her (x : KVec) (A : KMat) (t : Triangle)
  | syr2 (x : KVec) (y : KVec) (A : KMat) (t : Triangle)
  | her2 (x : KVec) (y : KVec) (A : KMat) (t : Triangle)
  | syrk (alpha : α) (A : KMat) (C : KMat) (t : Triangle)
  | herk (alpha : α) (A : KMat) (C : KMat) (t : Triangle)
  | syr2k (A : KMat) (B : KMat) (C : KMat) (t : Triangle)
  | her2k (A : KMat) (B : KMat) (C : KMat) (t : Triangle)
  | symmLeft (A : KMat) (t : Triangle) (B : KMat) (C : KMat)
  | symmLeftUpdate (A : KMat) (t : Triangle) (B : KMat) (E : KMat) (C : KMat)
  | symmRight (A : KMat) (t : Triangle) (B : KMat) (C : KMat)
  | symmRightUpdate (A : KMat) (t : Triangle) (B : KMat) (E : KMat) (C : KMat)
  | hemmLeft (A : KMat) (t : Triangle) (B : KMat) (C : KMat)
  | hemmLeftUpdate (A : KMat) (t : Triangle) (B : KMat) (E : KMat) (C : KMat)
  | hemmRight (A : KMat) (t : Triangle) (B : KMat) (C : KMat)
  | hemmRightUpdate (A : KMat) (t : Triangle) (B : KMat) (E : KMat) (C : KMat)
  | trmmLeft (A : KMat) (t : Triangle) (B : KMat) (C : KMat)
  | trmmLeftInPlace (A : KMat) (t : Triangle) (C : KMat)
  | trmmRight (A : KMat) (t : Triangle) (B : KMat) (C : KMat)
  | trmmRightInPlace (A : KMat) (t : Triangle) (C : KMat)
  | dot (x : KVec) (y : KVec) (init : α) (f : α → α) (out : Nat)
  | absSum (x : KVec) (init : ℝ) (f : ℝ → α) (out : Nat)
  | norm2 (x : KVec) (init : ℝ) (f : ℝ → α) (out : Nat)
  | frobNorm (low : ℝ) (A : KMat) (init : ℝ) (f : ℝ → α) (out : Nat)
  | infNorm (low : ℝ) (A : KMat) (init : ℝ) (f : ℝ → α) (out : Nat)
  | oneNorm (low : ℝ) (A : KMat) (init : ℝ) (f : ℝ → α) (out : Nat)
  | sumOfSquares (low : ℝ) (x : KVec) (init : SumOfSquares) (f : SumOfSquares → α) (out : Nat)

/-- `*out = f(result)` after a call. -/
def Sched.into {γ : Type} (c : Sched α γ) (f : γ → α) (out : Nat) : Sched α Unit := do
  let r ← c
  Sched.lift (Prog.store out (f r))

/-- What the call does. -/
noncomputable def KCall.sched [Add α] [Mul α] [Zero α] [ConjOps α] [AbsOps α] :
    KCall α → Sched α Unit
  | .copy2 x y => kkCopy2 x y
  | .swap1 x y => kkSwap1 x y
  | .swap2 x y => kkSwap2 x y
  | .gemvUpdate A x y z => kkGemvUpdate A x y z
  | .symv A t x y => kkSymv A t x y
  | .symvUpdate A t x y z => kkSymvUpdate A t x y z
  | .hemv A t x y => kkHemv A t x y
  | .hemvUpdate A t x y z => kkHemvUpdate A t x y z
  | .trmv A t d x y => kkTrmv A t d x y
  | .trmvUpdate A t d x y z => kkTrmvUpdate A t d x y z
  | .ger x y A => kkGer x y A
  | .gerc x y A => kkGerc x y A
  | .syr x A t => kkSyr x A t
  | .her x A t => kkHer x A t
  | .syr2 x y A t => kkSyr2 x y A t
  | .her2 x y A t => kkHer2 x y A t
  | .syrk alpha A C t => kkSyrk alpha A C t
  | .herk alpha A C t => kkHerk alpha A C t
  | .syr2k A B C t => kkSyr2k A B C t
  | .her2k A B C t => kkHer2k A B C t
  | .symmLeft A t B C => kkSymmLeft A t B C
  | .symmLeftUpdate A t B E C => kkSymmLeftUpdate A t B E C
  | .symmRight A t B C => kkSymmRight A t B C
  | .symmRightUpdate A t B E C => kkSymmRightUpdate A t B E C
  | .hemmLeft A t B C => kkHemmLeft A t B C
  | .hemmLeftUpdate A t B E C => kkHemmLeftUpdate A t B E C
  | .hemmRight A t B C => kkHemmRight A t B C
  | .hemmRightUpdate A t B E C => kkHemmRightUpdate A t B E C
  | .trmmLeft A t B C => kkTrmmLeft A t B C
  | .trmmLeftInPlace A t C => kkTrmmLeftInPlace A t C
  | .trmmRight A t B C => kkTrmmRight A t B C
  | .trmmRightInPlace A t C => kkTrmmRightInPlace A t C
  | .dot x y init f out => (kkDot x y init).into f out
  | .absSum x init f out => (kkAbsSum x init).into f out
  | .norm2 x init f out => (kkNorm2 x init).into f out
  | .frobNorm low A init f out => (kkFrobNorm low A init).into f out
  | .infNorm low A init f out => (kkInfNorm low A init).into f out
  | .oneNorm low A init f out => (kkOneNorm low A init).into f out
  | .sumOfSquares low x init f out => (kkSumOfSquares low x init).into f out

/-- The operations respect the relation; the absolute values are the same numbers. -/
structure RespectsKokkos (rel : α → β → Prop) [Add α] [Mul α] [Zero α] [ConjOps α] [AbsOps α]
    [Add β] [Mul β] [Zero β] [ConjOps β] [AbsOps β] : Prop where
  zero : rel 0 0
  add : ∀ {a b c d}, rel a b → rel c d → rel (a + c) (b + d)
  mul : ∀ {a b c d}, rel a b → rel c d → rel (a * c) (b * d)
  conj : ∀ {a b}, rel a b → rel (ConjOps.conj a) (ConjOps.conj b)
  abs : ∀ {a b}, rel a b → (AbsOps.abs a : ℝ) = AbsOps.abs b

/-- Cells that correspond are both inaccessible, or hold related values. -/
def Heap.Linked (rel : α → β → Prop) (p : Nat → Nat → Prop) (h : Heap α) (k : Heap β) : Prop :=
  ∀ a b, p a b → Option.Rel rel (h a) (k b)

/-- Two rank-1 arguments have the same extent, and the elements of the views that the backend makes of
them correspond. -/
structure KVec.Moved (p : Nat → Nat → Prop) (x y : KVec) : Prop where
  ext : x.ext = y.ext
  addr : ∀ i, i < x.ext → p (x.view.addr i) (y.view.addr i)

/-- Two rank-2 arguments have the same extents, their elements correspond, and both or neither have a
transposed layout. -/
structure KMat.Moved (p : Nat → Nat → Prop) (A B : KMat) : Prop where
  mat : A.toMat.Moved p B.toMat
  transposed : A.transposed = B.transposed

/-- Two outcomes correspond: the same error, or normal ends in memories that correspond. -/
inductive LinkedOutcome {γ δ : Type} (rel : α → β → Prop) (p : Nat → Nat → Prop) (res : γ → δ → Prop) :
    Except Err (γ × Heap α) → Except Err (δ × Heap β) → Prop
  | error (e : Err) : LinkedOutcome rel p res (.error e) (.error e)
  | ok (a : γ) (b : δ) (h : Heap α) (k : Heap β) : res a b → Heap.Linked rel p h k →
      LinkedOutcome rel p res (.ok (a, h)) (.ok (b, k))

/-- Two calls do the same whatever the schedule: each outcome that some schedule of one can have, some
schedule of the other can have too, up to the relations. -/
def SchedSame {γ δ : Type} (rel : α → β → Prop) (p : Nat → Nat → Prop) (res : γ → δ → Prop)
    (P : Sched α γ) (Q : Sched β δ) (h : Heap α) (k : Heap β) : Prop :=
  (∀ r, P h r → ∃ s, Q k s ∧ LinkedOutcome rel p res r s) ∧
    ∀ s, Q k s → ∃ r, P h r ∧ LinkedOutcome rel p res r s

/-- Two calls of the same algorithm, with related scalars and arguments that correspond. -/
inductive KCall.Linked (rel : α → β → Prop) (p : Nat → Nat → Prop) : KCall α → KCall β → Prop
  | copy2 (x x' : KMat) (y y' : KMat) :
      KMat.Moved p x x' → KMat.Moved p y y' →
        KCall.Linked rel p (.copy2 x y) (.copy2 x' y')
  | swap1 (x x' : KVec) (y y' : KVec) :
      KVec.Moved p x x' → KVec.Moved p y y' →
        KCall.Linked rel p (.swap1 x y) (.swap1 x' y')
  | swap2 (x x' : KMat) (y y' : KMat) :
      KMat.Moved p x x' → KMat.Moved p y y' →
        KCall.Linked rel p (.swap2 x y) (.swap2 x' y')
  | gemvUpdate (A A' : KMat) (x x' : KVec) (y y' : KVec) (z z' : KVec) :
      KMat.Moved p A A' → KVec.Moved p x x' → KVec.Moved p y y' → KVec.Moved p z z' →
        KCall.Linked rel p (.gemvUpdate A x y z) (.gemvUpdate A' x' y' z')
  | symv (A A' : KMat) (t : Triangle) (x x' : KVec) (y y' : KVec) :
      KMat.Moved p A A' → KVec.Moved p x x' → KVec.Moved p y y' →
        KCall.Linked rel p (.symv A t x y) (.symv A' t x' y')
  | symvUpdate (A A' : KMat) (t : Triangle) (x x' : KVec) (y y' : KVec) (z z' : KVec) :
      KMat.Moved p A A' → KVec.Moved p x x' → KVec.Moved p y y' → KVec.Moved p z z' →
        KCall.Linked rel p (.symvUpdate A t x y z) (.symvUpdate A' t x' y' z')
  | hemv (A A' : KMat) (t : Triangle) (x x' : KVec) (y y' : KVec) :
      KMat.Moved p A A' → KVec.Moved p x x' → KVec.Moved p y y' →
        KCall.Linked rel p (.hemv A t x y) (.hemv A' t x' y')
  | hemvUpdate (A A' : KMat) (t : Triangle) (x x' : KVec) (y y' : KVec) (z z' : KVec) :
      KMat.Moved p A A' → KVec.Moved p x x' → KVec.Moved p y y' → KVec.Moved p z z' →
        KCall.Linked rel p (.hemvUpdate A t x y z) (.hemvUpdate A' t x' y' z')
  | trmv (A A' : KMat) (t : Triangle) (d : Diag) (x x' : KVec) (y y' : KVec) :
      KMat.Moved p A A' → KVec.Moved p x x' → KVec.Moved p y y' →
        KCall.Linked rel p (.trmv A t d x y) (.trmv A' t d x' y')
  | trmvUpdate (A A' : KMat) (t : Triangle) (d : Diag) (x x' : KVec) (y y' : KVec) (z z' : KVec) :
      KMat.Moved p A A' → KVec.Moved p x x' → KVec.Moved p y y' → KVec.Moved p z z' →
        KCall.Linked rel p (.trmvUpdate A t d x y z) (.trmvUpdate A' t d x' y' z')
  | ger (x x' : KVec) (y y' : KVec) (A A' : KMat) :
      KVec.Moved p x x' → KVec.Moved p y y' → KMat.Moved p A A' →
        KCall.Linked rel p (.ger x y A) (.ger x' y' A')
  | gerc (x x' : KVec) (y y' : KVec) (A A' : KMat) :
      KVec.Moved p x x' → KVec.Moved p y y' → KMat.Moved p A A' →
        KCall.Linked rel p (.gerc x y A) (.gerc x' y' A')
  | syr (x x' : KVec) (A A' : KMat) (t : Triangle) :
      KVec.Moved p x x' → KMat.Moved p A A' →
        KCall.Linked rel p (.syr x A t) (.syr x' A' t)
  | her (x x' : KVec) (A A' : KMat) (t : Triangle) :
      KVec.Moved p x x' → KMat.Moved p A A' →
        KCall.Linked rel p (.her x A t) (.her x' A' t)
  | syr2 (x x' : KVec) (y y' : KVec) (A A' : KMat) (t : Triangle) :
      KVec.Moved p x x' → KVec.Moved p y y' → KMat.Moved p A A' →
        KCall.Linked rel p (.syr2 x y A t) (.syr2 x' y' A' t)
  | her2 (x x' : KVec) (y y' : KVec) (A A' : KMat) (t : Triangle) :
      KVec.Moved p x x' → KVec.Moved p y y' → KMat.Moved p A A' →
        KCall.Linked rel p (.her2 x y A t) (.her2 x' y' A' t)
  | syrk (alpha : α) (alpha' : β) (A A' : KMat) (C C' : KMat) (t : Triangle) :
      rel alpha alpha' → KMat.Moved p A A' → KMat.Moved p C C' →
        KCall.Linked rel p (.syrk alpha A C t) (.syrk alpha' A' C' t)
  | herk (alpha : α) (alpha' : β) (A A' : KMat) (C C' : KMat) (t : Triangle) :
      rel alpha alpha' → KMat.Moved p A A' → KMat.Moved p C C' →
        KCall.Linked rel p (.herk alpha A C t) (.herk alpha' A' C' t)
  | syr2k (A A' : KMat) (B B' : KMat) (C C' : KMat) (t : Triangle) :
      KMat.Moved p A A' → KMat.Moved p B B' → KMat.Moved p C C' →
        KCall.Linked rel p (.syr2k A B C t) (.syr2k A' B' C' t)
  | her2k (A A' : KMat) (B B' : KMat) (C C' : KMat) (t : Triangle) :
      KMat.Moved p A A' → KMat.Moved p B B' → KMat.Moved p C C' →
        KCall.Linked rel p (.her2k A B C t) (.her2k A' B' C' t)
  | symmLeft (A A' : KMat) (t : Triangle) (B B' : KMat) (C C' : KMat) :
      KMat.Moved p A A' → KMat.Moved p B B' → KMat.Moved p C C' →
        KCall.Linked rel p (.symmLeft A t B C) (.symmLeft A' t B' C')
  | symmLeftUpdate (A A' : KMat) (t : Triangle) (B B' : KMat) (E E' : KMat) (C C' : KMat) :
      KMat.Moved p A A' → KMat.Moved p B B' → KMat.Moved p E E' → KMat.Moved p C C' →
        KCall.Linked rel p (.symmLeftUpdate A t B E C) (.symmLeftUpdate A' t B' E' C')
  | symmRight (A A' : KMat) (t : Triangle) (B B' : KMat) (C C' : KMat) :
      KMat.Moved p A A' → KMat.Moved p B B' → KMat.Moved p C C' →
        KCall.Linked rel p (.symmRight A t B C) (.symmRight A' t B' C')
  | symmRightUpdate (A A' : KMat) (t : Triangle) (B B' : KMat) (E E' : KMat) (C C' : KMat) :
      KMat.Moved p A A' → KMat.Moved p B B' → KMat.Moved p E E' → KMat.Moved p C C' →
        KCall.Linked rel p (.symmRightUpdate A t B E C) (.symmRightUpdate A' t B' E' C')
  | hemmLeft (A A' : KMat) (t : Triangle) (B B' : KMat) (C C' : KMat) :
      KMat.Moved p A A' → KMat.Moved p B B' → KMat.Moved p C C' →
        KCall.Linked rel p (.hemmLeft A t B C) (.hemmLeft A' t B' C')
  | hemmLeftUpdate (A A' : KMat) (t : Triangle) (B B' : KMat) (E E' : KMat) (C C' : KMat) :
      KMat.Moved p A A' → KMat.Moved p B B' → KMat.Moved p E E' → KMat.Moved p C C' →
        KCall.Linked rel p (.hemmLeftUpdate A t B E C) (.hemmLeftUpdate A' t B' E' C')
  | hemmRight (A A' : KMat) (t : Triangle) (B B' : KMat) (C C' : KMat) :
      KMat.Moved p A A' → KMat.Moved p B B' → KMat.Moved p C C' →
        KCall.Linked rel p (.hemmRight A t B C) (.hemmRight A' t B' C')
  | hemmRightUpdate (A A' : KMat) (t : Triangle) (B B' : KMat) (E E' : KMat) (C C' : KMat) :
      KMat.Moved p A A' → KMat.Moved p B B' → KMat.Moved p E E' → KMat.Moved p C C' →
        KCall.Linked rel p (.hemmRightUpdate A t B E C) (.hemmRightUpdate A' t B' E' C')
  | trmmLeft (A A' : KMat) (t : Triangle) (B B' : KMat) (C C' : KMat) :
      KMat.Moved p A A' → KMat.Moved p B B' → KMat.Moved p C C' →
        KCall.Linked rel p (.trmmLeft A t B C) (.trmmLeft A' t B' C')
  | trmmLeftInPlace (A A' : KMat) (t : Triangle) (C C' : KMat) :
      KMat.Moved p A A' → KMat.Moved p C C' →
        KCall.Linked rel p (.trmmLeftInPlace A t C) (.trmmLeftInPlace A' t C')
  | trmmRight (A A' : KMat) (t : Triangle) (B B' : KMat) (C C' : KMat) :
      KMat.Moved p A A' → KMat.Moved p B B' → KMat.Moved p C C' →
        KCall.Linked rel p (.trmmRight A t B C) (.trmmRight A' t B' C')
  | trmmRightInPlace (A A' : KMat) (t : Triangle) (C C' : KMat) :
      KMat.Moved p A A' → KMat.Moved p C C' →
        KCall.Linked rel p (.trmmRightInPlace A t C) (.trmmRightInPlace A' t C')
  | dot (x x' : KVec) (y y' : KVec) (init : α) (init' : β) (f : α → α) (f' : β → β) (out out' : Nat) :
      KVec.Moved p x x' → KVec.Moved p y y' → rel init init' → FunRelated rel rel f f' → p out out' →
        KCall.Linked rel p (.dot x y init f out) (.dot x' y' init' f' out')
  | absSum (x x' : KVec) (init : ℝ) (f : ℝ → α) (f' : ℝ → β) (out out' : Nat) :
      KVec.Moved p x x' → (∀ v, rel (f v) (f' v)) → p out out' →
        KCall.Linked rel p (.absSum x init f out) (.absSum x' init f' out')
  | norm2 (x x' : KVec) (init : ℝ) (f : ℝ → α) (f' : ℝ → β) (out out' : Nat) :
      KVec.Moved p x x' → (∀ v, rel (f v) (f' v)) → p out out' →
        KCall.Linked rel p (.norm2 x init f out) (.norm2 x' init f' out')
  | frobNorm (low : ℝ) (A A' : KMat) (init : ℝ) (f : ℝ → α) (f' : ℝ → β) (out out' : Nat) :
      KMat.Moved p A A' → (∀ v, rel (f v) (f' v)) → p out out' →
        KCall.Linked rel p (.frobNorm low A init f out) (.frobNorm low A' init f' out')
  | infNorm (low : ℝ) (A A' : KMat) (init : ℝ) (f : ℝ → α) (f' : ℝ → β) (out out' : Nat) :
      KMat.Moved p A A' → (∀ v, rel (f v) (f' v)) → p out out' →
        KCall.Linked rel p (.infNorm low A init f out) (.infNorm low A' init f' out')
  | oneNorm (low : ℝ) (A A' : KMat) (init : ℝ) (f : ℝ → α) (f' : ℝ → β) (out out' : Nat) :
      KMat.Moved p A A' → (∀ v, rel (f v) (f' v)) → p out out' →
        KCall.Linked rel p (.oneNorm low A init f out) (.oneNorm low A' init f' out')
  | sumOfSquares (low : ℝ) (x x' : KVec) (init : SumOfSquares) (f : SumOfSquares → α) (f' : SumOfSquares → β) (out out' : Nat) :
      KVec.Moved p x x' → (∀ v, rel (f v) (f' v)) → p out out' →
        KCall.Linked rel p (.sumOfSquares low x init f out) (.sumOfSquares low x' init f' out')

end StdBLAS

import Verif.Model.KokkosHost
import Verif.Spec.KokkosTransfer

/-!
# Calls of the Kokkos backend that return early

What it means that a call is finished when it returns, and which calls wait before they return.
`KCall` (`Spec/KokkosTransfer.lean`) are the calls whose loops are in the repository, `LCall` those that
forward to KokkosKernels or to `Kokkos::deep_copy`.
-/

namespace StdBLAS
variable {α β γ : Type}

/-- In every program that starts with nothing waiting, the call `p` of the host does what `s`
does, and is finished when the rest of the program starts: nothing is waiting then. -/
def Host.FinishesAs (p : Host α β) (s : Sched α β) : Prop :=
  ∀ (γ : Type) (rest : β → Host α γ) (h : Heap α) (r : Except Err (γ × Host.Queue α × Heap α)),
    Host.Runs (p >>= rest) [] h r ↔
      (∃ e, s h (.error e) ∧ r = .error e) ∨
      ∃ b h', s h (.ok (b, h')) ∧ Host.Runs (rest b) [] h' r

/-- `*out = f(result)` after a call: code of the host. -/
def Host.into (c : Host α γ) (f : γ → α) (out : Nat) : Host α Unit := do
  let r ← c
  Host.here (Prog.store out (f r))

/-- The call as a program of the host. -/
noncomputable def KCall.host [Add α] [Mul α] [Zero α] [ConjOps α] [AbsOps α] :
    KCall α → Host α Unit
  | .copy2 x y => hostCopy2 x y
  | .swap1 x y => hostSwap1 x y
  | .swap2 x y => hostSwap2 x y
  | .gemvUpdate A x y z => hostGemvUpdate A x y z
  | .symv A t x y => hostSymv A t x y
  | .symvUpdate A t x y z => hostSymvUpdate A t x y z
  | .hemv A t x y => hostHemv A t x y
  | .hemvUpdate A t x y z => hostHemvUpdate A t x y z
  | .trmv A t d x y => hostTrmv A t d x y
  | .trmvUpdate A t d x y z => hostTrmvUpdate A t d x y z
  | .ger x y A => hostGer x y A
  | .gerc x y A => hostGerc x y A
  | .syr x A t => hostSyr x A t
  | .her x A t => hostHer x A t
  | .syr2 x y A t => hostSyr2 x y A t
  | .her2 x y A t => hostHer2 x y A t
  | .syrk alpha A C t => hostSyrk alpha A C t
  | .herk alpha A C t => hostHerk alpha A C t
  | .syr2k A B C t => hostSyr2k A B C t
  | .her2k A B C t => hostHer2k A B C t
  | .symmLeft A t B C => hostSymmLeft A t B C
  | .symmLeftUpdate A t B E C => hostSymmLeftUpdate A t B E C
  | .symmRight A t B C => hostSymmRight A t B C
  | .symmRightUpdate A t B E C => hostSymmRightUpdate A t B E C
  | .hemmLeft A t B C => hostHemmLeft A t B C
  | .hemmLeftUpdate A t B E C => hostHemmLeftUpdate A t B E C
  | .hemmRight A t B C => hostHemmRight A t B C
  | .hemmRightUpdate A t B E C => hostHemmRightUpdate A t B E C
  | .trmmLeft A t B C => hostTrmmLeft A t B C
  | .trmmLeftInPlace A t C => hostTrmmLeftInPlace A t C
  | .trmmRight A t B C => hostTrmmRight A t B C
  | .trmmRightInPlace A t C => hostTrmmRightInPlace A t C
  | .dot x y init f out => (hostDot x y init).into f out
  | .absSum x init f out => (hostAbsSum x init).into f out
  | .norm2 x init f out => (hostNorm2 x init).into f out
  | .frobNorm low A init f out => (hostFrobNorm low A init).into f out
  | .infNorm low A init f out => (hostInfNorm low A init).into f out
  | .oneNorm low A init f out => (hostOneNorm low A init).into f out
  | .sumOfSquares low x init f out => (hostSumOfSquares low x init).into f out

/-- The call is a triangular matrix-matrix product with an implicit unit diagonal. -/
def KCall.IsTrmm : KCall α → Prop
  | .trmmLeft .. | .trmmLeftInPlace .. | .trmmRight .. | .trmmRightInPlace .. => True
  | _ => False

/-- The number is computed on the host, without waiting for earlier kernels: the Frobenius norm of a 1×1
matrix, and the norms of empty matrices. -/
def KCall.ReadsAtOnce : KCall α → Prop
  | .frobNorm _ A _ _ _ => A.rows = 0 ∨ A.cols = 0 ∨ A.rows = 1 ∧ A.cols = 1
  | .infNorm _ A _ _ _ => A.rows = 0 ∨ A.cols = 0
  | .oneNorm _ A _ _ _ => A.cols = 0
  | _ => False

/-- A call that forwards to a library.  A call that returns a number is followed by
`*out = f(result)`. -/
inductive LCall (α : Type) where
  | add1 (x y z : KVec)
  | add2 (x y z : KMat)
  | scale1 (alpha : α) (x : KVec)
  | scale2 (alpha : α) (x : KMat)
  | dotc (x y : KVec) (init : α) (f : α → α) (out : Nat)
  | idxAbsMax (sizeMax : Nat) (v : KVec) (f : Nat → α) (out : Nat)
  | copy1 (x y : KVec)
  | copySame2 (x y : KMat)
  | gemv (A : KMat) (x y : KVec)
  | gemm (A B C : KMat)
  | gemmTransA (AT B C : KMat)
  | gemmTransB (A BT C : KMat)
  | gemmFallback (A B : MatV α) (C : Mat)
  | trmmLeft (A : KMat) (t : Triangle) (B C : KMat)
  | trmmLeftInPlace (A : KMat) (t : Triangle) (C : KMat)
  | trmmRight (A : KMat) (t : Triangle) (B C : KMat)
  | trmmRightInPlace (A : KMat) (t : Triangle) (C : KMat)
  | trsv (A : KMat) (t : Triangle) (d : Diag) (b x : KVec)
  | trsmLeft (A : KMat) (t : Triangle) (d : Diag) (B X : KMat)
  | trsmRight (A : KMat) (t : Triangle) (d : Diag) (B X : KMat)

variable (K : KokkosLib α)

/-- The call as a program of the host. -/
def LCall.host [Add α] [Mul α] [Zero α] [One α] : LCall α → Host α Unit
  | .add1 x y z => hostAdd1 K x y z
  | .add2 x y z => hostAdd2 K x y z
  | .scale1 alpha x => hostScale1 K alpha x
  | .scale2 alpha x => hostScale2 K alpha x
  | .dotc x y init f out => (hostDotc K x y init).into f out
  | .idxAbsMax sizeMax v f out => (hostIdxAbsMax K sizeMax v).into f out
  | .copy1 x y => hostCopy1 K x y
  | .copySame2 x y => hostCopySame2 K x y
  | .gemv A x y => hostGemv K A x y
  | .gemm A B C => hostGemm K A B C
  | .gemmTransA AT B C => hostGemmTransA K AT B C
  | .gemmTransB A BT C => hostGemmTransB K A BT C
  | .gemmFallback A B C => hostGemmFallback A B C
  | .trmmLeft A t B C => hostTrmmLeftExplicit K A t B C
  | .trmmLeftInPlace A t C => hostTrmmLeftInPlaceExplicit K A t C
  | .trmmRight A t B C => hostTrmmRightExplicit K A t B C
  | .trmmRightInPlace A t C => hostTrmmRightInPlaceExplicit K A t C
  | .trsv A t d b x => hostTrsv K A t d b x
  | .trsmLeft A t d B X => hostTrsmLeft K A t d B X
  | .trsmRight A t d B X => hostTrsmRight K A t d B X

/-- What the call does. -/
def LCall.sched [Add α] [Mul α] [Zero α] [One α] : LCall α → Sched α Unit
  | .add1 x y z => kkAdd1 K x y z
  | .add2 x y z => kkAdd2 K x y z
  | .scale1 alpha x => kkScale1 K alpha x
  | .scale2 alpha x => kkScale2 K alpha x
  | .dotc x y init f out => (kkDotc K x y init).into f out
  | .idxAbsMax sizeMax v f out => (kkIdxAbsMax K sizeMax v).into f out
  | .copy1 x y => kkCopy1 K x y
  | .copySame2 x y => kkCopySame2 K x y
  | .gemv A x y => kkGemv K A x y
  | .gemm A B C => kkGemm K A B C
  | .gemmTransA AT B C => kkGemmTransA K AT B C
  | .gemmTransB A BT C => kkGemmTransB K A BT C
  | .gemmFallback A B C => kkGemmFallback A B C
  | .trmmLeft A t B C => kkTrmmLeftExplicit K A t B C
  | .trmmLeftInPlace A t C => kkTrmmLeftInPlaceExplicit K A t C
  | .trmmRight A t B C => kkTrmmRightExplicit K A t B C
  | .trmmRightInPlace A t C => kkTrmmRightInPlaceExplicit K A t C
  | .trsv A t d b x => kkTrsv K A t d b x
  | .trsmLeft A t d B X => kkTrsmLeft K A t d B X
  | .trsmRight A t d B X => kkTrsmRight K A t d B X

/-- The call waits for the library before it returns. -/
def LCall.Waits : LCall α → Prop
  | .dotc .. | .idxAbsMax .. | .copy1 .. | .copySame2 .. | .gemmFallback .. => True
  | _ => False

/-- The call runs the native loops on the host, without waiting for earlier kernels. -/
def LCall.ReadsAtOnce : LCall α → Prop
  | .gemmFallback .. => True
  | _ => False

/-- What has surely been done when the call returns: the copy of the right-hand sides, if
there is one. -/
def LCall.copied : LCall α → Sched α Unit
  | .trmmLeft _ _ B C => K.deepCopy2 C.view B.view
  | .trmmRight _ _ B C => K.deepCopy2 C.view B.view
  | .trsv _ _ _ b x => K.deepCopy1 x.view b.view
  | .trsmLeft _ _ _ B X => K.deepCopy2 X.view B.view
  | .trsmRight _ _ _ B X => K.deepCopy2 X.view B.view
  | _ => pure ()

/-- A call of the backend, of either kind. -/
inductive BackendCall (α : Type) where
  | loops (c : KCall α)
  | library (c : LCall α)

/-- The call as a program of the host. -/
noncomputable def BackendCall.host [Add α] [Mul α] [Zero α] [One α] [ConjOps α] [AbsOps α] :
    BackendCall α → Host α Unit
  | .loops c => c.host
  | .library c => c.host K

/-- What the call does. -/
noncomputable def BackendCall.sched [Add α] [Mul α] [Zero α] [One α] [ConjOps α] [AbsOps α] :
    BackendCall α → Sched α Unit
  | .loops c => c.sched
  | .library c => c.sched K

/-- The call reads or writes memory on the host without waiting for earlier kernels. -/
def BackendCall.ReadsAtOnce : BackendCall α → Prop
  | .loops c => c.ReadsAtOnce
  | .library c => c.ReadsAtOnce

/-- The call waits, before it returns, for all kernels submitted so far, its own and those of
earlier calls. -/
def BackendCall.WaitsForAll : BackendCall α → Prop
  | .loops c => ¬ c.IsTrmm ∧ ¬ c.ReadsAtOnce
  | .library c => c.Waits ∧ ¬ c.ReadsAtOnce

end StdBLAS

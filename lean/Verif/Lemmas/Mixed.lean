import Verif.Model.Mixed
import Verif.Spec.Mixed
import Verif.Lemmas.Ordered
import Verif.Lemmas.Blas3Cols

/-! # Mixed element types: reduction to the functions for one element type

With the addition `addAs t`, which converts each sum to `t`, the functions for one element type do
what the functions for mixed element types do. -/

namespace StdBLAS
variable {D T : Type} [MixedOps D T]

@[reducible] def zeroAs (t : T) : Zero D := ⟨MixedOps.zero t⟩

/-- A view whose elements are converted when they are read. -/
def VecV.as (t : T) (y : VecV D) : VecV D := { y with acc := fun v => MixedOps.conv t (y.acc v) }
/-- A view whose elements are converted when they are read. -/
def MatV.as (t : T) (y : MatV D) : MatV D := { y with acc := fun v => MixedOps.conv t (y.acc v) }

theorem VecV.get_as {β : Type} (t : T) (y : VecV D) (i : Nat) (k : D → Prog D β) :
    ((y.as t).get i >>= k) = (y.get i >>= fun v => k (MixedOps.conv t v)) := by
  funext h
  show Prog.seq _ _ h = Prog.seq _ _ h
  unfold VecV.get
  show Prog.seq (if i < y.ext then _ else _) _ h = _
  split
  · show Prog.seq (Prog.seq (Prog.load (y.addr i)) _) _ h =
      Prog.seq (Prog.seq (Prog.load (y.addr i)) _) _ h
    unfold Prog.seq
    cases Prog.load (y.addr i) h <;> rfl
  · rfl

theorem MatV.get_as {β : Type} (t : T) (y : MatV D) (i j : Nat) (k : D → Prog D β) :
    ((y.as t).get i j >>= k) = (y.get i j >>= fun v => k (MixedOps.conv t v)) := by
  funext h
  show Prog.seq _ _ h = Prog.seq _ _ h
  unfold MatV.get
  show Prog.seq (if i < y.rows ∧ j < y.cols then _ else _) _ h = _
  split
  · show Prog.seq (Prog.seq (Prog.load (y.addr i j)) _) _ h =
      Prog.seq (Prog.seq (Prog.load (y.addr i j)) _) _ h
    unfold Prog.seq
    cases Prog.load (y.addr i j) h <;> rfl
  · rfl

theorem VecV.Holds.as {y : VecV D} {h : Heap D} {f : Nat → D} (hy : y.Holds h f) (t : T) :
    (y.as t).Holds h fun i => MixedOps.conv t (f i) := fun i hi => by
  obtain ⟨v, hv, e⟩ := hy i hi
  exact ⟨v, hv, congrArg (MixedOps.conv t) e⟩

theorem MatV.HoldsOn.as {y : MatV D} {h : Heap D} {R : Region} {f : Nat → Nat → D}
    (hy : y.HoldsOn h R f) (t : T) :
    (y.as t).HoldsOn h R fun i j => MixedOps.conv t (f i j) := fun i j hi hj hr => by
  obtain ⟨v, hv, e⟩ := hy i j hi hj hr
  exact ⟨v, hv, congrArg (MixedOps.conv t) e⟩

namespace Mixed

theorem leftSum_addAs (t : T) (s : D) (n : Nat) (f : Nat → D) :
    @leftSum D (addAs t) s n f = leftSumAs t s n f := by
  induction n with
  | zero => rfl
  | succ n ih => show MixedOps.conv t (@leftSum D (addAs t) s n f + f n) = _; rw [ih]; rfl

theorem triSeq_addAs (ty : T) (t : Triangle) (d : Diag) (n : Nat) (a : Nat → Nat → D) (f : Nat → D)
    (s : D) (r : Nat) : @triSeq D (addAs ty) _ t d n a f s r = triSeqAs ty t d n a f s r := by
  cases t <;> exact leftSum_addAs ..

theorem triElement_addAs (ty : T) (before : Bool) (d : Diag) (n i : Nat) (t : Nat → D) (diag s : D) :
    @triElement D (addAs ty) before d n i t diag s = triElementAs ty before d n i t diag s := by
  cases before <;> cases d
  · exact congrArg (fun r => MixedOps.conv ty (r + diag)) (leftSum_addAs ..)
  · exact leftSum_addAs ..
  · exact congrArg (fun r => MixedOps.conv ty (r + diag)) (leftSum_addAs ..)
  · exact congrArg (fun r => MixedOps.conv ty (r + diag)) (leftSum_addAs ..)

theorem dot_eq (v1 v2 : VecV D) (init : D) :
    dot v1 v2 init = @StdBLAS.dot D (addAs (MixedOps.ty init)) _ v1 v2 init := rfl
theorem dotc_eq [ConjOps D] (v1 v2 : VecV D) (init : D) :
    dotc v1 v2 init = @StdBLAS.dotc D (addAs (MixedOps.ty init)) _ _ v1 v2 init := rfl

theorem gemv_eq (A : MatV D) (x : VecV D) (y : TVec T) :
    gemv A x y = @StdBLAS.gemv D (addAs y.elt) _ (zeroAs y.elt) A x y.toVec := rfl

theorem gemvUpdate_eq (A : MatV D) (x y : VecV D) (z : TVec T) :
    gemvUpdate A x y z = @StdBLAS.gemvUpdate D (addAs z.elt) _ A x (y.as z.elt) z.toVec := by
  unfold StdBLAS.gemvUpdate
  simp only [VecV.get_as]
  rfl

theorem fillFrom_eq (n : Nat) (y : VecV D) (z : TVec T) :
    fillFrom n y z = StdBLAS.fillFrom n (y.as z.elt) z.toVec := by
  unfold StdBLAS.fillFrom
  simp only [VecV.get_as]
  rfl

theorem symvAcc_eq (A : MatV D) (t : Triangle) (x : VecV D) (z : TVec T) :
    symvAcc A t x z = @StdBLAS.symvAcc D (addAs z.elt) _ A t x z.toVec := rfl
theorem symv_eq (A : MatV D) (t : Triangle) (x : VecV D) (y : TVec T) :
    symv A t x y = @StdBLAS.symv D (addAs y.elt) _ (zeroAs y.elt) A t x y.toVec := rfl
theorem symvUpdate_eq (A : MatV D) (t : Triangle) (x y : VecV D) (z : TVec T) :
    symvUpdate A t x y z = @StdBLAS.symvUpdate D (addAs z.elt) _ A t x (y.as z.elt) z.toVec := by
  unfold symvUpdate StdBLAS.symvUpdate
  rw [fillFrom_eq, symvAcc_eq]

theorem hemvAcc_eq [ConjOps D] (A : MatV D) (t : Triangle) (x : VecV D) (z : TVec T) :
    hemvAcc A t x z = @StdBLAS.hemvAcc D (addAs z.elt) _ _ A t x z.toVec := rfl
theorem hemv_eq [ConjOps D] (A : MatV D) (t : Triangle) (x : VecV D) (y : TVec T) :
    hemv A t x y = @StdBLAS.hemv D (addAs y.elt) _ (zeroAs y.elt) _ A t x y.toVec := rfl
theorem hemvUpdate_eq [ConjOps D] (A : MatV D) (t : Triangle) (x y : VecV D) (z : TVec T) :
    hemvUpdate A t x y z =
      @StdBLAS.hemvUpdate D (addAs z.elt) _ _ A t x (y.as z.elt) z.toVec := by
  unfold hemvUpdate StdBLAS.hemvUpdate
  rw [fillFrom_eq, hemvAcc_eq]

theorem trmvAcc_eq (A : MatV D) (t : Triangle) (d : Diag) (x : VecV D) (z : TVec T) :
    trmvAcc A t d x z = @StdBLAS.trmvAcc D (addAs z.elt) _ A t d x z.toVec := rfl
theorem trmv_eq (A : MatV D) (t : Triangle) (d : Diag) (x : VecV D) (y : TVec T) :
    trmv A t d x y = @StdBLAS.trmv D (addAs y.elt) _ (zeroAs y.elt) A t d x y.toVec := rfl
theorem trmvUpdate_eq (A : MatV D) (t : Triangle) (d : Diag) (x y : VecV D) (z : TVec T) :
    trmvUpdate A t d x y z =
      @StdBLAS.trmvUpdate D (addAs z.elt) _ A t d x (y.as z.elt) z.toVec := by
  unfold trmvUpdate StdBLAS.trmvUpdate
  rw [fillFrom_eq, trmvAcc_eq]

theorem gemm_eq (A B : MatV D) (C : TMat T) :
    gemm A B C = @StdBLAS.gemm D (addAs C.elt) _ (zeroAs C.elt) A B C.toMat := rfl
theorem gemmUpdate_eq (A B E : MatV D) (C : TMat T) :
    gemmUpdate A B E C = @StdBLAS.gemmUpdate D (addAs C.elt) _ A B (E.as C.elt) C.toMat := by
  unfold StdBLAS.gemmUpdate
  simp only [MatV.get_as]
  rfl
theorem symmLeft_eq (A : MatV D) (t : Triangle) (B : MatV D) (C : TMat T) :
    symmLeft A t B C = @StdBLAS.symmLeft D (addAs C.elt) _ (zeroAs C.elt) A t B C.toMat := rfl
theorem symmRight_eq (B : MatV D) (A : MatV D) (t : Triangle) (C : TMat T) :
    symmRight B A t C = @StdBLAS.symmRight D (addAs C.elt) _ (zeroAs C.elt) B A t C.toMat := rfl
theorem hemmLeft_eq [ConjOps D] (A : MatV D) (t : Triangle) (B : MatV D) (C : TMat T) :
    hemmLeft A t B C = @StdBLAS.hemmLeft D (addAs C.elt) _ (zeroAs C.elt) _ A t B C.toMat := rfl
theorem hemmRight_eq [ConjOps D] (B : MatV D) (A : MatV D) (t : Triangle) (C : TMat T) :
    hemmRight B A t C = @StdBLAS.hemmRight D (addAs C.elt) _ (zeroAs C.elt) _ B A t C.toMat := rfl
theorem trmmLeft_eq (A : MatV D) (t : Triangle) (d : Diag) (B : MatV D) (C : TMat T) :
    trmmLeft A t d B C = @StdBLAS.trmmLeft D (addAs C.elt) _ (zeroAs C.elt) A t d B C.toMat := rfl
theorem trmmRight_eq (B : MatV D) (A : MatV D) (t : Triangle) (d : Diag) (C : TMat T) :
    trmmRight B A t d C = @StdBLAS.trmmRight D (addAs C.elt) _ (zeroAs C.elt) B A t d C.toMat := rfl

theorem ger_eq (x y : VecV D) (A : TMat T) :
    ger x y A = @StdBLAS.ger D (addAs A.elt) _ x y A.toMat := rfl
theorem gerc_eq [ConjOps D] (x y : VecV D) (A : TMat T) :
    gerc x y A = @StdBLAS.gerc D (addAs A.elt) _ _ x y A.toMat := rfl
theorem syr_eq (x : VecV D) (A : TMat T) (t : Triangle) :
    syr x A t = @StdBLAS.syr D (addAs A.elt) _ x A.toMat t := rfl
theorem syrAlpha_eq (alpha : D) (x : VecV D) (A : TMat T) (t : Triangle) :
    syrAlpha alpha x A t = @StdBLAS.syrAlpha D (addAs A.elt) _ alpha x A.toMat t := rfl
theorem syrk_eq (A : MatV D) (C : TMat T) (t : Triangle) :
    syrk A C t = @StdBLAS.syrk D (addAs C.elt) _ A C.toMat t := rfl
theorem syrkAlpha_eq (alpha : D) (A : MatV D) (C : TMat T) (t : Triangle) :
    syrkAlpha alpha A C t = @StdBLAS.syrkAlpha D (addAs C.elt) _ alpha A C.toMat t := rfl

/-- The real part, converted to a type (for the diagonal of Hermitian updates). -/
@[reducible] def conjAs [ConjOps D] (t : T) : ConjOps D :=
  ⟨ConjOps.conj, fun v => MixedOps.conv t (ConjOps.re v)⟩

theorem her_eq [ConjOps D] (x : VecV D) (A : TMat T) (t : Triangle) :
    her x A t = @StdBLAS.her D (addAs A.elt) _ (conjAs A.elt) x A.toMat t := rfl
theorem herAlpha_eq [ConjOps D] (alpha : D) (x : VecV D) (A : TMat T) (t : Triangle) :
    herAlpha alpha x A t = @StdBLAS.herAlpha D (addAs A.elt) _ (conjAs A.elt) alpha x A.toMat t :=
  rfl
theorem herk_eq [ConjOps D] (A : MatV D) (C : TMat T) (t : Triangle) :
    herk A C t = @StdBLAS.herk D (addAs C.elt) _ (conjAs C.elt) A C.toMat t := rfl
theorem herkAlpha_eq [ConjOps D] (alpha : D) (A : MatV D) (C : TMat T) (t : Triangle) :
    herkAlpha alpha A C t =
      @StdBLAS.herkAlpha D (addAs C.elt) _ (conjAs C.elt) alpha A C.toMat t := rfl

end Mixed
end StdBLAS

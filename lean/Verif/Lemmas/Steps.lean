import Verif.Lemmas.Parallel
import Verif.Model.Steps

/-!
# Running all accesses of an algorithm is the algorithm

`(Steps.f args).run = f args` for every `f` in `Model/Steps.lean`.
-/

namespace StdBLAS
variable {α β : Type}


@[simp] theorem Task.ite_run (c : Prop) [Decidable c] (p q : Task α β) :
    (if c then p else q).run = if c then p.run else q.run := by
  split <;> rfl

@[simp] theorem VecV.rd_run (x : VecV α) (i : Nat) : (x.rd i).run = x.get i := by
  unfold VecV.rd VecV.get
  rw [Task.bind_run, Vec.rd_run]
  unfold Vec.get
  split <;> rfl

/-- Reading an element twice in a row gives the same value twice. -/
theorem VecV.get_twice (x : VecV α) (i : Nat) (f : α → α → Prog α β) :
    (x.get i >>= fun a => x.get i >>= fun b => f a b) = x.get i >>= fun a => f a a := by
  funext h
  unfold VecV.get
  split
  · cases hv : h (x.addr i) <;> simp [bind, Prog.seq, Prog.load, hv, pure, Prog.ret]
  · rfl

/-- Reading an element again in a branch gives the value read before. -/
theorem VecV.get_again (x : VecV α) (i : Nat) (c : α → Prop) [DecidablePred c] (f : α → Prog α β)
    (g : α → Prog α β) :
    (x.get i >>= fun a => if c a then x.get i >>= f else g a) =
      x.get i >>= fun a => if c a then f a else g a := by
  funext h
  unfold VecV.get
  split
  · cases hv : h (x.addr i)
    · simp [bind, Prog.seq, Prog.load, hv]
    · rename_i w
      by_cases hc : c (x.acc w) <;> simp [bind, Prog.seq, Prog.load, hv, pure, Prog.ret, hc]
  · rfl

@[simp] theorem MatV.rd_run (A : MatV α) (i j : Nat) : (A.rd i j).run = A.get i j := by
  unfold MatV.rd MatV.get
  rw [Task.bind_run, Mat.rd_run]
  unfold Mat.get
  split <;> rfl

@[simp] theorem Vec.plus_run [Add α] (y : Vec) (i : Nat) (v : α) :
    (y.plus i v).run = y.addTo i v := by
  simp [Vec.plus, Vec.addTo]

@[simp] theorem Mat.plus_run [Add α] (C : Mat) (i j : Nat) (v : α) :
    (C.plus i j v).run = C.addTo i j v := by
  simp [Mat.plus, Mat.addTo]

@[simp] theorem Task.forDown_run (n : Nat) (body : Nat → Task α Unit) :
    (Task.forDown n body).run = StdBLAS.forDown n (fun i => (body i).run) :=
  Task.forEach_run _ _

namespace Steps
variable {R : Type}

@[simp] theorem scale1_run [Mul α] (alpha : α) (x : Vec) :
    (scale1 alpha x : Task α Unit).run = StdBLAS.scale1 alpha x := by
  simp [scale1, StdBLAS.scale1]

@[simp] theorem scale2_run [Mul α] (alpha : α) (A : Mat) :
    (scale2 alpha A : Task α Unit).run = StdBLAS.scale2 alpha A := by
  simp [scale2, StdBLAS.scale2]

@[simp] theorem copy1_run (x : VecV α) (y : Vec) :
    (copy1 x y : Task α Unit).run = StdBLAS.copy1 x y := by
  simp [copy1, StdBLAS.copy1]

@[simp] theorem copy2_run (x : MatV α) (y : Mat) :
    (copy2 x y : Task α Unit).run = StdBLAS.copy2 x y := by
  simp [copy2, StdBLAS.copy2]

@[simp] theorem swap1_run (x y : Vec) :
    (swap1 x y : Task α Unit).run = StdBLAS.swap1 x y := by
  simp [swap1, StdBLAS.swap1]

@[simp] theorem swap2_run (x y : Mat) :
    (swap2 x y : Task α Unit).run = StdBLAS.swap2 x y := by
  simp [swap2, StdBLAS.swap2]

@[simp] theorem add1_run [Add α] (x y : VecV α) (z : Vec) :
    (add1 x y z : Task α Unit).run = StdBLAS.add1 x y z := by
  simp [add1, StdBLAS.add1]

@[simp] theorem add2_run [Add α] (x y : MatV α) (z : Mat) :
    (add2 x y z : Task α Unit).run = StdBLAS.add2 x y z := by
  simp [add2, StdBLAS.add2]

@[simp] theorem dot_run [Add α] [Mul α] (v1 v2 : VecV α) (init : α) :
    (dot v1 v2 init : Task α α).run = StdBLAS.dot v1 v2 init := by
  simp [dot, StdBLAS.dot]

@[simp] theorem dot0_run [Add α] [Mul α] [Zero α] (v1 v2 : VecV α) :
    (dot0 v1 v2 : Task α α).run = StdBLAS.dot0 v1 v2 := by
  simp [dot0, StdBLAS.dot0]

@[simp] theorem dotc_run [Add α] [Mul α] [ConjOps α] (v1 v2 : VecV α) (init : α) :
    (dotc v1 v2 init : Task α α).run = StdBLAS.dotc v1 v2 init := by
  simp [dotc, StdBLAS.dotc]

@[simp] theorem dotc0_run [Add α] [Mul α] [Zero α] [ConjOps α] (v1 v2 : VecV α) :
    (dotc0 v1 v2 : Task α α).run = StdBLAS.dotc0 v1 v2 := by
  simp [dotc0, StdBLAS.dotc0]

@[simp] theorem vectorSumOfSquaresOf_run [Zero R] [One R] [Add R] [Mul R] [Div R] [FloatOps R] [MagOps α R] (x : VecV α) (init : SumOfSquaresOf R) :
    (vectorSumOfSquaresOf x init : Task α (SumOfSquaresOf R)).run = StdBLAS.vectorSumOfSquaresOf x init := by
  simp [vectorSumOfSquaresOf, StdBLAS.vectorSumOfSquaresOf]

@[simp] theorem vectorTwoNormOf_run [Zero R] [One R] [Add R] [Mul R] [Div R] [FloatOps R] [MagOps α R] (x : VecV α) (init : R) :
    (vectorTwoNormOf x init : Task α R).run = StdBLAS.vectorTwoNormOf x init := by
  simp [vectorTwoNormOf, StdBLAS.vectorTwoNormOf]

@[simp] theorem vectorTwoNormOf0_run [Zero R] [One R] [Add R] [Mul R] [Div R] [FloatOps R] [MagOps α R] (x : VecV α) :
    (vectorTwoNormOf0 x : Task α R).run = StdBLAS.vectorTwoNormOf0 x := by
  simp [vectorTwoNormOf0, StdBLAS.vectorTwoNormOf0]

@[simp] theorem vectorAbsSumOf_run [Zero R] [One R] [Add R] [Mul R] [Div R] [FloatOps R] [MagOps α R] (v : VecV α) (init : R) :
    (vectorAbsSumOf v init : Task α R).run = StdBLAS.vectorAbsSumOf v init := by
  simp [vectorAbsSumOf, StdBLAS.vectorAbsSumOf]

@[simp] theorem vectorIdxAbsMaxOf_run (R : Type) [Add R] [FloatOps R] [MagOps α R] (sizeMax : Nat) (v : VecV α) :
    (vectorIdxAbsMaxOf R sizeMax v : Task α Nat).run = StdBLAS.vectorIdxAbsMaxOf R sizeMax v := by
  unfold vectorIdxAbsMaxOf StdBLAS.vectorIdxAbsMaxOf idxMagnitudeOf
  by_cases h0 : v.ext = 0
  · simp [h0]
  by_cases h1 : MagOps.isArith α R = true
  · simp only [h0, h1, if_true, if_false, Task.bind_run, VecV.rd_run, Task.foldEach_run,
      Task.pure_run, Task.ite_run, VecV.get_again]
  · simp only [h0, h1, if_false, Task.bind_run, VecV.rd_run, Task.foldEach_run,
      Task.pure_run, Task.ite_run, VecV.get_twice, Bool.false_eq_true]

@[simp] theorem matrixFrobNormOf_run [Zero R] [One R] [Add R] [Mul R] [Div R] [FloatOps R] [MagOps α R] (A : MatV α) (init : R) :
    (matrixFrobNormOf A init : Task α R).run = StdBLAS.matrixFrobNormOf A init := by
  simp [matrixFrobNormOf, StdBLAS.matrixFrobNormOf]

@[simp] theorem matrixOneNormOf_run [Zero R] [One R] [Add R] [Mul R] [Div R] [FloatOps R] [MagOps α R] (A : MatV α) (init : R) :
    (matrixOneNormOf A init : Task α R).run = StdBLAS.matrixOneNormOf A init := by
  simp [matrixOneNormOf, StdBLAS.matrixOneNormOf]

@[simp] theorem matrixInfNormOf_run [Zero R] [One R] [Add R] [Mul R] [Div R] [FloatOps R] [MagOps α R] (A : MatV α) (init : R) :
    (matrixInfNormOf A init : Task α R).run = StdBLAS.matrixInfNormOf A init := by
  simp [matrixInfNormOf, StdBLAS.matrixInfNormOf]

@[simp] theorem applyGivens_run [Add α] [Sub α] [Mul α] (x y : Vec) (c s : α) :
    (applyGivens x y c s : Task α Unit).run = StdBLAS.applyGivens x y c s := by
  simp [applyGivens, StdBLAS.applyGivens]

@[simp] theorem applyGivensC_run [Add α] [Sub α] [Mul α] [ConjOps α] (x y : Vec) (c s : α) :
    (applyGivensC x y c s : Task α Unit).run = StdBLAS.applyGivensC x y c s := by
  simp [applyGivensC, StdBLAS.applyGivensC]

@[simp] theorem gemv_run [Add α] [Mul α] [Zero α] (A : MatV α) (x : VecV α) (y : Vec) :
    (gemv A x y : Task α Unit).run = StdBLAS.gemv A x y := by
  simp [gemv, StdBLAS.gemv]

@[simp] theorem gemvUpdate_run [Add α] [Mul α] (A : MatV α) (x y : VecV α) (z : Vec) :
    (gemvUpdate A x y z : Task α Unit).run = StdBLAS.gemvUpdate A x y z := by
  simp [gemvUpdate, StdBLAS.gemvUpdate]

@[simp] theorem fillZero_run [Zero α] (n : Nat) (y : Vec) :
    (fillZero n y : Task α Unit).run = StdBLAS.fillZero n y := by
  simp [fillZero, StdBLAS.fillZero]

@[simp] theorem fillFrom_run (n : Nat) (y : VecV α) (z : Vec) :
    (fillFrom n y z : Task α Unit).run = StdBLAS.fillFrom n y z := by
  simp [fillFrom, StdBLAS.fillFrom]

@[simp] theorem symvAcc_run [Add α] [Mul α] (A : MatV α) (t : Triangle) (x : VecV α) (z : Vec) :
    (symvAcc A t x z : Task α Unit).run = StdBLAS.symvAcc A t x z := by
  cases t <;> simp [symvAcc, StdBLAS.symvAcc]

@[simp] theorem symv_run [Add α] [Mul α] [Zero α] (A : MatV α) (t : Triangle) (x : VecV α) (y : Vec) :
    (symv A t x y : Task α Unit).run = StdBLAS.symv A t x y := by
  cases t <;> simp [symv, StdBLAS.symv]

@[simp] theorem symvUpdate_run [Add α] [Mul α] (A : MatV α) (t : Triangle) (x y : VecV α) (z : Vec) :
    (symvUpdate A t x y z : Task α Unit).run = StdBLAS.symvUpdate A t x y z := by
  cases t <;> simp [symvUpdate, StdBLAS.symvUpdate]

@[simp] theorem hemvAcc_run [Add α] [Mul α] [ConjOps α] (A : MatV α) (t : Triangle) (x : VecV α) (z : Vec) :
    (hemvAcc A t x z : Task α Unit).run = StdBLAS.hemvAcc A t x z := by
  cases t <;> simp [hemvAcc, StdBLAS.hemvAcc]

@[simp] theorem hemv_run [Add α] [Mul α] [Zero α] [ConjOps α] (A : MatV α) (t : Triangle) (x : VecV α) (y : Vec) :
    (hemv A t x y : Task α Unit).run = StdBLAS.hemv A t x y := by
  cases t <;> simp [hemv, StdBLAS.hemv]

@[simp] theorem hemvUpdate_run [Add α] [Mul α] [ConjOps α] (A : MatV α) (t : Triangle) (x y : VecV α) (z : Vec) :
    (hemvUpdate A t x y z : Task α Unit).run = StdBLAS.hemvUpdate A t x y z := by
  cases t <;> simp [hemvUpdate, StdBLAS.hemvUpdate]

@[simp] theorem trmvAcc_run [Add α] [Mul α] (A : MatV α) (t : Triangle) (d : Diag) (x : VecV α) (z : Vec) :
    (trmvAcc A t d x z : Task α Unit).run = StdBLAS.trmvAcc A t d x z := by
  cases t <;> simp [trmvAcc, StdBLAS.trmvAcc]

@[simp] theorem trmv_run [Add α] [Mul α] [Zero α] (A : MatV α) (t : Triangle) (d : Diag) (x : VecV α) (y : Vec) :
    (trmv A t d x y : Task α Unit).run = StdBLAS.trmv A t d x y := by
  cases t <;> simp [trmv, StdBLAS.trmv]

@[simp] theorem trmvUpdate_run [Add α] [Mul α] (A : MatV α) (t : Triangle) (d : Diag) (x y : VecV α) (z : Vec) :
    (trmvUpdate A t d x y z : Task α Unit).run = StdBLAS.trmvUpdate A t d x y z := by
  cases t <;> simp [trmvUpdate, StdBLAS.trmvUpdate]

@[simp] theorem trmvInPlace_run [Add α] [Mul α] (A : MatV α) (t : Triangle) (d : Diag) (y : Vec) :
    (trmvInPlace A t d y : Task α Unit).run = StdBLAS.trmvInPlace A t d y := by
  cases t <;> simp [trmvInPlace, StdBLAS.trmvInPlace]

@[simp] theorem trsvUpper_run [Sub α] [Mul α] (divide : α → α → α) (A : MatV α) (d : Diag) (B : VecV α) (X : Vec) :
    (trsvUpper divide A d B X : Task α Unit).run = StdBLAS.trsvUpper divide A d B X := by
  simp [trsvUpper, StdBLAS.trsvUpper]

@[simp] theorem trsvLower_run [Sub α] [Mul α] (divide : α → α → α) (A : MatV α) (d : Diag) (B : VecV α) (X : Vec) :
    (trsvLower divide A d B X : Task α Unit).run = StdBLAS.trsvLower divide A d B X := by
  simp [trsvLower, StdBLAS.trsvLower]

@[simp] theorem trsv_run [Sub α] [Mul α] (divide : α → α → α) (A : MatV α) (t : Triangle) (d : Diag) (b : VecV α) (x : Vec) :
    (trsv divide A t d b x : Task α Unit).run = StdBLAS.trsv divide A t d b x := by
  cases t <;> simp [trsv, StdBLAS.trsv]

@[simp] theorem ger_run [Add α] [Mul α] (x y : VecV α) (A : Mat) :
    (ger x y A : Task α Unit).run = StdBLAS.ger x y A := by
  simp [ger, StdBLAS.ger]

@[simp] theorem gerc_run [Add α] [Mul α] [ConjOps α] (x y : VecV α) (A : Mat) :
    (gerc x y A : Task α Unit).run = StdBLAS.gerc x y A := by
  simp [gerc, StdBLAS.gerc]

@[simp] theorem triangleLoop_run (rows cols : Nat) (t : Triangle) (pre : Nat → Task α Unit)
    (body : Nat → Nat → Task α Unit) :
    (triangleLoop rows cols t pre body).run =
      StdBLAS.triangleLoop rows cols t (fun j => (pre j).run) (fun i j => (body i j).run) := by
  cases t <;> simp [triangleLoop, StdBLAS.triangleLoop]

@[simp] theorem makeDiagReal_run [ConjOps α] (A : Mat) (j : Nat) :
    (makeDiagReal A j : Task α Unit).run = StdBLAS.makeDiagReal A j := by
  simp [makeDiagReal, StdBLAS.makeDiagReal]

@[simp] theorem syrAlpha_run [Add α] [Mul α] (alpha : α) (x : VecV α) (A : Mat) (t : Triangle) :
    (syrAlpha alpha x A t : Task α Unit).run = StdBLAS.syrAlpha alpha x A t := by
  cases t <;> simp [syrAlpha, StdBLAS.syrAlpha]

@[simp] theorem syr_run [Add α] [Mul α] (x : VecV α) (A : Mat) (t : Triangle) :
    (syr x A t : Task α Unit).run = StdBLAS.syr x A t := by
  cases t <;> simp [syr, StdBLAS.syr]

@[simp] theorem herAlpha_run [Add α] [Mul α] [ConjOps α] (alpha : α) (x : VecV α) (A : Mat) (t : Triangle) :
    (herAlpha alpha x A t : Task α Unit).run = StdBLAS.herAlpha alpha x A t := by
  cases t <;> simp [herAlpha, StdBLAS.herAlpha]

@[simp] theorem her_run [Add α] [Mul α] [ConjOps α] (x : VecV α) (A : Mat) (t : Triangle) :
    (her x A t : Task α Unit).run = StdBLAS.her x A t := by
  cases t <;> simp [her, StdBLAS.her]

@[simp] theorem syr2_run [Add α] [Mul α] (x y : VecV α) (A : Mat) (t : Triangle) :
    (syr2 x y A t : Task α Unit).run = StdBLAS.syr2 x y A t := by
  cases t <;> simp [syr2, StdBLAS.syr2]

@[simp] theorem her2_run [Add α] [Mul α] [ConjOps α] (x y : VecV α) (A : Mat) (t : Triangle) :
    (her2 x y A t : Task α Unit).run = StdBLAS.her2 x y A t := by
  cases t <;> simp [her2, StdBLAS.her2]

@[simp] theorem syrkAlpha_run [Add α] [Mul α] (alpha : α) (A : MatV α) (C : Mat) (t : Triangle) :
    (syrkAlpha alpha A C t : Task α Unit).run = StdBLAS.syrkAlpha alpha A C t := by
  cases t <;> simp [syrkAlpha, StdBLAS.syrkAlpha]

@[simp] theorem syrk_run [Add α] [Mul α] (A : MatV α) (C : Mat) (t : Triangle) :
    (syrk A C t : Task α Unit).run = StdBLAS.syrk A C t := by
  cases t <;> simp [syrk, StdBLAS.syrk]

@[simp] theorem herkAlpha_run [Add α] [Mul α] [ConjOps α] (alpha : α) (A : MatV α) (C : Mat) (t : Triangle) :
    (herkAlpha alpha A C t : Task α Unit).run = StdBLAS.herkAlpha alpha A C t := by
  cases t <;> simp [herkAlpha, StdBLAS.herkAlpha]

@[simp] theorem herk_run [Add α] [Mul α] [ConjOps α] (A : MatV α) (C : Mat) (t : Triangle) :
    (herk A C t : Task α Unit).run = StdBLAS.herk A C t := by
  cases t <;> simp [herk, StdBLAS.herk]

@[simp] theorem syr2k_run [Add α] [Mul α] (A B : MatV α) (C : Mat) (t : Triangle) :
    (syr2k A B C t : Task α Unit).run = StdBLAS.syr2k A B C t := by
  cases t <;> simp [syr2k, StdBLAS.syr2k]

@[simp] theorem her2k_run [Add α] [Mul α] [ConjOps α] (A B : MatV α) (C : Mat) (t : Triangle) :
    (her2k A B C t : Task α Unit).run = StdBLAS.her2k A B C t := by
  cases t <;> simp [her2k, StdBLAS.her2k]

@[simp] theorem gemm_run [Add α] [Mul α] [Zero α] (A B : MatV α) (C : Mat) :
    (gemm A B C : Task α Unit).run = StdBLAS.gemm A B C := by
  simp [gemm, StdBLAS.gemm]

@[simp] theorem gemmUpdate_run [Add α] [Mul α] (A B E : MatV α) (C : Mat) :
    (gemmUpdate A B E C : Task α Unit).run = StdBLAS.gemmUpdate A B E C := by
  simp [gemmUpdate, StdBLAS.gemmUpdate]

@[simp] theorem trmmLeft_run [Add α] [Mul α] [Zero α] (A : MatV α) (t : Triangle) (d : Diag) (B : MatV α) (C : Mat) :
    (trmmLeft A t d B C : Task α Unit).run = StdBLAS.trmmLeft A t d B C := by
  cases t <;> simp [trmmLeft, StdBLAS.trmmLeft]

@[simp] theorem trmmRight_run [Add α] [Mul α] [Zero α] (B : MatV α) (A : MatV α) (t : Triangle) (d : Diag) (C : Mat) :
    (trmmRight B A t d C : Task α Unit).run = StdBLAS.trmmRight B A t d C := by
  cases t <;> simp [trmmRight, StdBLAS.trmmRight]

@[simp] theorem trmmLeftInPlace_run [Add α] [Mul α] (A : MatV α) (t : Triangle) (d : Diag) (C : Mat) :
    (trmmLeftInPlace A t d C : Task α Unit).run = StdBLAS.trmmLeftInPlace A t d C := by
  cases t <;> simp [trmmLeftInPlace, StdBLAS.trmmLeftInPlace]

@[simp] theorem trmmRightInPlace_run [Add α] [Mul α] (A : MatV α) (t : Triangle) (d : Diag) (C : Mat) :
    (trmmRightInPlace A t d C : Task α Unit).run = StdBLAS.trmmRightInPlace A t d C := by
  cases t <;> simp [trmmRightInPlace, StdBLAS.trmmRightInPlace]

@[simp] theorem symmLeft_run [Add α] [Mul α] [Zero α] (A : MatV α) (t : Triangle) (B : MatV α) (C : Mat) :
    (symmLeft A t B C : Task α Unit).run = StdBLAS.symmLeft A t B C := by
  cases t <;> simp [symmLeft, StdBLAS.symmLeft]

@[simp] theorem symmRight_run [Add α] [Mul α] [Zero α] (B : MatV α) (A : MatV α) (t : Triangle) (C : Mat) :
    (symmRight B A t C : Task α Unit).run = StdBLAS.symmRight B A t C := by
  cases t <;> simp [symmRight, StdBLAS.symmRight]

@[simp] theorem hemmLeft_run [Add α] [Mul α] [Zero α] [ConjOps α] (A : MatV α) (t : Triangle) (B : MatV α) (C : Mat) :
    (hemmLeft A t B C : Task α Unit).run = StdBLAS.hemmLeft A t B C := by
  cases t <;> simp [hemmLeft, StdBLAS.hemmLeft]

@[simp] theorem hemmRight_run [Add α] [Mul α] [Zero α] [ConjOps α] (B : MatV α) (A : MatV α) (t : Triangle) (C : Mat) :
    (hemmRight B A t C : Task α Unit).run = StdBLAS.hemmRight B A t C := by
  cases t <;> simp [hemmRight, StdBLAS.hemmRight]

@[simp] theorem trsmUpperLeft_run [Sub α] [Mul α] [Div α] (A : MatV α) (d : Diag) (B : MatV α) (X : Mat) :
    (trsmUpperLeft A d B X : Task α Unit).run = StdBLAS.trsmUpperLeft A d B X := by
  simp [trsmUpperLeft, StdBLAS.trsmUpperLeft]

@[simp] theorem trsmLowerLeft_run [Sub α] [Mul α] [Div α] (A : MatV α) (d : Diag) (B : MatV α) (X : Mat) :
    (trsmLowerLeft A d B X : Task α Unit).run = StdBLAS.trsmLowerLeft A d B X := by
  simp [trsmLowerLeft, StdBLAS.trsmLowerLeft]

@[simp] theorem trsmUpperRight_run [Sub α] [Mul α] [Div α] (A : MatV α) (d : Diag) (B : MatV α) (X : Mat) :
    (trsmUpperRight A d B X : Task α Unit).run = StdBLAS.trsmUpperRight A d B X := by
  simp [trsmUpperRight, StdBLAS.trsmUpperRight]

@[simp] theorem trsmLowerRight_run [Sub α] [Mul α] [Div α] (A : MatV α) (d : Diag) (B : MatV α) (X : Mat) :
    (trsmLowerRight A d B X : Task α Unit).run = StdBLAS.trsmLowerRight A d B X := by
  simp [trsmLowerRight, StdBLAS.trsmLowerRight]

@[simp] theorem trsmLeft_run [Sub α] [Mul α] [Div α] (A : MatV α) (t : Triangle) (d : Diag) (B : MatV α) (X : Mat) :
    (trsmLeft A t d B X : Task α Unit).run = StdBLAS.trsmLeft A t d B X := by
  cases t <;> simp [trsmLeft, StdBLAS.trsmLeft]

@[simp] theorem trsmRight_run [Sub α] [Mul α] [Div α] (A : MatV α) (t : Triangle) (d : Diag) (B : MatV α) (X : Mat) :
    (trsmRight A t d B X : Task α Unit).run = StdBLAS.trsmRight A t d B X := by
  cases t <;> simp [trsmRight, StdBLAS.trsmRight]

@[simp] theorem trsm_run [Sub α] [Mul α] [Div α] (A : MatV α) (t : Triangle) (d : Diag) (side : Side) (B : MatV α) (X : Mat) :
    (trsm A t d side B X : Task α Unit).run = StdBLAS.trsm A t d side B X := by
  cases t <;> cases side <;> simp [trsm, StdBLAS.trsm]

end Steps
end StdBLAS

import Verif.Lemmas.Steps
import Verif.Spec.Calls
import Verif.Spec.Steps

/-!
# Footprints

`Task.Within R W t`: whatever values it reads, `t` reads only cells in `R` and writes only cells in
`W`.  Every call is within its inputs and outputs.
-/

namespace StdBLAS
variable {α β γ σ : Type}

namespace Task
variable {R W : Nat → Prop}

/-- Whatever the values read, all reads are in `R` and all writes in `W`. -/
def Within (R W : Nat → Prop) : Task α β → Prop
  | done _ => True
  | fail _ => True
  | load a k => R a ∧ ∀ v, (k v).Within R W
  | store a _ k => W a ∧ k.Within R W

theorem within_pure {b : β} : (pure b : Task α β).Within R W := trivial
theorem within_fail {e : Err} : (Task.fail e : Task α β).Within R W := trivial

theorem Within.mono {R' W' : Nat → Prop} {p : Task α β} (hp : p.Within R W)
    (hR : ∀ a, R a → R' a) (hW : ∀ a, W a → W' a) : p.Within R' W' := by
  induction p with
  | done b => trivial
  | fail e => trivial
  | load a k ih => exact ⟨hR _ hp.1, fun v => ih v (hp.2 v)⟩
  | store a v k ih => exact ⟨hW _ hp.1, ih hp.2⟩

theorem within_bind {p : Task α β} {f : β → Task α γ} (hp : p.Within R W)
    (hf : ∀ b, (f b).Within R W) : (p >>= f).Within R W := by
  change (p.bind f).Within R W
  induction p with
  | done b => exact hf b
  | fail e => trivial
  | load a k ih => exact ⟨hp.1, fun v => ih v (hp.2 v)⟩
  | store a v k ih => exact ⟨hp.1, ih hp.2⟩

theorem within_ite {c : Prop} [Decidable c] {p q : Task α β} (hp : c → p.Within R W)
    (hq : ¬ c → q.Within R W) : (if c then p else q).Within R W := by
  split
  · exact hp ‹_›
  · exact hq ‹_›

theorem within_forEach {ι : Type} {l : List ι} {body : ι → Task α Unit}
    (hb : ∀ i ∈ l, (body i).Within R W) : (forEach l body).Within R W := by
  induction l with
  | nil => trivial
  | cons i l ih =>
    exact within_bind (hb i (by simp)) fun _ => ih fun j hj => hb j (List.mem_cons_of_mem _ hj)

theorem within_forUp {lo hi : Nat} {body : Nat → Task α Unit}
    (hb : ∀ i, lo ≤ i → i < hi → (body i).Within R W) : (forUp lo hi body).Within R W := by
  refine within_forEach fun i hi' => ?_
  rw [List.mem_range'_1] at hi'
  exact hb i hi'.1 (by omega)

theorem within_forDown {n : Nat} {body : Nat → Task α Unit}
    (hb : ∀ i, i < n → (body i).Within R W) : (forDown n body).Within R W := by
  refine within_forEach fun i hi' => ?_
  rw [List.mem_reverse, List.mem_range] at hi'
  exact hb i hi'

theorem within_foldEach {lo n : Nat} {s : σ} {body : σ → Nat → Task α σ}
    (hb : ∀ i, lo ≤ i → i < lo + n → ∀ s, (body s i).Within R W) :
    (foldEach (List.range' lo n) s body).Within R W := by
  induction n generalizing lo s with
  | zero => trivial
  | succ n ih =>
    refine within_bind (hb lo le_rfl (by omega) s) fun s' => ?_
    exact ih fun i h1 h2 => hb i (by omega) (by omega)

theorem within_into {p : Task α β} {f : β → α} {out : Nat} (hp : p.Within R W) (ho : W out) :
    (p.into f out).Within R W := within_bind hp fun _ => ⟨ho, trivial⟩

end Task

open StdBLAS.Task
variable {R W : Nat → Prop}

theorem Vec.within_rd {x : Vec} {i : Nat} (hx : i < x.ext → R (x.addr i)) :
    (x.rd i : Task α α).Within R W := by
  unfold Vec.rd
  split
  · exact ⟨hx ‹_›, fun _ => trivial⟩
  · trivial

theorem Mat.within_rd {A : Mat} {i j : Nat} (hA : i < A.rows → j < A.cols → R (A.addr i j)) :
    (A.rd i j : Task α α).Within R W := by
  unfold Mat.rd
  split
  · next q => exact ⟨hA q.1 q.2, fun _ => trivial⟩
  · trivial

theorem Vec.within_wr {x : Vec} {i : Nat} {v : α} (hx : i < x.ext → W (x.addr i)) :
    (x.wr i v).Within R W := by
  unfold Vec.wr
  split
  · exact ⟨hx ‹_›, trivial⟩
  · trivial

theorem Mat.within_wr {A : Mat} {i j : Nat} {v : α}
    (hA : i < A.rows → j < A.cols → W (A.addr i j)) : (A.wr i j v).Within R W := by
  unfold Mat.wr
  split
  · next q => exact ⟨hA q.1 q.2, trivial⟩
  · trivial

theorem VecV.within_rd {x : VecV α} {i : Nat} (hx : i < x.ext → R (x.addr i)) :
    (x.rd i).Within R W := within_bind (Vec.within_rd hx) fun _ => within_pure

theorem MatV.within_rd {A : MatV α} {i j : Nat}
    (hA : i < A.rows → j < A.cols → R (A.addr i j)) : (A.rd i j).Within R W :=
  within_bind (Mat.within_rd hA) fun _ => within_pure

theorem Vec.within_plus [Add α] {y : Vec} {i : Nat} {v : α} (hr : i < y.ext → R (y.addr i))
    (hw : i < y.ext → W (y.addr i)) : (y.plus i v).Within R W :=
  within_bind (Vec.within_rd hr) fun _ => Vec.within_wr hw

theorem Mat.within_plus [Add α] {C : Mat} {i j : Nat} {v : α}
    (hr : i < C.rows → j < C.cols → R (C.addr i j))
    (hw : i < C.rows → j < C.cols → W (C.addr i j)) : (C.plus i j v).Within R W :=
  within_bind (Mat.within_rd hr) fun _ => Mat.within_wr hw

/-- Closes goals `R (x.addr i)` where `R` is a disjunction of sets of cells. -/
syntax "in_cells" : tactic
macro_rules
  | `(tactic| in_cells) => `(tactic|
      first
      | exact True.intro
      | exact ⟨_, by assumption, rfl⟩
      | exact ⟨by assumption, rfl⟩
      | exact ⟨⟨by assumption, by assumption⟩, rfl⟩
      | exact ⟨_, by omega, by assumption, rfl⟩
      | exact ⟨_, by omega, ⟨by assumption, by assumption⟩, rfl⟩
      | exact ⟨_, _, by assumption, by assumption, trivial, rfl⟩
      | exact ⟨_, _, by assumption, by assumption, (by show _ ≤ _; omega), rfl⟩
      | exact ⟨_, _, by assumption, by assumption,
          ⟨(by show _ ≤ _; omega), fun h => by first | omega | cases h⟩, rfl⟩
      | (left; in_cells)
      | (right; in_cells))

/-- Splits a program along its structure. -/
macro "footprint" : tactic => `(tactic|
  repeat' first
    | with_reducible exact within_pure
    | with_reducible exact within_fail
    | with_reducible refine Vec.within_plus (fun _ => ?_) (fun _ => ?_)
    | with_reducible refine Mat.within_plus (fun _ _ => ?_) (fun _ _ => ?_)
    | with_reducible refine Vec.within_rd fun _ => ?_
    | with_reducible refine Vec.within_wr fun _ => ?_
    | with_reducible refine VecV.within_rd fun _ => ?_
    | with_reducible refine Mat.within_rd fun _ _ => ?_
    | with_reducible refine Mat.within_wr fun _ _ => ?_
    | with_reducible refine MatV.within_rd fun _ _ => ?_
    | with_reducible refine within_forUp fun _ _ _ => ?_
    | with_reducible refine within_forDown fun _ _ => ?_
    | with_reducible refine within_foldEach fun _ _ _ _ => ?_
    | with_reducible refine within_bind ?_ fun _ => ?_
    | with_reducible refine within_ite (fun _ => ?_) (fun _ => ?_)
    | in_cells)

section calls
variable {S : Type} [Add α] [Sub α] [Mul α] [Div α] [Zero α] [ConjOps α]
  [Zero S] [One S] [Add S] [Mul S] [Div S] [FloatOps S] [MagOps α S]

/-- The call reads only its inputs and outputs and writes only its outputs. -/
def Call.Bounded (c : Call α S) : Prop :=
  c.steps.Within (fun a => c.Input a ∨ c.Output a) (fun a => c.Output a)

theorem Call.scale1_bounded (alpha : α) (x : Vec) :
    (Call.scale1 alpha x : Call α S).Bounded := by
  simp only [Call.Bounded, Call.steps,
    Steps.scale1, Call.Input, Call.Output]
  footprint

theorem Call.scale2_bounded (alpha : α) (A : Mat) :
    (Call.scale2 alpha A : Call α S).Bounded := by
  simp only [Call.Bounded, Call.steps,
    Steps.scale2, Call.Input, Call.Output]
  footprint

theorem Call.copy1_bounded (x : VecV α) (y : Vec) :
    (Call.copy1 x y : Call α S).Bounded := by
  simp only [Call.Bounded, Call.steps,
    Steps.copy1, Call.Input, Call.Output]
  footprint

theorem Call.copy2_bounded (x : MatV α) (y : Mat) :
    (Call.copy2 x y : Call α S).Bounded := by
  simp only [Call.Bounded, Call.steps,
    Steps.copy2, Call.Input, Call.Output]
  footprint

theorem Call.swap1_bounded (x y : Vec) :
    (Call.swap1 x y : Call α S).Bounded := by
  simp only [Call.Bounded, Call.steps,
    Steps.swap1, Call.Input, Call.Output]
  footprint

theorem Call.swap2_bounded (x y : Mat) :
    (Call.swap2 x y : Call α S).Bounded := by
  simp only [Call.Bounded, Call.steps,
    Steps.swap2, Call.Input, Call.Output]
  footprint

theorem Call.add1_bounded (x y : VecV α) (z : Vec) :
    (Call.add1 x y z : Call α S).Bounded := by
  simp only [Call.Bounded, Call.steps,
    Steps.add1, Call.Input, Call.Output]
  footprint

theorem Call.add2_bounded (x y : MatV α) (z : Mat) :
    (Call.add2 x y z : Call α S).Bounded := by
  simp only [Call.Bounded, Call.steps,
    Steps.add2, Call.Input, Call.Output]
  footprint

theorem Call.givens_bounded (x y : Vec) (c s : α) :
    (Call.givens x y c s : Call α S).Bounded := by
  simp only [Call.Bounded, Call.steps,
    Steps.applyGivens, Call.Input, Call.Output]
  footprint

theorem Call.givensC_bounded (x y : Vec) (c s : α) :
    (Call.givensC x y c s : Call α S).Bounded := by
  simp only [Call.Bounded, Call.steps,
    Steps.applyGivensC, Call.Input, Call.Output]
  footprint

theorem Call.dot_bounded (v1 v2 : VecV α) (init : α) (f : α → α) (out : Nat) :
    (Call.dot v1 v2 init f out : Call α S).Bounded := by
  refine within_into ?_ rfl
  simp only [Steps.dot, Call.Input, Call.Output]
  footprint

theorem Call.dotc_bounded (v1 v2 : VecV α) (init : α) (f : α → α) (out : Nat) :
    (Call.dotc v1 v2 init f out : Call α S).Bounded := by
  refine within_into ?_ rfl
  simp only [Steps.dotc, Steps.dot, VecV.conjugated, Call.Input, Call.Output]
  footprint

theorem Call.sumOfSquares_bounded (x : VecV α) (init : SumOfSquaresOf S) (f : SumOfSquaresOf S → α) (out : Nat) :
    (Call.sumOfSquares x init f out : Call α S).Bounded := by
  refine within_into ?_ rfl
  simp only [Steps.vectorSumOfSquaresOf, Call.Input, Call.Output]
  footprint

theorem Call.twoNorm_bounded (x : VecV α) (init : S) (f : S → α) (out : Nat) :
    (Call.twoNorm x init f out : Call α S).Bounded := by
  refine within_into ?_ rfl
  simp only [Steps.vectorTwoNormOf, Steps.vectorSumOfSquaresOf, Call.Input, Call.Output]
  footprint

theorem Call.absSum_bounded (x : VecV α) (init : S) (f : S → α) (out : Nat) :
    (Call.absSum x init f out : Call α S).Bounded := by
  refine within_into ?_ rfl
  simp only [Steps.vectorAbsSumOf, Call.Input, Call.Output]
  footprint

theorem Call.idxAbsMax_bounded (sizeMax : Nat) (x : VecV α) (f : Nat → α) (out : Nat) :
    (Call.idxAbsMax sizeMax x f out : Call α S).Bounded := by
  refine within_into ?_ rfl
  simp only [Steps.vectorIdxAbsMaxOf, Call.Input, Call.Output]
  footprint

theorem Call.frobNorm_bounded (A : MatV α) (init : S) (f : S → α) (out : Nat) :
    (Call.frobNorm A init f out : Call α S).Bounded := by
  refine within_into ?_ rfl
  simp only [Steps.matrixFrobNormOf, Call.Input, Call.Output]
  footprint

theorem Call.oneNorm_bounded (A : MatV α) (init : S) (f : S → α) (out : Nat) :
    (Call.oneNorm A init f out : Call α S).Bounded := by
  refine within_into ?_ rfl
  simp only [Steps.matrixOneNormOf, Call.Input, Call.Output]
  footprint

theorem Call.infNorm_bounded (A : MatV α) (init : S) (f : S → α) (out : Nat) :
    (Call.infNorm A init f out : Call α S).Bounded := by
  refine within_into ?_ rfl
  simp only [Steps.matrixInfNormOf, Call.Input, Call.Output]
  footprint

theorem Call.gemv_bounded (A : MatV α) (x : VecV α) (y : Vec) :
    (Call.gemv A x y : Call α S).Bounded := by
  simp only [Call.Bounded, Call.steps,
    Steps.gemv, Call.Input, Call.Output]
  footprint

theorem Call.gemvUpdate_bounded (A : MatV α) (x y : VecV α) (z : Vec) :
    (Call.gemvUpdate A x y z : Call α S).Bounded := by
  simp only [Call.Bounded, Call.steps,
    Steps.gemvUpdate, Call.Input, Call.Output]
  footprint

theorem Call.symv_bounded (A : MatV α) (t : Triangle) (x : VecV α) (y : Vec) :
    (Call.symv A t x y : Call α S).Bounded := by
  cases t <;> simp only [Call.Bounded, Call.steps,
    Steps.symv, Steps.fillZero, Steps.symvAcc, Call.Input, Call.Output] <;>
  footprint

theorem Call.symvUpdate_bounded (A : MatV α) (t : Triangle) (x y : VecV α) (z : Vec) :
    (Call.symvUpdate A t x y z : Call α S).Bounded := by
  cases t <;> simp only [Call.Bounded, Call.steps,
    Steps.symvUpdate, Steps.fillFrom, Steps.symvAcc, Call.Input, Call.Output] <;>
  footprint

theorem Call.hemv_bounded (A : MatV α) (t : Triangle) (x : VecV α) (y : Vec) :
    (Call.hemv A t x y : Call α S).Bounded := by
  cases t <;> simp only [Call.Bounded, Call.steps,
    Steps.hemv, Steps.fillZero, Steps.hemvAcc, Call.Input, Call.Output] <;>
  footprint

theorem Call.hemvUpdate_bounded (A : MatV α) (t : Triangle) (x y : VecV α) (z : Vec) :
    (Call.hemvUpdate A t x y z : Call α S).Bounded := by
  cases t <;> simp only [Call.Bounded, Call.steps,
    Steps.hemvUpdate, Steps.fillFrom, Steps.hemvAcc, Call.Input, Call.Output] <;>
  footprint

theorem Call.trmv_bounded (A : MatV α) (t : Triangle) (d : Diag) (x : VecV α) (y : Vec) :
    (Call.trmv A t d x y : Call α S).Bounded := by
  cases t <;> cases d <;> simp only [Call.Bounded, Call.steps,
    Steps.trmv, Steps.fillZero, Steps.trmvAcc, Call.Input, Call.Output, reduceIte, reduceCtorEq] <;>
  footprint

theorem Call.trmvUpdate_bounded (A : MatV α) (t : Triangle) (d : Diag) (x y : VecV α) (z : Vec) :
    (Call.trmvUpdate A t d x y z : Call α S).Bounded := by
  cases t <;> cases d <;> simp only [Call.Bounded, Call.steps,
    Steps.trmvUpdate, Steps.fillFrom, Steps.trmvAcc, Call.Input, Call.Output, reduceIte, reduceCtorEq] <;>
  footprint

theorem Call.trmvInPlace_bounded (A : MatV α) (t : Triangle) (d : Diag) (y : Vec) :
    (Call.trmvInPlace A t d y : Call α S).Bounded := by
  cases t <;> cases d <;> simp only [Call.Bounded, Call.steps,
    Steps.trmvInPlace, Call.Input, Call.Output, reduceIte, reduceCtorEq] <;>
  footprint

theorem Call.trsv_bounded (divide : α → α → α) (A : MatV α) (t : Triangle) (d : Diag) (b : VecV α) (x : Vec) :
    (Call.trsv divide A t d b x : Call α S).Bounded := by
  cases t <;> cases d <;> simp only [Call.Bounded, Call.steps,
    Steps.trsv, Steps.trsvLower, Steps.trsvUpper, Call.Input, Call.Output, reduceIte, reduceCtorEq] <;>
  footprint

theorem Call.ger_bounded (x y : VecV α) (A : Mat) :
    (Call.ger x y A : Call α S).Bounded := by
  simp only [Call.Bounded, Call.steps,
    Steps.ger, Call.Input, Call.Output]
  footprint

theorem Call.gerc_bounded (x y : VecV α) (A : Mat) :
    (Call.gerc x y A : Call α S).Bounded := by
  simp only [Call.Bounded, Call.steps,
    Steps.gerc, Steps.ger, VecV.conjugated, Call.Input, Call.Output]
  footprint

theorem Call.syrAlpha_bounded (alpha : α) (x : VecV α) (A : Mat) (t : Triangle) :
    (Call.syrAlpha alpha x A t : Call α S).Bounded := by
  cases t <;> simp only [Call.Bounded, Call.steps,
    Steps.syrAlpha, Steps.triangleLoop, Call.Input, Call.Output] <;>
  footprint

theorem Call.syr_bounded (x : VecV α) (A : Mat) (t : Triangle) :
    (Call.syr x A t : Call α S).Bounded := by
  cases t <;> simp only [Call.Bounded, Call.steps,
    Steps.syr, Steps.triangleLoop, Call.Input, Call.Output] <;>
  footprint

theorem Call.syr2_bounded (x y : VecV α) (A : Mat) (t : Triangle) :
    (Call.syr2 x y A t : Call α S).Bounded := by
  cases t <;> simp only [Call.Bounded, Call.steps,
    Steps.syr2, Steps.triangleLoop, Call.Input, Call.Output] <;>
  footprint

theorem Call.herAlpha_bounded (alpha : α) (x : VecV α) (A : Mat) (t : Triangle) :
    (Call.herAlpha alpha x A t : Call α S).Bounded := by
  cases t <;> simp only [Call.Bounded, Call.steps,
    Steps.herAlpha, Steps.triangleLoop, Steps.makeDiagReal, Call.Input, Call.Output] <;>
  footprint

theorem Call.her_bounded (x : VecV α) (A : Mat) (t : Triangle) :
    (Call.her x A t : Call α S).Bounded := by
  cases t <;> simp only [Call.Bounded, Call.steps,
    Steps.her, Steps.triangleLoop, Steps.makeDiagReal, Call.Input, Call.Output] <;>
  footprint

theorem Call.her2_bounded (x y : VecV α) (A : Mat) (t : Triangle) :
    (Call.her2 x y A t : Call α S).Bounded := by
  cases t <;> simp only [Call.Bounded, Call.steps,
    Steps.her2, Steps.triangleLoop, Steps.makeDiagReal, Call.Input, Call.Output] <;>
  footprint

theorem Call.syrkAlpha_bounded (alpha : α) (A : MatV α) (C : Mat) (t : Triangle) :
    (Call.syrkAlpha alpha A C t : Call α S).Bounded := by
  cases t <;> simp only [Call.Bounded, Call.steps,
    Steps.syrkAlpha, Steps.triangleLoop, Call.Input, Call.Output] <;>
  footprint

theorem Call.syrk_bounded (A : MatV α) (C : Mat) (t : Triangle) :
    (Call.syrk A C t : Call α S).Bounded := by
  cases t <;> simp only [Call.Bounded, Call.steps,
    Steps.syrk, Steps.triangleLoop, Call.Input, Call.Output] <;>
  footprint

theorem Call.syr2k_bounded (A B : MatV α) (C : Mat) (t : Triangle) :
    (Call.syr2k A B C t : Call α S).Bounded := by
  cases t <;> simp only [Call.Bounded, Call.steps,
    Steps.syr2k, Steps.triangleLoop, Call.Input, Call.Output] <;>
  footprint

theorem Call.herkAlpha_bounded (alpha : α) (A : MatV α) (C : Mat) (t : Triangle) :
    (Call.herkAlpha alpha A C t : Call α S).Bounded := by
  cases t <;> simp only [Call.Bounded, Call.steps,
    Steps.herkAlpha, Steps.triangleLoop, Steps.makeDiagReal, Call.Input, Call.Output] <;>
  footprint

theorem Call.herk_bounded (A : MatV α) (C : Mat) (t : Triangle) :
    (Call.herk A C t : Call α S).Bounded := by
  cases t <;> simp only [Call.Bounded, Call.steps,
    Steps.herk, Steps.triangleLoop, Steps.makeDiagReal, Call.Input, Call.Output] <;>
  footprint

theorem Call.her2k_bounded (A B : MatV α) (C : Mat) (t : Triangle) :
    (Call.her2k A B C t : Call α S).Bounded := by
  cases t <;> simp only [Call.Bounded, Call.steps,
    Steps.her2k, Steps.triangleLoop, Steps.makeDiagReal, Call.Input, Call.Output] <;>
  footprint

theorem Call.gemm_bounded (A B : MatV α) (C : Mat) :
    (Call.gemm A B C : Call α S).Bounded := by
  simp only [Call.Bounded, Call.steps,
    Steps.gemm, Call.Input, Call.Output]
  footprint

theorem Call.gemmUpdate_bounded (A B E : MatV α) (C : Mat) :
    (Call.gemmUpdate A B E C : Call α S).Bounded := by
  simp only [Call.Bounded, Call.steps,
    Steps.gemmUpdate, Call.Input, Call.Output]
  footprint

theorem Call.trmmLeft_bounded (A : MatV α) (t : Triangle) (d : Diag) (B : MatV α) (C : Mat) :
    (Call.trmmLeft A t d B C : Call α S).Bounded := by
  cases t <;> cases d <;> simp only [Call.Bounded, Call.steps,
    Steps.trmmLeft, Call.Input, Call.Output, reduceIte, reduceCtorEq] <;>
  footprint

theorem Call.trmmRight_bounded (B : MatV α) (A : MatV α) (t : Triangle) (d : Diag) (C : Mat) :
    (Call.trmmRight B A t d C : Call α S).Bounded := by
  cases t <;> cases d <;> simp only [Call.Bounded, Call.steps,
    Steps.trmmRight, Call.Input, Call.Output, reduceIte, reduceCtorEq] <;>
  footprint

theorem Call.trmmLeftInPlace_bounded (A : MatV α) (t : Triangle) (d : Diag) (C : Mat) :
    (Call.trmmLeftInPlace A t d C : Call α S).Bounded := by
  cases t <;> cases d <;> simp only [Call.Bounded, Call.steps,
    Steps.trmmLeftInPlace, Call.Input, Call.Output, reduceIte, reduceCtorEq] <;>
  footprint

theorem Call.trmmRightInPlace_bounded (A : MatV α) (t : Triangle) (d : Diag) (C : Mat) :
    (Call.trmmRightInPlace A t d C : Call α S).Bounded := by
  cases t <;> cases d <;> simp only [Call.Bounded, Call.steps,
    Steps.trmmRightInPlace, Call.Input, Call.Output, reduceIte, reduceCtorEq] <;>
  footprint

theorem Call.symmLeft_bounded (A : MatV α) (t : Triangle) (B : MatV α) (C : Mat) :
    (Call.symmLeft A t B C : Call α S).Bounded := by
  cases t <;> simp only [Call.Bounded, Call.steps,
    Steps.symmLeft, Call.Input, Call.Output] <;>
  footprint

theorem Call.symmRight_bounded (B : MatV α) (A : MatV α) (t : Triangle) (C : Mat) :
    (Call.symmRight B A t C : Call α S).Bounded := by
  cases t <;> simp only [Call.Bounded, Call.steps,
    Steps.symmRight, Call.Input, Call.Output] <;>
  footprint

theorem Call.hemmLeft_bounded (A : MatV α) (t : Triangle) (B : MatV α) (C : Mat) :
    (Call.hemmLeft A t B C : Call α S).Bounded := by
  cases t <;> simp only [Call.Bounded, Call.steps,
    Steps.hemmLeft, Call.Input, Call.Output] <;>
  footprint

theorem Call.hemmRight_bounded (B : MatV α) (A : MatV α) (t : Triangle) (C : Mat) :
    (Call.hemmRight B A t C : Call α S).Bounded := by
  cases t <;> simp only [Call.Bounded, Call.steps,
    Steps.hemmRight, Call.Input, Call.Output] <;>
  footprint

theorem Call.trsm_bounded (A : MatV α) (t : Triangle) (d : Diag) (side : Side) (B : MatV α) (X : Mat) :
    (Call.trsm A t d side B X : Call α S).Bounded := by
  cases side <;> cases t <;> cases d <;> simp only [Call.Bounded, Call.steps,
    Steps.trsm, Steps.trsmLeft, Steps.trsmRight, Steps.trsmLowerLeft, Steps.trsmUpperLeft, Steps.trsmLowerRight, Steps.trsmUpperRight, Call.Input, Call.Output, reduceIte, reduceCtorEq] <;>
  footprint

/-- Every call reads only its inputs and outputs and writes only its outputs. -/
theorem Call.bounded (c : Call α S) : c.Bounded := by
  cases c
  · exact Call.scale1_bounded ..
  · exact Call.scale2_bounded ..
  · exact Call.copy1_bounded ..
  · exact Call.copy2_bounded ..
  · exact Call.swap1_bounded ..
  · exact Call.swap2_bounded ..
  · exact Call.add1_bounded ..
  · exact Call.add2_bounded ..
  · exact Call.givens_bounded ..
  · exact Call.givensC_bounded ..
  · exact Call.dot_bounded ..
  · exact Call.dotc_bounded ..
  · exact Call.sumOfSquares_bounded ..
  · exact Call.twoNorm_bounded ..
  · exact Call.absSum_bounded ..
  · exact Call.idxAbsMax_bounded ..
  · exact Call.frobNorm_bounded ..
  · exact Call.oneNorm_bounded ..
  · exact Call.infNorm_bounded ..
  · exact Call.gemv_bounded ..
  · exact Call.gemvUpdate_bounded ..
  · exact Call.symv_bounded ..
  · exact Call.symvUpdate_bounded ..
  · exact Call.hemv_bounded ..
  · exact Call.hemvUpdate_bounded ..
  · exact Call.trmv_bounded ..
  · exact Call.trmvUpdate_bounded ..
  · exact Call.trmvInPlace_bounded ..
  · exact Call.trsv_bounded ..
  · exact Call.ger_bounded ..
  · exact Call.gerc_bounded ..
  · exact Call.syrAlpha_bounded ..
  · exact Call.syr_bounded ..
  · exact Call.syr2_bounded ..
  · exact Call.herAlpha_bounded ..
  · exact Call.her_bounded ..
  · exact Call.her2_bounded ..
  · exact Call.syrkAlpha_bounded ..
  · exact Call.syrk_bounded ..
  · exact Call.syr2k_bounded ..
  · exact Call.herkAlpha_bounded ..
  · exact Call.herk_bounded ..
  · exact Call.her2k_bounded ..
  · exact Call.gemm_bounded ..
  · exact Call.gemmUpdate_bounded ..
  · exact Call.trmmLeft_bounded ..
  · exact Call.trmmRight_bounded ..
  · exact Call.trmmLeftInPlace_bounded ..
  · exact Call.trmmRightInPlace_bounded ..
  · exact Call.symmLeft_bounded ..
  · exact Call.symmRight_bounded ..
  · exact Call.hemmLeft_bounded ..
  · exact Call.hemmRight_bounded ..
  · exact Call.trsm_bounded ..

end calls

end StdBLAS

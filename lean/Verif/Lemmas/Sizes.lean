import Verif.Lemmas.Calls
import Verif.Spec.Sizes

/-!
# Calls with matching sizes do not fail

`Task.NoFail t`: whatever values it reads, `t` makes no access outside the extents of an argument.
-/

namespace StdBLAS
variable {α β γ σ : Type}

namespace Task

/-- Whatever the values read, the task does not fail by itself. -/
def NoFail : Task α β → Prop
  | done _ => True
  | fail _ => False
  | load _ k => ∀ v, (k v).NoFail
  | store _ _ k => k.NoFail

theorem noFail_pure {b : β} : (pure b : Task α β).NoFail := trivial

theorem noFail_bind {p : Task α β} {f : β → Task α γ} (hp : p.NoFail) (hf : ∀ b, (f b).NoFail) :
    (p >>= f).NoFail := by
  change (p.bind f).NoFail
  induction p with
  | done b => exact hf b
  | fail e => exact hp.elim
  | load a k ih => exact fun v => ih v (hp v)
  | store a v k ih => exact ih hp

theorem noFail_ite {c : Prop} [Decidable c] {p q : Task α β} (hp : c → p.NoFail)
    (hq : ¬ c → q.NoFail) : (if c then p else q).NoFail := by
  split
  · exact hp ‹_›
  · exact hq ‹_›

theorem noFail_forEach {ι : Type} {l : List ι} {body : ι → Task α Unit}
    (hb : ∀ i ∈ l, (body i).NoFail) : (forEach l body).NoFail := by
  induction l with
  | nil => trivial
  | cons i l ih =>
    exact noFail_bind (hb i (by simp)) fun _ => ih fun j hj => hb j (List.mem_cons_of_mem _ hj)

theorem noFail_forUp {lo hi : Nat} {body : Nat → Task α Unit}
    (hb : ∀ i, lo ≤ i → i < hi → (body i).NoFail) : (forUp lo hi body).NoFail := by
  refine noFail_forEach fun i hi' => ?_
  rw [List.mem_range'_1] at hi'
  exact hb i hi'.1 (by omega)

theorem noFail_forDown {n : Nat} {body : Nat → Task α Unit} (hb : ∀ i, i < n → (body i).NoFail) :
    (forDown n body).NoFail := by
  refine noFail_forEach fun i hi' => ?_
  rw [List.mem_reverse, List.mem_range] at hi'
  exact hb i hi'

theorem noFail_foldEach {lo n : Nat} {s : σ} {body : σ → Nat → Task α σ}
    (hb : ∀ i, lo ≤ i → i < lo + n → ∀ s, (body s i).NoFail) :
    (foldEach (List.range' lo n) s body).NoFail := by
  induction n generalizing lo s with
  | zero => trivial
  | succ n ih =>
    refine noFail_bind (hb lo le_rfl (by omega) s) fun s' => ?_
    exact ih fun i h1 h2 => hb i (by omega) (by omega)

theorem noFail_into {p : Task α β} {f : β → α} {out : Nat} (hp : p.NoFail) :
    (p.into f out).NoFail := noFail_bind hp fun _ => trivial

/-- A task that does not fail by itself and accesses only cells that exist ends normally. -/
theorem NoFail.ends {t : Task α β} (ht : t.NoFail) {R W : Nat → Prop} (hw : t.Within R W) {h : Heap α}
    (hR : ∀ a, R a → (h a).isSome) (hW : ∀ a, W a → (h a).isSome) :
    ∃ b g, t.run h = .ok (b, g) := by
  induction t generalizing h with
  | done b => exact ⟨b, h, rfl⟩
  | fail e => exact ht.elim
  | load a k ih =>
    obtain ⟨v, hv⟩ := Option.isSome_iff_exists.1 (hR a hw.1)
    obtain ⟨b, g, e⟩ := ih v (ht v) (hw.2 v) hR hW
    refine ⟨b, g, ?_⟩
    change Prog.seq (Prog.load a) _ h = _
    unfold Prog.seq Prog.load
    rw [hv]
    exact e
  | store a v k ih =>
    obtain ⟨w, hv⟩ := Option.isSome_iff_exists.1 (hW a hw.1)
    have up : ∀ b, (h b).isSome → (Function.update h a (some v) b).isSome := fun b hb => by
      by_cases q : b = a
      · rw [q, Function.update_self]; rfl
      · rw [Function.update_of_ne q]; exact hb
    obtain ⟨b, g, e⟩ := ih ht hw.2 (h := Function.update h a (some v)) (fun b hb => up b (hR b hb))
      (fun b hb => up b (hW b hb))
    refine ⟨b, g, ?_⟩
    change Prog.seq (Prog.store a v) _ h = _
    unfold Prog.seq Prog.store
    rw [hv]
    exact e

end Task

open StdBLAS.Task

theorem Vec.noFail_rd {x : Vec} {i : Nat} (hi : i < x.ext) : (x.rd i : Task α α).NoFail := by
  unfold Vec.rd
  rw [if_pos hi]
  exact fun _ => trivial

theorem Mat.noFail_rd {A : Mat} {i j : Nat} (hi : i < A.rows) (hj : j < A.cols) :
    (A.rd i j : Task α α).NoFail := by
  unfold Mat.rd
  rw [if_pos ⟨hi, hj⟩]
  exact fun _ => trivial

theorem Vec.noFail_wr {x : Vec} {i : Nat} {v : α} (hi : i < x.ext) : (x.wr i v).NoFail := by
  unfold Vec.wr
  rw [if_pos hi]
  trivial

theorem Mat.noFail_wr {A : Mat} {i j : Nat} {v : α} (hi : i < A.rows) (hj : j < A.cols) :
    (A.wr i j v).NoFail := by
  unfold Mat.wr
  rw [if_pos ⟨hi, hj⟩]
  trivial

theorem VecV.noFail_rd {x : VecV α} {i : Nat} (hi : i < x.ext) : (x.rd i).NoFail :=
  noFail_bind (Vec.noFail_rd hi) fun _ => noFail_pure

theorem MatV.noFail_rd {A : MatV α} {i j : Nat} (hi : i < A.rows) (hj : j < A.cols) :
    (A.rd i j).NoFail := noFail_bind (Mat.noFail_rd hi hj) fun _ => noFail_pure

theorem Vec.noFail_plus [Add α] {y : Vec} {i : Nat} {v : α} (hi : i < y.ext) :
    (y.plus i v).NoFail := noFail_bind (Vec.noFail_rd hi) fun _ => Vec.noFail_wr hi

theorem Mat.noFail_plus [Add α] {C : Mat} {i j : Nat} {v : α} (hi : i < C.rows) (hj : j < C.cols) :
    (C.plus i j v).NoFail := noFail_bind (Mat.noFail_rd hi hj) fun _ => Mat.noFail_wr hi hj

/-- Splits a program along its structure. -/
macro "inside" : tactic => `(tactic|
  repeat' first
    | with_reducible exact noFail_pure
    | with_reducible refine Vec.noFail_plus ?_
    | with_reducible refine Mat.noFail_plus ?_ ?_
    | with_reducible refine Vec.noFail_rd ?_
    | with_reducible refine Vec.noFail_wr ?_
    | with_reducible refine VecV.noFail_rd ?_
    | with_reducible refine Mat.noFail_rd ?_ ?_
    | with_reducible refine Mat.noFail_wr ?_ ?_
    | with_reducible refine MatV.noFail_rd ?_ ?_
    | with_reducible refine noFail_forUp fun _ _ _ => ?_
    | with_reducible refine noFail_forDown fun _ _ => ?_
    | with_reducible refine noFail_foldEach fun _ _ _ _ => ?_
    | with_reducible refine noFail_bind ?_ fun _ => ?_
    | with_reducible refine noFail_ite (fun _ => ?_) (fun _ => ?_)
    | omega)

/-- A loop with an iteration that never ends normally does not end normally. -/
theorem not_ends_forEach {ι : Type} {l : List ι} {body : ι → Prog α Unit} {h : Heap α} {i : ι}
    (hi : i ∈ l) (hb : ∀ h', ¬ Ends (body i) h' fun _ _ => True) :
    ¬ Ends (forEach l body) h fun _ _ => True := by
  induction l generalizing h with
  | nil => cases hi
  | cons j l ih =>
    intro e
    rw [forEach_cons, ends_bind] at e
    rcases List.mem_cons.1 hi with rfl | hi
    · exact hb h (e.mono fun _ _ _ => trivial)
    · obtain ⟨_, h', -, e⟩ := e
      exact ih hi e

/-- The same for a loop with a local variable. -/
theorem not_ends_foldEach {ι : Type} {l : List ι} {s : σ} {body : σ → ι → Prog α σ} {h : Heap α}
    {i : ι} (hi : i ∈ l) (hb : ∀ s h', ¬ Ends (body s i) h' fun _ _ => True) :
    ¬ Ends (foldEach l s body) h fun _ _ => True := by
  induction l generalizing h s with
  | nil => cases hi
  | cons j l ih =>
    intro e
    rw [foldEach, ends_bind] at e
    rcases List.mem_cons.1 hi with rfl | hi
    · exact hb s h (e.mono fun _ _ _ => trivial)
    · obtain ⟨_, h', -, e⟩ := e
      exact ih hi e

section calls
variable {S : Type} [Add α] [Sub α] [Mul α] [Div α] [Zero α] [ConjOps α]
  [Zero S] [One S] [Add S] [Mul S] [Div S] [FloatOps S] [MagOps α S]

/-- With matching sizes the call stays inside the extents of its arguments. -/
def Call.Inside (c : Call α S) : Prop := c.Conformant → c.steps.NoFail

theorem Call.scale1_inside (alpha : α) (x : Vec) :
    (Call.scale1 alpha x : Call α S).Inside := by
  intro hc
  simp only [Call.Conformant] at hc
  simp only [Call.steps, Steps.scale1]
  inside

theorem Call.scale2_inside (alpha : α) (A : Mat) :
    (Call.scale2 alpha A : Call α S).Inside := by
  intro hc
  simp only [Call.Conformant] at hc
  simp only [Call.steps, Steps.scale2]
  inside

theorem Call.copy1_inside (x : VecV α) (y : Vec) :
    (Call.copy1 x y : Call α S).Inside := by
  intro hc
  simp only [Call.Conformant] at hc
  simp only [Call.steps, Steps.copy1]
  inside

theorem Call.copy2_inside (x : MatV α) (y : Mat) :
    (Call.copy2 x y : Call α S).Inside := by
  intro hc
  simp only [Call.Conformant] at hc
  simp only [Call.steps, Steps.copy2]
  inside

theorem Call.swap1_inside (x y : Vec) :
    (Call.swap1 x y : Call α S).Inside := by
  intro hc
  simp only [Call.Conformant] at hc
  simp only [Call.steps, Steps.swap1]
  inside

theorem Call.swap2_inside (x y : Mat) :
    (Call.swap2 x y : Call α S).Inside := by
  intro hc
  simp only [Call.Conformant] at hc
  simp only [Call.steps, Steps.swap2]
  inside

theorem Call.add1_inside (x y : VecV α) (z : Vec) :
    (Call.add1 x y z : Call α S).Inside := by
  intro hc
  simp only [Call.Conformant] at hc
  simp only [Call.steps, Steps.add1]
  inside

theorem Call.add2_inside (x y : MatV α) (z : Mat) :
    (Call.add2 x y z : Call α S).Inside := by
  intro hc
  simp only [Call.Conformant] at hc
  simp only [Call.steps, Steps.add2]
  inside

theorem Call.givens_inside (x y : Vec) (c s : α) :
    (Call.givens x y c s : Call α S).Inside := by
  intro hc
  simp only [Call.Conformant] at hc
  simp only [Call.steps, Steps.applyGivens]
  inside

theorem Call.givensC_inside (x y : Vec) (c s : α) :
    (Call.givensC x y c s : Call α S).Inside := by
  intro hc
  simp only [Call.Conformant] at hc
  simp only [Call.steps, Steps.applyGivensC]
  inside

theorem Call.dot_inside (v1 v2 : VecV α) (init : α) (f : α → α) (out : Nat) :
    (Call.dot v1 v2 init f out : Call α S).Inside := by
  intro hc
  refine noFail_into ?_
  simp only [Call.Conformant] at hc
  simp only [Steps.dot]
  inside

theorem Call.dotc_inside (v1 v2 : VecV α) (init : α) (f : α → α) (out : Nat) :
    (Call.dotc v1 v2 init f out : Call α S).Inside := by
  intro hc
  exact Call.dot_inside (S := S) v1.conjugated v2 init f out hc

theorem Call.sumOfSquares_inside (x : VecV α) (init : SumOfSquaresOf S) (f : SumOfSquaresOf S → α) (out : Nat) :
    (Call.sumOfSquares x init f out : Call α S).Inside := by
  intro hc
  refine noFail_into ?_
  simp only [Call.Conformant] at hc
  simp only [Steps.vectorSumOfSquaresOf]
  inside

theorem Call.twoNorm_inside (x : VecV α) (init : S) (f : S → α) (out : Nat) :
    (Call.twoNorm x init f out : Call α S).Inside := by
  intro hc
  refine noFail_into ?_
  simp only [Call.Conformant] at hc
  simp only [Steps.vectorTwoNormOf, Steps.vectorSumOfSquaresOf]
  inside

theorem Call.absSum_inside (x : VecV α) (init : S) (f : S → α) (out : Nat) :
    (Call.absSum x init f out : Call α S).Inside := by
  intro hc
  refine noFail_into ?_
  simp only [Call.Conformant] at hc
  simp only [Steps.vectorAbsSumOf]
  inside

theorem Call.idxAbsMax_inside (sizeMax : Nat) (x : VecV α) (f : Nat → α) (out : Nat) :
    (Call.idxAbsMax sizeMax x f out : Call α S).Inside := by
  intro hc
  refine noFail_into ?_
  simp only [Call.Conformant] at hc
  simp only [Steps.vectorIdxAbsMaxOf]
  inside

theorem Call.frobNorm_inside (A : MatV α) (init : S) (f : S → α) (out : Nat) :
    (Call.frobNorm A init f out : Call α S).Inside := by
  intro hc
  refine noFail_into ?_
  simp only [Call.Conformant] at hc
  simp only [Steps.matrixFrobNormOf]
  inside

theorem Call.oneNorm_inside (A : MatV α) (init : S) (f : S → α) (out : Nat) :
    (Call.oneNorm A init f out : Call α S).Inside := by
  intro hc
  refine noFail_into ?_
  simp only [Call.Conformant] at hc
  simp only [Steps.matrixOneNormOf]
  inside

theorem Call.infNorm_inside (A : MatV α) (init : S) (f : S → α) (out : Nat) :
    (Call.infNorm A init f out : Call α S).Inside := by
  intro hc
  refine noFail_into ?_
  simp only [Call.Conformant] at hc
  simp only [Steps.matrixInfNormOf]
  inside

theorem Call.gemv_inside (A : MatV α) (x : VecV α) (y : Vec) :
    (Call.gemv A x y : Call α S).Inside := by
  intro hc
  simp only [Call.Conformant] at hc
  simp only [Call.steps, Steps.gemv]
  inside

theorem Call.gemvUpdate_inside (A : MatV α) (x y : VecV α) (z : Vec) :
    (Call.gemvUpdate A x y z : Call α S).Inside := by
  intro hc
  simp only [Call.Conformant] at hc
  simp only [Call.steps, Steps.gemvUpdate]
  inside

theorem Call.symv_inside (A : MatV α) (t : Triangle) (x : VecV α) (y : Vec) :
    (Call.symv A t x y : Call α S).Inside := by
  intro hc
  cases t <;> simp only [Call.Conformant] at hc <;> simp only [Call.steps, Steps.symv, Steps.fillZero, Steps.symvAcc] <;> inside

theorem Call.symvUpdate_inside (A : MatV α) (t : Triangle) (x y : VecV α) (z : Vec) :
    (Call.symvUpdate A t x y z : Call α S).Inside := by
  intro hc
  cases t <;> simp only [Call.Conformant] at hc <;> simp only [Call.steps, Steps.symvUpdate, Steps.fillFrom, Steps.symvAcc] <;> inside

theorem Call.hemv_inside (A : MatV α) (t : Triangle) (x : VecV α) (y : Vec) :
    (Call.hemv A t x y : Call α S).Inside := by
  intro hc
  cases t <;> simp only [Call.Conformant] at hc <;> simp only [Call.steps, Steps.hemv, Steps.fillZero, Steps.hemvAcc] <;> inside

theorem Call.hemvUpdate_inside (A : MatV α) (t : Triangle) (x y : VecV α) (z : Vec) :
    (Call.hemvUpdate A t x y z : Call α S).Inside := by
  intro hc
  cases t <;> simp only [Call.Conformant] at hc <;> simp only [Call.steps, Steps.hemvUpdate, Steps.fillFrom, Steps.hemvAcc] <;> inside

theorem Call.trmv_inside (A : MatV α) (t : Triangle) (d : Diag) (x : VecV α) (y : Vec) :
    (Call.trmv A t d x y : Call α S).Inside := by
  intro hc
  cases t <;> cases d <;> simp only [Call.Conformant] at hc <;> simp only [Call.steps, Steps.trmv, Steps.fillZero, Steps.trmvAcc, reduceIte, reduceCtorEq] <;> inside

theorem Call.trmvUpdate_inside (A : MatV α) (t : Triangle) (d : Diag) (x y : VecV α) (z : Vec) :
    (Call.trmvUpdate A t d x y z : Call α S).Inside := by
  intro hc
  cases t <;> cases d <;> simp only [Call.Conformant] at hc <;> simp only [Call.steps, Steps.trmvUpdate, Steps.fillFrom, Steps.trmvAcc, reduceIte, reduceCtorEq] <;> inside

theorem Call.trmvInPlace_inside (A : MatV α) (t : Triangle) (d : Diag) (y : Vec) :
    (Call.trmvInPlace A t d y : Call α S).Inside := by
  intro hc
  cases t <;> cases d <;> simp only [Call.Conformant] at hc <;> simp only [Call.steps, Steps.trmvInPlace, reduceIte, reduceCtorEq] <;> inside

theorem Call.trsv_inside (divide : α → α → α) (A : MatV α) (t : Triangle) (d : Diag) (b : VecV α) (x : Vec) :
    (Call.trsv divide A t d b x : Call α S).Inside := by
  intro hc
  cases t <;> cases d <;> simp only [Call.Conformant] at hc <;> simp only [Call.steps, Steps.trsv, Steps.trsvLower, Steps.trsvUpper, reduceIte, reduceCtorEq] <;> inside

theorem Call.ger_inside (x y : VecV α) (A : Mat) :
    (Call.ger x y A : Call α S).Inside := by
  intro hc
  simp only [Call.Conformant] at hc
  simp only [Call.steps, Steps.ger]
  inside

theorem Call.gerc_inside (x y : VecV α) (A : Mat) :
    (Call.gerc x y A : Call α S).Inside := by
  intro hc
  exact Call.ger_inside (S := S) x y.conjugated A hc

theorem Call.syrAlpha_inside (alpha : α) (x : VecV α) (A : Mat) (t : Triangle) :
    (Call.syrAlpha alpha x A t : Call α S).Inside := by
  intro hc
  cases t <;> simp only [Call.Conformant] at hc <;> simp only [Call.steps, Steps.syrAlpha, Steps.triangleLoop] <;> inside

theorem Call.syr_inside (x : VecV α) (A : Mat) (t : Triangle) :
    (Call.syr x A t : Call α S).Inside := by
  intro hc
  cases t <;> simp only [Call.Conformant] at hc <;> simp only [Call.steps, Steps.syr, Steps.triangleLoop] <;> inside

theorem Call.syr2_inside (x y : VecV α) (A : Mat) (t : Triangle) :
    (Call.syr2 x y A t : Call α S).Inside := by
  intro hc
  cases t <;> simp only [Call.Conformant] at hc <;> simp only [Call.steps, Steps.syr2, Steps.triangleLoop] <;> inside

theorem Call.herAlpha_inside (alpha : α) (x : VecV α) (A : Mat) (t : Triangle) :
    (Call.herAlpha alpha x A t : Call α S).Inside := by
  intro hc
  cases t <;> simp only [Call.Conformant] at hc <;> simp only [Call.steps, Steps.herAlpha, Steps.triangleLoop, Steps.makeDiagReal] <;> inside

theorem Call.her_inside (x : VecV α) (A : Mat) (t : Triangle) :
    (Call.her x A t : Call α S).Inside := by
  intro hc
  cases t <;> simp only [Call.Conformant] at hc <;> simp only [Call.steps, Steps.her, Steps.triangleLoop, Steps.makeDiagReal] <;> inside

theorem Call.her2_inside (x y : VecV α) (A : Mat) (t : Triangle) :
    (Call.her2 x y A t : Call α S).Inside := by
  intro hc
  cases t <;> simp only [Call.Conformant] at hc <;> simp only [Call.steps, Steps.her2, Steps.triangleLoop, Steps.makeDiagReal] <;> inside

theorem Call.syrkAlpha_inside (alpha : α) (A : MatV α) (C : Mat) (t : Triangle) :
    (Call.syrkAlpha alpha A C t : Call α S).Inside := by
  intro hc
  cases t <;> simp only [Call.Conformant] at hc <;> simp only [Call.steps, Steps.syrkAlpha, Steps.triangleLoop] <;> inside

theorem Call.syrk_inside (A : MatV α) (C : Mat) (t : Triangle) :
    (Call.syrk A C t : Call α S).Inside := by
  intro hc
  cases t <;> simp only [Call.Conformant] at hc <;> simp only [Call.steps, Steps.syrk, Steps.triangleLoop] <;> inside

theorem Call.syr2k_inside (A B : MatV α) (C : Mat) (t : Triangle) :
    (Call.syr2k A B C t : Call α S).Inside := by
  intro hc
  cases t <;> simp only [Call.Conformant] at hc <;> simp only [Call.steps, Steps.syr2k, Steps.triangleLoop] <;> inside

theorem Call.herkAlpha_inside (alpha : α) (A : MatV α) (C : Mat) (t : Triangle) :
    (Call.herkAlpha alpha A C t : Call α S).Inside := by
  intro hc
  cases t <;> simp only [Call.Conformant] at hc <;> simp only [Call.steps, Steps.herkAlpha, Steps.triangleLoop, Steps.makeDiagReal] <;> inside

theorem Call.herk_inside (A : MatV α) (C : Mat) (t : Triangle) :
    (Call.herk A C t : Call α S).Inside := by
  intro hc
  cases t <;> simp only [Call.Conformant] at hc <;> simp only [Call.steps, Steps.herk, Steps.triangleLoop, Steps.makeDiagReal] <;> inside

theorem Call.her2k_inside (A B : MatV α) (C : Mat) (t : Triangle) :
    (Call.her2k A B C t : Call α S).Inside := by
  intro hc
  cases t <;> simp only [Call.Conformant] at hc <;> simp only [Call.steps, Steps.her2k, Steps.triangleLoop, Steps.makeDiagReal] <;> inside

theorem Call.gemm_inside (A B : MatV α) (C : Mat) :
    (Call.gemm A B C : Call α S).Inside := by
  intro hc
  simp only [Call.Conformant] at hc
  simp only [Call.steps, Steps.gemm]
  inside

theorem Call.gemmUpdate_inside (A B E : MatV α) (C : Mat) :
    (Call.gemmUpdate A B E C : Call α S).Inside := by
  intro hc
  simp only [Call.Conformant] at hc
  simp only [Call.steps, Steps.gemmUpdate]
  inside

theorem Call.trmmLeft_inside (A : MatV α) (t : Triangle) (d : Diag) (B : MatV α) (C : Mat) :
    (Call.trmmLeft A t d B C : Call α S).Inside := by
  intro hc
  cases t <;> cases d <;> simp only [Call.Conformant] at hc <;> simp only [Call.steps, Steps.trmmLeft, reduceIte, reduceCtorEq] <;> inside

theorem Call.trmmRight_inside (B : MatV α) (A : MatV α) (t : Triangle) (d : Diag) (C : Mat) :
    (Call.trmmRight B A t d C : Call α S).Inside := by
  intro hc
  cases t <;> cases d <;> simp only [Call.Conformant] at hc <;> simp only [Call.steps, Steps.trmmRight, reduceIte, reduceCtorEq] <;> inside

theorem Call.trmmLeftInPlace_inside (A : MatV α) (t : Triangle) (d : Diag) (C : Mat) :
    (Call.trmmLeftInPlace A t d C : Call α S).Inside := by
  intro hc
  cases t <;> cases d <;> simp only [Call.Conformant] at hc <;> simp only [Call.steps, Steps.trmmLeftInPlace, reduceIte, reduceCtorEq] <;> inside

theorem Call.trmmRightInPlace_inside (A : MatV α) (t : Triangle) (d : Diag) (C : Mat) :
    (Call.trmmRightInPlace A t d C : Call α S).Inside := by
  intro hc
  cases t <;> cases d <;> simp only [Call.Conformant] at hc <;> simp only [Call.steps, Steps.trmmRightInPlace, reduceIte, reduceCtorEq] <;> inside

theorem Call.symmLeft_inside (A : MatV α) (t : Triangle) (B : MatV α) (C : Mat) :
    (Call.symmLeft A t B C : Call α S).Inside := by
  intro hc
  cases t <;> simp only [Call.Conformant] at hc <;> simp only [Call.steps, Steps.symmLeft] <;> inside

theorem Call.symmRight_inside (B : MatV α) (A : MatV α) (t : Triangle) (C : Mat) :
    (Call.symmRight B A t C : Call α S).Inside := by
  intro hc
  cases t <;> simp only [Call.Conformant] at hc <;> simp only [Call.steps, Steps.symmRight] <;> inside

theorem Call.hemmLeft_inside (A : MatV α) (t : Triangle) (B : MatV α) (C : Mat) :
    (Call.hemmLeft A t B C : Call α S).Inside := by
  intro hc
  cases t <;> simp only [Call.Conformant] at hc <;> simp only [Call.steps, Steps.hemmLeft] <;> inside

theorem Call.hemmRight_inside (B : MatV α) (A : MatV α) (t : Triangle) (C : Mat) :
    (Call.hemmRight B A t C : Call α S).Inside := by
  intro hc
  cases t <;> simp only [Call.Conformant] at hc <;> simp only [Call.steps, Steps.hemmRight] <;> inside

theorem Call.trsm_inside (A : MatV α) (t : Triangle) (d : Diag) (side : Side) (B : MatV α) (X : Mat) :
    (Call.trsm A t d side B X : Call α S).Inside := by
  intro hc
  cases side <;> cases t <;> cases d <;> simp only [Call.Conformant, reduceIte, reduceCtorEq] at hc <;> simp only [Call.steps, Steps.trsm, Steps.trsmLeft, Steps.trsmRight, Steps.trsmLowerLeft, Steps.trsmUpperLeft, Steps.trsmLowerRight, Steps.trsmUpperRight, reduceIte, reduceCtorEq] <;> inside

/-- Every call with matching sizes stays inside the extents of its arguments. -/
theorem Call.inside (c : Call α S) : c.Inside := by
  cases c
  · with_reducible apply Call.scale1_inside
  · with_reducible apply Call.scale2_inside
  · with_reducible apply Call.copy1_inside
  · with_reducible apply Call.copy2_inside
  · with_reducible apply Call.swap1_inside
  · with_reducible apply Call.swap2_inside
  · with_reducible apply Call.add1_inside
  · with_reducible apply Call.add2_inside
  · with_reducible apply Call.givens_inside
  · with_reducible apply Call.givensC_inside
  · with_reducible apply Call.dot_inside
  · with_reducible apply Call.dotc_inside
  · with_reducible apply Call.sumOfSquares_inside
  · with_reducible apply Call.twoNorm_inside
  · with_reducible apply Call.absSum_inside
  · with_reducible apply Call.idxAbsMax_inside
  · with_reducible apply Call.frobNorm_inside
  · with_reducible apply Call.oneNorm_inside
  · with_reducible apply Call.infNorm_inside
  · with_reducible apply Call.gemv_inside
  · with_reducible apply Call.gemvUpdate_inside
  · with_reducible apply Call.symv_inside
  · with_reducible apply Call.symvUpdate_inside
  · with_reducible apply Call.hemv_inside
  · with_reducible apply Call.hemvUpdate_inside
  · with_reducible apply Call.trmv_inside
  · with_reducible apply Call.trmvUpdate_inside
  · with_reducible apply Call.trmvInPlace_inside
  · with_reducible apply Call.trsv_inside
  · with_reducible apply Call.ger_inside
  · with_reducible apply Call.gerc_inside
  · with_reducible apply Call.syrAlpha_inside
  · with_reducible apply Call.syr_inside
  · with_reducible apply Call.syr2_inside
  · with_reducible apply Call.herAlpha_inside
  · with_reducible apply Call.her_inside
  · with_reducible apply Call.her2_inside
  · with_reducible apply Call.syrkAlpha_inside
  · with_reducible apply Call.syrk_inside
  · with_reducible apply Call.syr2k_inside
  · with_reducible apply Call.herkAlpha_inside
  · with_reducible apply Call.herk_inside
  · with_reducible apply Call.her2k_inside
  · with_reducible apply Call.gemm_inside
  · with_reducible apply Call.gemmUpdate_inside
  · with_reducible apply Call.trmmLeft_inside
  · with_reducible apply Call.trmmRight_inside
  · with_reducible apply Call.trmmLeftInPlace_inside
  · with_reducible apply Call.trmmRightInPlace_inside
  · with_reducible apply Call.symmLeft_inside
  · with_reducible apply Call.symmRight_inside
  · with_reducible apply Call.hemmLeft_inside
  · with_reducible apply Call.hemmRight_inside
  · with_reducible apply Call.trsm_inside

end calls

end StdBLAS

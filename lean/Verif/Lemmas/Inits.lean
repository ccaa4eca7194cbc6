import Verif.Lemmas.Footprint

/-!
# Reads after writes

`Task.Inits I P t`: whatever values it reads, `t` reads only cells that are in `I` or that it has
written before, and when it has ended all cells in `P` are in `I` or have been written.
-/

namespace StdBLAS
variable {α β γ σ ι : Type}

namespace Task
variable {I J P Q R W : Nat → Prop}

/-- See the head of the file. -/
def Inits (I P : Nat → Prop) : Task α β → Prop
  | done _ => ∀ a, P a → I a
  | fail _ => True
  | load a k => I a ∧ ∀ v, (k v).Inits I P
  | store a _ k => k.Inits (fun b => I b ∨ b = a) P

theorem Inits.mono {p : Task α β} (hp : p.Inits I P) (hI : ∀ a, I a → J a)
    (hP : ∀ a, Q a → P a) : p.Inits J Q := by
  induction p generalizing I J with
  | done b => exact fun a q => hI a (hp a (hP a q))
  | fail e => trivial
  | load a k ih => exact ⟨hI _ hp.1, fun v => ih v (hp.2 v) hI⟩
  | store a v k ih => exact ih hp fun b hb => hb.imp (hI b) id

theorem inits_pure {b : β} : (pure b : Task α β).Inits I I := fun _ h => h
theorem inits_fail {e : Err} : (Task.fail e : Task α β).Inits I P := trivial

theorem inits_bind {p : Task α β} {f : β → Task α γ} (hp : p.Inits I P)
    (hf : ∀ b, (f b).Inits P Q) : (p >>= f).Inits I Q := by
  change (p.bind f).Inits I Q
  induction p generalizing I with
  | done b => exact (hf b).mono hp fun _ h => h
  | fail e => trivial
  | load a k ih => exact ⟨hp.1, fun v => ih v (hp.2 v)⟩
  | store a v k ih => exact ih hp

/-- A program that reads only initialised cells. -/
theorem Within.inits {p : Task α β} (hp : p.Within R W) (hR : ∀ a, R a → I a)
    (hP : ∀ a, P a → I a) : p.Inits I P := by
  induction p generalizing I with
  | done b => exact hP
  | fail e => trivial
  | load a k ih => exact ⟨hR _ hp.1, fun v => ih v (hp.2 v) hR hP⟩
  | store a v k ih =>
    exact ih hp.2 (fun b hb => Or.inl (hR b hb)) (fun b hb => Or.inl (hP b hb))

/-- A loop each of whose iterations initialises some cells. -/
theorem inits_forEach {l : List ι} {body : ι → Task α Unit} (cells : ι → Nat → Prop)
    (hb : ∀ i ∈ l, ∀ J : Nat → Prop, (∀ a, I a → J a) →
      (body i).Inits J (fun a => J a ∨ cells i a)) :
    (forEach l body).Inits I (fun a => I a ∨ ∃ i ∈ l, cells i a) := by
  induction l generalizing I with
  | nil =>
    rintro a (h | ⟨i, hi, _⟩)
    · exact h
    · cases hi
  | cons i l ih =>
    refine inits_bind (hb i (by simp) I fun _ h => h) fun _ => ?_
    refine (ih (I := fun a => I a ∨ cells i a) fun j hj J hJ =>
      hb j (List.mem_cons_of_mem _ hj) J fun a ha => hJ a (Or.inl ha)).mono (fun _ h => h) ?_
    rintro a (h | ⟨j, hj, hc⟩)
    · exact Or.inl (Or.inl h)
    · rcases List.mem_cons.1 hj with rfl | hj
      · exact Or.inl (Or.inr hc)
      · exact Or.inr ⟨j, hj, hc⟩

theorem inits_forUp {n : Nat} {body : Nat → Task α Unit} (cells : Nat → Nat → Prop)
    (hb : ∀ i, i < n → ∀ J : Nat → Prop, (∀ a, I a → J a) →
      (body i).Inits J (fun a => J a ∨ cells i a)) :
    (forUp 0 n body).Inits I (fun a => I a ∨ ∃ i, i < n ∧ cells i a) := by
  refine (inits_forEach cells fun i hi => hb i ?_).mono (fun _ h => h) ?_
  · simpa using hi
  · rintro a (h | ⟨i, hi, hc⟩)
    · exact Or.inl h
    · exact Or.inr ⟨i, by simpa using hi, hc⟩

/-- A loop with an invariant. -/
theorem inits_forUp_inv {n : Nat} {body : Nat → Task α Unit} (P : Nat → Nat → Prop)
    (hb : ∀ i, i < n → (body i).Inits (P i) (P (i + 1))) :
    (forUp 0 n body).Inits (P 0) (P n) := by
  suffices H : ∀ m lo, lo + m = n →
      (forEach (List.range' lo m) body).Inits (P lo) (P n) from H n 0 (by omega)
  intro m
  induction m with
  | zero => rintro lo rfl; exact fun _ h => h
  | succ m ih =>
    intro lo e
    exact inits_bind (hb lo (by omega)) fun _ => ih (lo + 1) (by omega)

/-- A loop downwards with an invariant. -/
theorem inits_forDown_inv {n : Nat} {body : Nat → Task α Unit} (P : Nat → Nat → Prop)
    (hb : ∀ i, i < n → (body i).Inits (P (i + 1)) (P i)) :
    (forDown n body).Inits (P n) (P 0) := by
  induction n with
  | zero => exact fun _ h => h
  | succ n ih =>
    unfold forDown
    rw [List.range_succ, List.reverse_append]
    exact inits_bind (hb n (by omega)) fun _ => ih fun i hi => hb i (by omega)

end Task

open StdBLAS.Task
variable {I J P Q R W : Nat → Prop}

theorem Vec.inits_wr {x : Vec} {i : Nat} {v : α} :
    (x.wr i v).Inits I (fun a => I a ∨ (i < x.ext ∧ a = x.addr i)) := by
  unfold Vec.wr
  split
  · exact fun a h => h.imp id And.right
  · trivial

theorem Mat.inits_wr {A : Mat} {i j : Nat} {v : α} :
    (A.wr i j v).Inits I (fun a => I a ∨ ((i < A.rows ∧ j < A.cols) ∧ a = A.addr i j)) := by
  unfold Mat.wr
  split
  · exact fun a h => h.imp id And.right
  · trivial

/-- First a store to `x(i)`, then a program that reads what is initialised and `x(i)`. -/
theorem Vec.inits_wr_then {x : Vec} {i : Nat} {v : α} {p : Task α β} (hJ : ∀ a, I a → J a)
    (hp : p.Within (fun a => I a ∨ (i < x.ext ∧ a = x.addr i)) (fun _ => True)) :
    (x.wr i v >>= fun _ => p).Inits J (fun a => J a ∨ (i < x.ext ∧ a = x.addr i)) :=
  inits_bind Vec.inits_wr fun _ => hp.inits (fun a h => h.imp (hJ a) id) (fun _ h => h)

/-- First a store to `A(i,j)`, then a program that reads what is initialised and `A(i,j)`. -/
theorem Mat.inits_wr_then {A : Mat} {i j : Nat} {v : α} {p : Task α β} (hJ : ∀ a, I a → J a)
    (hp : p.Within (fun a => I a ∨ ((i < A.rows ∧ j < A.cols) ∧ a = A.addr i j))
      (fun _ => True)) :
    (A.wr i j v >>= fun _ => p).Inits J
      (fun a => J a ∨ ((i < A.rows ∧ j < A.cols) ∧ a = A.addr i j)) :=
  inits_bind Mat.inits_wr fun _ => hp.inits (fun a h => h.imp (hJ a) id) (fun _ h => h)

/-- A nest of two loops over the elements of `C`, columns outside. -/
theorem Mat.inits_cols {C : Mat} {body : Nat → Nat → Task α Unit}
    (hb : ∀ i j, i < C.rows → j < C.cols → ∀ J : Nat → Prop, (∀ a, I a → J a) →
      (body i j).Inits J (fun a => J a ∨ ((i < C.rows ∧ j < C.cols) ∧ a = C.addr i j))) :
    (Task.forUp 0 C.cols fun j => Task.forUp 0 C.rows fun i => body i j).Inits I
      (fun a => I a ∨ C.Cell a) := by
  refine (inits_forUp (fun j a => ∃ i, i < C.rows ∧ ((i < C.rows ∧ j < C.cols) ∧ a = C.addr i j))
    fun j hj J hJ => inits_forUp _ fun i hi J' hJ' => hb i j hi hj J' fun a ha =>
      hJ' a (hJ a ha)).mono (fun _ h => h) ?_
  rintro a (h | ⟨i, j, hi, hj, -, rfl⟩)
  · exact Or.inl h
  · exact Or.inr ⟨j, hj, i, hi, ⟨hi, hj⟩, rfl⟩

/-- A nest of two loops over the elements of `C`, rows outside. -/
theorem Mat.inits_rows {C : Mat} {body : Nat → Nat → Task α Unit}
    (hb : ∀ i j, i < C.rows → j < C.cols → ∀ J : Nat → Prop, (∀ a, I a → J a) →
      (body i j).Inits J (fun a => J a ∨ ((i < C.rows ∧ j < C.cols) ∧ a = C.addr i j))) :
    (Task.forUp 0 C.rows fun i => Task.forUp 0 C.cols fun j => body i j).Inits I
      (fun a => I a ∨ C.Cell a) := by
  refine (inits_forUp (fun i a => ∃ j, j < C.cols ∧ ((i < C.rows ∧ j < C.cols) ∧ a = C.addr i j))
    fun i hi J hJ => inits_forUp _ fun j hj J' hJ' => hb i j hi hj J' fun a ha =>
      hJ' a (hJ a ha)).mono (fun _ h => h) ?_
  rintro a (h | ⟨i, j, hi, hj, -, rfl⟩)
  · exact Or.inl h
  · exact Or.inr ⟨i, hi, j, hj, ⟨hi, hj⟩, rfl⟩

/-- A loop over the elements of `y`. -/
theorem Vec.inits_loop {y : Vec} {n : Nat} {body : Nat → Task α Unit} (hn : y.ext ≤ n)
    (hb : ∀ i, i < n → ∀ J : Nat → Prop, (∀ a, I a → J a) →
      (body i).Inits J (fun a => J a ∨ (i < y.ext ∧ a = y.addr i))) :
    (Task.forUp 0 n body).Inits I (fun a => I a ∨ y.Cell a) := by
  refine (inits_forUp (fun i a => i < y.ext ∧ a = y.addr i) hb).mono (fun _ h => h) ?_
  rintro a (h | ⟨i, hi, rfl⟩)
  · exact Or.inl h
  · exact Or.inr ⟨i, by omega, hi, rfl⟩

/-- First reads, then anything. -/
theorem inits_reads {p : Task α β} {f : β → Task α γ} (hJ : ∀ a, I a → J a)
    (hp : p.Within I (fun _ => True)) (hf : ∀ b, (f b).Inits J Q) : (p >>= f).Inits J Q :=
  inits_bind (hp.inits hJ (fun _ h => h)) hf

/-- Everything is initialised first. -/
theorem inits_first {p : Task α Unit} {q : Task α β} (hp : p.Inits I P)
    (hq : q.Within P (fun _ => True)) : (p >>= fun _ => q).Inits I P :=
  inits_bind hp fun _ => hq.inits (fun _ h => h) (fun _ h => h)

section calls
variable {S : Type} [Add α] [Sub α] [Mul α] [Div α] [Zero α] [ConjOps α]
  [Zero S] [One S] [Add S] [Mul S] [Div S] [FloatOps S] [MagOps α S]

/-- The call reads only its inputs and what it has written before, and writes all its outputs. -/
def Call.Overwrites (c : Call α S) : Prop :=
  c.steps.Inits (fun a => c.Input a) (fun a => c.Input a ∨ c.Output a)

theorem Call.copy1_overwrites (x : VecV α) (y : Vec) : (Call.copy1 x y : Call α S).Overwrites := by
  simp only [Call.Overwrites, Call.steps, Steps.copy1, Call.Input, Call.Output]
  exact Vec.inits_loop le_rfl fun i hi J hJ =>
    inits_reads hJ (by footprint) fun _ => Vec.inits_wr

theorem Call.copy2_overwrites (x : MatV α) (y : Mat) : (Call.copy2 x y : Call α S).Overwrites := by
  simp only [Call.Overwrites, Call.steps, Steps.copy2, Call.Input, Call.Output]
  exact Mat.inits_cols fun i j hi hj J hJ =>
    inits_reads hJ (by footprint) fun _ => Mat.inits_wr

theorem Call.add1_overwrites (x y : VecV α) (z : Vec) :
    (Call.add1 x y z : Call α S).Overwrites := by
  simp only [Call.Overwrites, Call.steps, Steps.add1, Call.Input, Call.Output]
  exact Vec.inits_loop le_rfl fun i hi J hJ =>
    inits_reads hJ (by footprint) fun _ => inits_reads hJ (by footprint) fun _ => Vec.inits_wr

theorem Call.add2_overwrites (x y : MatV α) (z : Mat) (hf : (Call.add2 x y z : Call α S).Fits) :
    (Call.add2 x y z : Call α S).Overwrites := by
  simp only [Call.Overwrites, Call.steps, Steps.add2, Call.Input, Call.Output]
  rw [← hf.1, ← hf.2]
  exact Mat.inits_cols fun i j hi hj J hJ =>
    inits_reads hJ (by footprint) fun _ => inits_reads hJ (by footprint) fun _ => Mat.inits_wr

theorem Call.gemv_overwrites (A : MatV α) (x : VecV α) (y : Vec)
    (hf : (Call.gemv A x y : Call α S).Fits) : (Call.gemv A x y : Call α S).Overwrites := by
  simp only [Call.Overwrites, Call.steps, Steps.gemv, Call.Input, Call.Output]
  exact Vec.inits_loop (le_of_eq hf) fun i hi J hJ => Vec.inits_wr_then hJ (by footprint)

theorem Call.gemvUpdate_overwrites (A : MatV α) (x y : VecV α) (z : Vec)
    (hf : (Call.gemvUpdate A x y z : Call α S).Fits) :
    (Call.gemvUpdate A x y z : Call α S).Overwrites := by
  simp only [Call.Overwrites, Call.steps, Steps.gemvUpdate, Call.Input, Call.Output]
  exact Vec.inits_loop (le_of_eq hf) fun i hi J hJ =>
    inits_reads hJ (by footprint) fun _ => Vec.inits_wr_then hJ (by footprint)

omit [Add α] [Sub α] [Mul α] [Div α] [ConjOps α] in
theorem Steps.inits_fillZero {n : Nat} {y : Vec} (hn : y.ext ≤ n) :
    (Steps.fillZero n y : Task α Unit).Inits I (fun a => I a ∨ y.Cell a) :=
  Vec.inits_loop hn fun _ _ _ _ => Vec.inits_wr

omit [Add α] [Sub α] [Mul α] [Div α] [Zero α] [ConjOps α] in
theorem Steps.inits_fillFrom {n : Nat} {y : VecV α} {z : Vec} (hn : z.ext ≤ n)
    (hI : ∀ a, y.toVec.Cell a → I a) :
    (Steps.fillFrom n y z : Task α Unit).Inits I (fun a => I a ∨ z.Cell a) :=
  Vec.inits_loop hn fun i _ _ hJ =>
    inits_reads hJ (VecV.within_rd fun h => hI _ ⟨i, h, rfl⟩) fun _ => Vec.inits_wr

theorem Call.symv_overwrites (A : MatV α) (t : Triangle) (x : VecV α) (y : Vec)
    (hf : (Call.symv A t x y : Call α S).Fits) :
    (Call.symv A t x y : Call α S).Overwrites := by
  cases t <;> simp only [Call.Overwrites, Call.steps, Steps.symv, Steps.symvAcc, Call.Input,
    Call.Output] <;>
  exact inits_first (Steps.inits_fillZero (le_of_eq hf)) (by footprint)

theorem Call.symvUpdate_overwrites (A : MatV α) (t : Triangle) (x y : VecV α) (z : Vec)
    (hf : (Call.symvUpdate A t x y z : Call α S).Fits) :
    (Call.symvUpdate A t x y z : Call α S).Overwrites := by
  cases t <;> simp only [Call.Overwrites, Call.steps, Steps.symvUpdate, Steps.symvAcc, Call.Input,
    Call.Output] <;>
  exact inits_first (Steps.inits_fillFrom (le_of_eq hf) fun a ha => Or.inr (Or.inr ha)) (by footprint)

theorem Call.hemv_overwrites (A : MatV α) (t : Triangle) (x : VecV α) (y : Vec)
    (hf : (Call.hemv A t x y : Call α S).Fits) :
    (Call.hemv A t x y : Call α S).Overwrites := by
  cases t <;> simp only [Call.Overwrites, Call.steps, Steps.hemv, Steps.hemvAcc, Call.Input,
    Call.Output] <;>
  exact inits_first (Steps.inits_fillZero (le_of_eq hf)) (by footprint)

theorem Call.hemvUpdate_overwrites (A : MatV α) (t : Triangle) (x y : VecV α) (z : Vec)
    (hf : (Call.hemvUpdate A t x y z : Call α S).Fits) :
    (Call.hemvUpdate A t x y z : Call α S).Overwrites := by
  cases t <;> simp only [Call.Overwrites, Call.steps, Steps.hemvUpdate, Steps.hemvAcc, Call.Input,
    Call.Output] <;>
  exact inits_first (Steps.inits_fillFrom (le_of_eq hf) fun a ha => Or.inr (Or.inr ha)) (by footprint)

theorem Call.trmv_overwrites (A : MatV α) (t : Triangle) (d : Diag) (x : VecV α) (y : Vec)
    (hf : (Call.trmv A t d x y : Call α S).Fits) :
    (Call.trmv A t d x y : Call α S).Overwrites := by
  cases t <;> cases d <;> simp only [Call.Overwrites, Call.steps, Steps.trmv, Steps.trmvAcc, Call.Input,
    Call.Output, reduceIte, reduceCtorEq] <;>
  exact inits_first (Steps.inits_fillZero (le_of_eq hf)) (by footprint)

theorem Call.trmvUpdate_overwrites (A : MatV α) (t : Triangle) (d : Diag) (x y : VecV α) (z : Vec)
    (hf : (Call.trmvUpdate A t d x y z : Call α S).Fits) :
    (Call.trmvUpdate A t d x y z : Call α S).Overwrites := by
  cases t <;> cases d <;> simp only [Call.Overwrites, Call.steps, Steps.trmvUpdate, Steps.trmvAcc, Call.Input,
    Call.Output, reduceIte, reduceCtorEq] <;>
  exact inits_first (Steps.inits_fillFrom (le_of_eq hf) fun a ha => Or.inr (Or.inr ha)) (by footprint)

theorem Call.gemm_overwrites (A B : MatV α) (C : Mat) :
    (Call.gemm A B C : Call α S).Overwrites := by
  simp only [Call.Overwrites, Call.steps, Steps.gemm, Call.Input,
    Call.Output]
  exact Mat.inits_rows fun i j hi hj J hJ => Mat.inits_wr_then hJ (by footprint)

theorem Call.gemmUpdate_overwrites (A B E : MatV α) (C : Mat) :
    (Call.gemmUpdate A B E C : Call α S).Overwrites := by
  simp only [Call.Overwrites, Call.steps, Steps.gemmUpdate, Call.Input,
    Call.Output]
  exact Mat.inits_rows fun i j hi hj J hJ =>
    inits_reads hJ (by footprint) fun _ => Mat.inits_wr_then hJ (by footprint)

theorem Call.trmmLeft_overwrites (A : MatV α) (t : Triangle) (d : Diag) (B : MatV α) (C : Mat) :
    (Call.trmmLeft A t d B C : Call α S).Overwrites := by
  cases t <;> cases d <;> simp only [Call.Overwrites, Call.steps, Steps.trmmLeft, Call.Input,
    Call.Output, reduceIte, reduceCtorEq] <;>
  exact Mat.inits_cols fun i j hi hj J hJ => Mat.inits_wr_then hJ (by footprint)

theorem Call.trmmRight_overwrites (B : MatV α) (A : MatV α) (t : Triangle) (d : Diag) (C : Mat) :
    (Call.trmmRight B A t d C : Call α S).Overwrites := by
  cases t <;> cases d <;> simp only [Call.Overwrites, Call.steps, Steps.trmmRight, Call.Input,
    Call.Output, reduceIte, reduceCtorEq] <;>
  exact Mat.inits_cols fun i j hi hj J hJ => Mat.inits_wr_then hJ (by footprint)

theorem Call.symmLeft_overwrites (A : MatV α) (t : Triangle) (B : MatV α) (C : Mat) :
    (Call.symmLeft A t B C : Call α S).Overwrites := by
  cases t <;> simp only [Call.Overwrites, Call.steps, Steps.symmLeft, Call.Input,
    Call.Output] <;>
  exact Mat.inits_cols fun i j hi hj J hJ => Mat.inits_wr_then hJ (by footprint)

theorem Call.symmRight_overwrites (B : MatV α) (A : MatV α) (t : Triangle) (C : Mat) :
    (Call.symmRight B A t C : Call α S).Overwrites := by
  cases t <;> simp only [Call.Overwrites, Call.steps, Steps.symmRight, Call.Input,
    Call.Output] <;>
  exact Mat.inits_cols fun i j hi hj J hJ => Mat.inits_wr_then hJ (by footprint)

theorem Call.hemmLeft_overwrites (A : MatV α) (t : Triangle) (B : MatV α) (C : Mat) :
    (Call.hemmLeft A t B C : Call α S).Overwrites := by
  cases t <;> simp only [Call.Overwrites, Call.steps, Steps.hemmLeft, Call.Input,
    Call.Output] <;>
  exact Mat.inits_cols fun i j hi hj J hJ => Mat.inits_wr_then hJ (by footprint)

theorem Call.hemmRight_overwrites (B : MatV α) (A : MatV α) (t : Triangle) (C : Mat) :
    (Call.hemmRight B A t C : Call α S).Overwrites := by
  cases t <;> simp only [Call.Overwrites, Call.steps, Steps.hemmRight, Call.Input,
    Call.Output] <;>
  exact Mat.inits_cols fun i j hi hj J hJ => Mat.inits_wr_then hJ (by footprint)

/-- A set of cells together with `x(k)` for `k` in `K`. -/
abbrev Vec.plusCells (I : Nat → Prop) (x : Vec) (K : Nat → Prop) (a : Nat) : Prop :=
  I a ∨ ∃ k, K k ∧ k < x.ext ∧ a = x.addr k

omit [Add α] [Sub α] [Mul α] [Div α] [Zero α] [ConjOps α] in
/-- A loop upwards over the elements of `x`, in which those before the current one may be read. -/
theorem Vec.inits_up {x : Vec} {n : Nat} {body : Nat → Task α Unit} (hn : x.ext = n)
    (hI : ∀ a, I a → J a)
    (hb : ∀ i, i < n → ∀ I' : Nat → Prop, (∀ a, Vec.plusCells I x (fun k => k < i) a → I' a) →
      (body i).Inits I' (fun a => I' a ∨ (i < x.ext ∧ a = x.addr i))) :
    (Task.forUp 0 n body).Inits J (fun a => J a ∨ x.Cell a) := by
  refine (inits_forUp_inv (fun m => Vec.plusCells J x fun k => k < m) fun i hi => ?_).mono ?_ ?_
  · refine (hb i hi _ ?_).mono (fun _ h => h) ?_
    · rintro a (h | h)
      · exact Or.inl (hI a h)
      · exact Or.inr h
    · rintro a (h | ⟨k, hk, hx, rfl⟩)
      · exact Or.inl (Or.inl h)
      · rcases Nat.eq_or_lt_of_le (Nat.lt_succ_iff.1 hk) with rfl | hk
        · exact Or.inr ⟨hx, rfl⟩
        · exact Or.inl (Or.inr ⟨k, hk, hx, rfl⟩)
  · rintro a (h | ⟨k, hk, -⟩)
    · exact h
    · exact absurd hk (Nat.not_lt_zero k)
  · rintro a (h | ⟨i, hi, rfl⟩)
    · exact Or.inl h
    · exact Or.inr ⟨i, by omega, hi, rfl⟩

omit [Add α] [Sub α] [Mul α] [Div α] [Zero α] [ConjOps α] in
/-- A loop downwards over the elements of `x`, in which those after the current one may be read. -/
theorem Vec.inits_down {x : Vec} {n : Nat} {body : Nat → Task α Unit} (hn : x.ext = n)
    (hI : ∀ a, I a → J a)
    (hb : ∀ i, i < n → ∀ I' : Nat → Prop, (∀ a, Vec.plusCells I x (fun k => i < k) a → I' a) →
      (body i).Inits I' (fun a => I' a ∨ (i < x.ext ∧ a = x.addr i))) :
    (Task.forDown n body).Inits J (fun a => J a ∨ x.Cell a) := by
  refine (inits_forDown_inv (fun m => Vec.plusCells J x fun k => m ≤ k) fun i hi => ?_).mono ?_ ?_
  · refine (hb i hi _ ?_).mono (fun _ h => h) ?_
    · rintro a (h | h)
      · exact Or.inl (hI a h)
      · exact Or.inr h
    · rintro a (h | ⟨k, hk, hx, rfl⟩)
      · exact Or.inl (Or.inl h)
      · rcases Nat.eq_or_lt_of_le hk with rfl | hk
        · exact Or.inr ⟨hx, rfl⟩
        · exact Or.inl (Or.inr ⟨k, hk, hx, rfl⟩)
  · rintro a (h | ⟨k, hk, hx, -⟩)
    · exact h
    · omega
  · rintro a (h | ⟨i, hi, rfl⟩)
    · exact Or.inl h
    · exact Or.inr ⟨i, by omega, hi, rfl⟩

theorem Call.trsv_overwrites (divide : α → α → α) (A : MatV α) (t : Triangle) (d : Diag)
    (b : VecV α) (x : Vec) (hf : (Call.trsv divide A t d b x : Call α S).Fits) :
    (Call.trsv divide A t d b x : Call α S).Overwrites := by
  change x.ext = A.rows at hf
  cases t <;> cases d <;> simp only [Call.Overwrites, Call.steps, Steps.trsv, Steps.trsvUpper,
    Steps.trsvLower, Call.Input, Call.Output, reduceIte, reduceCtorEq]
  · exact Vec.inits_down hf (fun _ h => h) fun i hi I' hI' =>
      inits_reads hI' (by footprint) fun _ => inits_reads hI' (by footprint) fun _ => Vec.inits_wr
  · exact Vec.inits_down hf (fun _ h => h) fun i hi I' hI' =>
      inits_reads hI' (by footprint) fun _ => inits_reads hI' (by footprint) fun _ =>
        inits_reads hI' (by footprint) fun _ => Vec.inits_wr
  · exact Vec.inits_up hf (fun _ h => h) fun i hi I' hI' =>
      inits_reads hI' (by footprint) fun _ => inits_reads hI' (by footprint) fun _ => Vec.inits_wr
  · exact Vec.inits_up hf (fun _ h => h) fun i hi I' hI' =>
      inits_reads hI' (by footprint) fun _ => inits_reads hI' (by footprint) fun _ =>
        inits_reads hI' (by footprint) fun _ => Vec.inits_wr

/-- Column `k` of `X`. -/
def Mat.column (X : Mat) (k : Nat) : Vec := ⟨X.rows, fun i => X.addr i k⟩

/-- Row `i` of `X`. -/
def Mat.row (X : Mat) (i : Nat) : Vec := ⟨X.cols, fun k => X.addr i k⟩

theorem Call.trsm_overwrites (A : MatV α) (t : Triangle) (d : Diag) (side : Side) (B : MatV α)
    (X : Mat) (hf : (Call.trsm A t d side B X : Call α S).Fits) :
    (Call.trsm A t d side B X : Call α S).Overwrites := by
  cases side <;> cases t <;> cases d <;> simp only [Call.Fits, reduceIte, reduceCtorEq] at hf <;>
  simp only [Call.Overwrites, Call.steps, Steps.trsm, Steps.trsmLeft, Steps.trsmRight,
    Steps.trsmLowerLeft, Steps.trsmUpperLeft, Steps.trsmLowerRight, Steps.trsmUpperRight, Call.Input,
    Call.Output, reduceIte, reduceCtorEq]
  · refine (inits_forUp (fun k => (Mat.column X k).Cell) fun k hk J hJ => ?_).mono (fun _ h => h) ?_
    · exact Vec.inits_down (x := Mat.column X k) hf.1 hJ fun i hi I' hI' =>
        inits_reads hI' (by footprint) fun _ => inits_reads hI' (by footprint) fun _ =>
        Mat.inits_wr.mono (fun _ h => h) fun a h => h.imp id fun q => ⟨⟨q.1, hf.2 ▸ hk⟩, q.2⟩
    · rintro a (h | ⟨i, j, hi, hj, -, rfl⟩)
      · exact Or.inl h
      · exact Or.inr ⟨j, hf.2 ▸ hj, i, hi, rfl⟩
  · refine (inits_forUp (fun k => (Mat.column X k).Cell) fun k hk J hJ => ?_).mono (fun _ h => h) ?_
    · exact Vec.inits_down (x := Mat.column X k) hf.1 hJ fun i hi I' hI' =>
        inits_reads hI' (by footprint) fun _ => inits_reads hI' (by footprint) fun _ =>
        inits_reads hI' (by footprint) fun _ =>
        Mat.inits_wr.mono (fun _ h => h) fun a h => h.imp id fun q => ⟨⟨q.1, hf.2 ▸ hk⟩, q.2⟩
    · rintro a (h | ⟨i, j, hi, hj, -, rfl⟩)
      · exact Or.inl h
      · exact Or.inr ⟨j, hf.2 ▸ hj, i, hi, rfl⟩
  · refine (inits_forUp (fun k => (Mat.column X k).Cell) fun k hk J hJ => ?_).mono (fun _ h => h) ?_
    · exact Vec.inits_up (x := Mat.column X k) hf.1 hJ fun i hi I' hI' =>
        inits_reads hI' (by footprint) fun _ => inits_reads hI' (by footprint) fun _ =>
        Mat.inits_wr.mono (fun _ h => h) fun a h => h.imp id fun q => ⟨⟨q.1, hf.2 ▸ hk⟩, q.2⟩
    · rintro a (h | ⟨i, j, hi, hj, -, rfl⟩)
      · exact Or.inl h
      · exact Or.inr ⟨j, hf.2 ▸ hj, i, hi, rfl⟩
  · refine (inits_forUp (fun k => (Mat.column X k).Cell) fun k hk J hJ => ?_).mono (fun _ h => h) ?_
    · exact Vec.inits_up (x := Mat.column X k) hf.1 hJ fun i hi I' hI' =>
        inits_reads hI' (by footprint) fun _ => inits_reads hI' (by footprint) fun _ =>
        inits_reads hI' (by footprint) fun _ =>
        Mat.inits_wr.mono (fun _ h => h) fun a h => h.imp id fun q => ⟨⟨q.1, hf.2 ▸ hk⟩, q.2⟩
    · rintro a (h | ⟨i, j, hi, hj, -, rfl⟩)
      · exact Or.inl h
      · exact Or.inr ⟨j, hf.2 ▸ hj, i, hi, rfl⟩
  · refine (inits_forUp (fun i => (Mat.row X i).Cell) fun k hk J hJ => ?_).mono (fun _ h => h) ?_
    · exact Vec.inits_up (x := Mat.row X k) hf.2 hJ fun i hi I' hI' =>
        inits_reads hI' (by footprint) fun _ => inits_reads hI' (by footprint) fun _ =>
        Mat.inits_wr.mono (fun _ h => h) fun a h => h.imp id fun q => ⟨⟨hf.1 ▸ hk, q.1⟩, q.2⟩
    · rintro a (h | ⟨i, j, hi, hj, -, rfl⟩)
      · exact Or.inl h
      · exact Or.inr ⟨i, hf.1 ▸ hi, j, hj, rfl⟩
  · refine (inits_forUp (fun i => (Mat.row X i).Cell) fun k hk J hJ => ?_).mono (fun _ h => h) ?_
    · exact Vec.inits_up (x := Mat.row X k) hf.2 hJ fun i hi I' hI' =>
        inits_reads hI' (by footprint) fun _ => inits_reads hI' (by footprint) fun _ =>
        inits_reads hI' (by footprint) fun _ =>
        Mat.inits_wr.mono (fun _ h => h) fun a h => h.imp id fun q => ⟨⟨hf.1 ▸ hk, q.1⟩, q.2⟩
    · rintro a (h | ⟨i, j, hi, hj, -, rfl⟩)
      · exact Or.inl h
      · exact Or.inr ⟨i, hf.1 ▸ hi, j, hj, rfl⟩
  · refine (inits_forUp (fun i => (Mat.row X i).Cell) fun k hk J hJ => ?_).mono (fun _ h => h) ?_
    · exact Vec.inits_down (x := Mat.row X k) hf.2 hJ fun i hi I' hI' =>
        inits_reads hI' (by footprint) fun _ => inits_reads hI' (by footprint) fun _ =>
        Mat.inits_wr.mono (fun _ h => h) fun a h => h.imp id fun q => ⟨⟨hf.1 ▸ hk, q.1⟩, q.2⟩
    · rintro a (h | ⟨i, j, hi, hj, -, rfl⟩)
      · exact Or.inl h
      · exact Or.inr ⟨i, hf.1 ▸ hi, j, hj, rfl⟩
  · refine (inits_forUp (fun i => (Mat.row X i).Cell) fun k hk J hJ => ?_).mono (fun _ h => h) ?_
    · exact Vec.inits_down (x := Mat.row X k) hf.2 hJ fun i hi I' hI' =>
        inits_reads hI' (by footprint) fun _ => inits_reads hI' (by footprint) fun _ =>
        inits_reads hI' (by footprint) fun _ =>
        Mat.inits_wr.mono (fun _ h => h) fun a h => h.imp id fun q => ⟨⟨hf.1 ▸ hk, q.1⟩, q.2⟩
    · rintro a (h | ⟨i, j, hi, hj, -, rfl⟩)
      · exact Or.inl h
      · exact Or.inr ⟨i, hf.1 ▸ hi, j, hj, rfl⟩

theorem Call.dot_overwrites (v1 v2 : VecV α) (init : α) (f : α → α) (out : Nat) :
    (Call.dot v1 v2 init f out : Call α S).Overwrites := by
  refine inits_reads (fun _ h => h) ?_ fun _ a h => h
  simp only [Steps.dot, Call.Input]
  footprint

theorem Call.dotc_overwrites (v1 v2 : VecV α) (init : α) (f : α → α) (out : Nat) :
    (Call.dotc v1 v2 init f out : Call α S).Overwrites := by
  refine inits_reads (fun _ h => h) ?_ fun _ a h => h
  simp only [Steps.dotc, Steps.dot, VecV.conjugated, Call.Input]
  footprint

theorem Call.sumOfSquares_overwrites (x : VecV α) (init : SumOfSquaresOf S) (f : SumOfSquaresOf S → α) (out : Nat) :
    (Call.sumOfSquares x init f out : Call α S).Overwrites := by
  refine inits_reads (fun _ h => h) ?_ fun _ a h => h
  simp only [Steps.vectorSumOfSquaresOf, Call.Input]
  footprint

theorem Call.twoNorm_overwrites (x : VecV α) (init : S) (f : S → α) (out : Nat) :
    (Call.twoNorm x init f out : Call α S).Overwrites := by
  refine inits_reads (fun _ h => h) ?_ fun _ a h => h
  simp only [Steps.vectorTwoNormOf, Steps.vectorSumOfSquaresOf, Call.Input]
  footprint

theorem Call.absSum_overwrites (x : VecV α) (init : S) (f : S → α) (out : Nat) :
    (Call.absSum x init f out : Call α S).Overwrites := by
  refine inits_reads (fun _ h => h) ?_ fun _ a h => h
  simp only [Steps.vectorAbsSumOf, Call.Input]
  footprint

theorem Call.idxAbsMax_overwrites (sizeMax : Nat) (x : VecV α) (f : Nat → α) (out : Nat) :
    (Call.idxAbsMax sizeMax x f out : Call α S).Overwrites := by
  refine inits_reads (fun _ h => h) ?_ fun _ a h => h
  simp only [Steps.vectorIdxAbsMaxOf, Call.Input]
  footprint

theorem Call.frobNorm_overwrites (A : MatV α) (init : S) (f : S → α) (out : Nat) :
    (Call.frobNorm A init f out : Call α S).Overwrites := by
  refine inits_reads (fun _ h => h) ?_ fun _ a h => h
  simp only [Steps.matrixFrobNormOf, Call.Input]
  footprint

theorem Call.oneNorm_overwrites (A : MatV α) (init : S) (f : S → α) (out : Nat) :
    (Call.oneNorm A init f out : Call α S).Overwrites := by
  refine inits_reads (fun _ h => h) ?_ fun _ a h => h
  simp only [Steps.matrixOneNormOf, Call.Input]
  footprint

theorem Call.infNorm_overwrites (A : MatV α) (init : S) (f : S → α) (out : Nat) :
    (Call.infNorm A init f out : Call α S).Overwrites := by
  refine inits_reads (fun _ h => h) ?_ fun _ a h => h
  simp only [Steps.matrixInfNormOf, Call.Input]
  footprint

theorem Call.inits_of_overwrites {c : Call α S} (h : c.Overwrites) :
    c.steps.Inits (fun a => c.Needs a) (fun a => c.Needs a ∨ c.Output a) := by
  refine (h.mono (J := fun a => c.Needs a) (Q := fun a => c.Needs a ∨ c.Output a)
    (fun _ => Or.inl) ?_)
  rintro a ((h | h) | h)
  · exact Or.inl h
  · exact Or.inr h.2
  · exact Or.inr h

theorem Call.inits_of_inPlace {c : Call α S} (h : c.InPlace) :
    c.steps.Inits (fun a => c.Needs a) (fun a => c.Needs a ∨ c.Output a) := by
  refine c.bounded.inits ?_ ?_
  · rintro a (h' | h')
    · exact Or.inl h'
    · exact Or.inr ⟨h, h'⟩
  · rintro a (h' | h')
    · exact h'
    · exact Or.inr ⟨h, h'⟩

/-- Every call whose outputs have the right size reads only what its result depends on and what it
has written before, and leaves no output uninitialised. -/
theorem Call.inits (c : Call α S) (hf : c.Fits) :
    c.steps.Inits (fun a => c.Needs a) (fun a => c.Needs a ∨ c.Output a) := by
  cases c
  · exact inits_of_inPlace trivial
  · exact inits_of_inPlace trivial
  · exact inits_of_overwrites (copy1_overwrites ..)
  · exact inits_of_overwrites (copy2_overwrites ..)
  · exact inits_of_inPlace trivial
  · exact inits_of_inPlace trivial
  · exact inits_of_overwrites (add1_overwrites ..)
  · exact inits_of_overwrites (add2_overwrites (hf := hf) ..)
  · exact inits_of_inPlace trivial
  · exact inits_of_inPlace trivial
  · exact inits_of_overwrites (dot_overwrites ..)
  · exact inits_of_overwrites (dotc_overwrites ..)
  · exact inits_of_overwrites (sumOfSquares_overwrites ..)
  · exact inits_of_overwrites (twoNorm_overwrites ..)
  · exact inits_of_overwrites (absSum_overwrites ..)
  · exact inits_of_overwrites (idxAbsMax_overwrites ..)
  · exact inits_of_overwrites (frobNorm_overwrites ..)
  · exact inits_of_overwrites (oneNorm_overwrites ..)
  · exact inits_of_overwrites (infNorm_overwrites ..)
  · exact inits_of_overwrites (gemv_overwrites (hf := hf) ..)
  · exact inits_of_overwrites (gemvUpdate_overwrites (hf := hf) ..)
  · exact inits_of_overwrites (symv_overwrites (hf := hf) ..)
  · exact inits_of_overwrites (symvUpdate_overwrites (hf := hf) ..)
  · exact inits_of_overwrites (hemv_overwrites (hf := hf) ..)
  · exact inits_of_overwrites (hemvUpdate_overwrites (hf := hf) ..)
  · exact inits_of_overwrites (trmv_overwrites (hf := hf) ..)
  · exact inits_of_overwrites (trmvUpdate_overwrites (hf := hf) ..)
  · exact inits_of_inPlace trivial
  · exact inits_of_overwrites (trsv_overwrites (hf := hf) ..)
  · exact inits_of_inPlace trivial
  · exact inits_of_inPlace trivial
  · exact inits_of_inPlace trivial
  · exact inits_of_inPlace trivial
  · exact inits_of_inPlace trivial
  · exact inits_of_inPlace trivial
  · exact inits_of_inPlace trivial
  · exact inits_of_inPlace trivial
  · exact inits_of_inPlace trivial
  · exact inits_of_inPlace trivial
  · exact inits_of_inPlace trivial
  · exact inits_of_inPlace trivial
  · exact inits_of_inPlace trivial
  · exact inits_of_inPlace trivial
  · exact inits_of_overwrites (gemm_overwrites ..)
  · exact inits_of_overwrites (gemmUpdate_overwrites ..)
  · exact inits_of_overwrites (trmmLeft_overwrites ..)
  · exact inits_of_overwrites (trmmRight_overwrites ..)
  · exact inits_of_inPlace trivial
  · exact inits_of_inPlace trivial
  · exact inits_of_overwrites (symmLeft_overwrites ..)
  · exact inits_of_overwrites (symmRight_overwrites ..)
  · exact inits_of_overwrites (hemmLeft_overwrites ..)
  · exact inits_of_overwrites (hemmRight_overwrites ..)
  · exact inits_of_overwrites (trsm_overwrites (hf := hf) ..)

end calls

end StdBLAS

import Verif.Props.Blas1Elementwise
import Verif.Props.Blas2Products
import Verif.Props.Blas3Products
import Verif.Props.RankUpdates
import Verif.Props.Levels
import Mathlib.Tactic.Ring

/-!
# Property C71: sequences of calls obey the laws of linear algebra

Every theorem runs two different sequences of calls from the same memory and compares the
results.  Elements are those of a ring (commutative where the law needs it), so there is no
rounding.  Temporaries are ordinary outputs; `Apart` says which views do not overlap.
-/

namespace StdBLAS
open Finset Witness
variable {α : Type}

/-! ## Memory bookkeeping -/

theorem Vec.Alloc.of_onlyChanges {y : Vec} {h h' : Heap α} {P : Nat → Prop} (hy : y.Alloc h)
    (hP : Apart y.Cell P) (hc : OnlyChanges P h h') : y.Alloc h' := fun i hi => by
  obtain ⟨v, hv⟩ := hy i hi
  exact ⟨v, by rw [hc _ (hP _ ⟨i, hi, rfl⟩), hv]⟩

theorem Mat.AllocOn.of_onlyChanges {C : Mat} {R : Region} {h h' : Heap α} {P : Nat → Prop}
    (hC : C.AllocOn h R) (hP : Apart (C.CellOn R) P) (hc : OnlyChanges P h h') :
    C.AllocOn h' R := fun i j hi hj hr => by
  obtain ⟨v, hv⟩ := hC i j hi hj hr
  exact ⟨v, by rw [hc _ (hP _ ⟨i, j, hi, hj, hr, rfl⟩), hv]⟩

theorem Vec.Holds.asView {y : Vec} {h : Heap α} {f : Nat → α} (hy : y.Holds h f) :
    (y.view : VecV α).Holds h f := fun i hi => ⟨_, hy i hi, rfl⟩

theorem Mat.HoldsOn.asView {C : Mat} {R : Region} {h : Heap α} {f : Nat → Nat → α}
    (hC : C.HoldsOn h R f) : (C.view : MatV α).HoldsOn h R f :=
  fun i j hi hj hr => ⟨_, hC i j hi hj hr, rfl⟩

/-! ## Symmetry of the matrices named by a triangle -/

theorem hermOf_conj (t : Triangle) (a : Nat → Nat → ℂ) (i j : Nat) :
    (starRingEnd ℂ) (hermOf t a i j) = hermOf t a j i := by
  rcases Nat.lt_trichotomy i j with e | e | e
  · cases t
    · simp only [hermOf, Triangle.region, e.ne, e.ne', e.le, not_le.2 e, if_true, if_false]; rfl
    · simp only [hermOf, Triangle.region, e.ne, e.ne', e.le, not_le.2 e, if_true, if_false]
      exact Complex.conj_conj _
  · subst e
    simp only [hermOf, if_true]
    exact Complex.conj_ofReal _
  · cases t
    · simp only [hermOf, Triangle.region, e.ne, e.ne', e.le, not_le.2 e, if_true, if_false]
      exact Complex.conj_conj _
    · simp only [hermOf, Triangle.region, e.ne, e.ne', e.le, not_le.2 e, if_true, if_false]; rfl

/-! ## Associativity -/

/-- `(A B) x = A (B x)` -/
theorem mulVec_mulMat [NonUnitalSemiring α] (m n : Nat) (a b : Nat → Nat → α) (x : Nat → α)
    (i : Nat) : mulVec n (mulMat m a b) x i = mulVec m a (mulVec n b x) i := by
  simp only [mulVec, mulMat, sum_mul, mul_sum, mul_assoc]
  exact sum_comm

/-- `(A B) C = A (B C)` -/
theorem mulMat_assoc [NonUnitalSemiring α] (m n : Nat) (a b c : Nat → Nat → α) (i j : Nat) :
    mulMat n (mulMat m a b) c i j = mulMat m a (mulMat n b c) i j := by
  simp only [mulMat, sum_mul, mul_sum, mul_assoc]
  exact sum_comm

/-- **C71** Multiplying the matrices first (`matrix_product(A, B, M)`, then
`matrix_vector_product(M, x, y)`) gives the same `y` as multiplying by `B` and then by `A`. -/
theorem C71_product_of_products [NonUnitalSemiring α] (A B : MatV α) (M : Mat) (x : VecV α)
    (w y : Vec) (h : Heap α) (a b : Nat → Nat → α) (f : Nat → α)
    (hA : A.Holds h a) (hB : B.Holds h b) (hM : M.Alloc h) (hx : x.Holds h f) (hw : w.Alloc h)
    (hy : y.Alloc h) (hAB : A.cols = B.rows) (hBx : B.cols = x.ext) (hyA : y.ext = A.rows)
    (hMr : M.rows = A.rows) (hMc : M.cols = B.cols) (hwB : w.ext = B.rows)
    (huM : M.Unique) (huw : w.Unique) (huy : y.Unique)
    (hAM : Apart A.toMat.Cell M.Cell) (hBM : Apart B.toMat.Cell M.Cell)
    (hxM : Apart x.toVec.Cell M.Cell) (hyM : Apart y.Cell M.Cell) (hMy : Apart M.Cell y.Cell)
    (hAw : Apart A.toMat.Cell w.Cell) (hBw : Apart B.toMat.Cell w.Cell)
    (hxw : Apart x.toVec.Cell w.Cell) (hyw : Apart y.Cell w.Cell) (hwy : Apart w.Cell y.Cell)
    (hAy : Apart A.toMat.Cell y.Cell) (hxy : Apart x.toVec.Cell y.Cell) :
    Ends (do gemm A B M; gemv M.view x y) h fun _ h1 =>
      Ends (do gemv B x w; gemv A w.view y) h fun _ h2 =>
        ∀ i, i < y.ext → ∃ v, h1 (y.addr i) = some v ∧ h2 (y.addr i) = some v := by
  rw [ends_bind]
  refine (C31_gemm A B M h a b hA hB hM hMr hAB hMc huM hAM hBM).mono fun _ k1 hk1 => ?_
  refine (C16_gemv M.view x y k1 _ f hk1.1.asView (hx.of_onlyChanges hxM hk1.2)
    (hy.of_onlyChanges hyM hk1.2) (by rw [hyA]; exact hMr.symm)
    (by show M.cols ≤ _; omega) huy hMy hxy).mono fun _ h1 hb1 => ?_
  rw [ends_bind]
  refine (C16_gemv B x w h b f hB hx hw hwB hBx.le huw hBw hxw).mono fun _ k2 hk2 => ?_
  refine (C16_gemv A w.view y k2 a _ (hA.of_onlyChanges hAw hk2.2) hk2.1.asView
    (hy.of_onlyChanges hyw hk2.2) hyA (by show _ ≤ w.ext; omega) huy hAy hwy).mono
    fun _ h2 hb2 i hi => ⟨_, hb1.1 i hi, ?_⟩
  rw [hb2.1 i hi]
  have := mulVec_mulMat A.cols B.cols a b f i
  simp only [mulVec] at this
  rw [show (fun i => ∑ j ∈ range M.view.cols, mulMat A.cols a b i j * f j) i =
    ∑ j ∈ range B.cols, mulMat A.cols a b i j * f j by rw [← hMc]; rfl]
  exact congrArg some this.symm

example : Ends (do gemm (A.view : MatV ℤ) B.view C; gemv C.view x.view y) (heap ℤ) fun _ h1 =>
    Ends (do gemv (B.view : MatV ℤ) x.view z; gemv A.view z.view y) (heap ℤ) fun _ h2 =>
      ∀ i, i < y.ext → ∃ v, h1 (y.addr i) = some v ∧ h2 (y.addr i) = some v :=
  C71_product_of_products _ _ _ _ _ _ _ _ _ _ (mholdsV bA) (mholdsV bB) (malloc bC) (holdsV bx)
    (alloc bz) (alloc by_) rfl rfl rfl rfl rfl rfl (by view_facts) (by view_facts) (by view_facts)
    (by view_facts) (by view_facts) (by view_facts) (by view_facts) (by view_facts)
    (by view_facts) (by view_facts) (by view_facts) (by view_facts) (by view_facts)
    (by view_facts) (by view_facts)

/-- **C71** `(A B) D` and `A (B D)`, each by two calls of `matrix_product`. -/
theorem C71_matrix_product_assoc [NonUnitalSemiring α] (A B D : MatV α) (M N C : Mat)
    (h : Heap α) (a b d : Nat → Nat → α)
    (hA : A.Holds h a) (hB : B.Holds h b) (hD : D.Holds h d) (hM : M.Alloc h) (hN : N.Alloc h)
    (hC : C.Alloc h) (hAB : A.cols = B.rows) (hBD : B.cols = D.rows)
    (hMr : M.rows = A.rows) (hMc : M.cols = B.cols) (hNr : N.rows = B.rows) (hNc : N.cols = D.cols)
    (hCr : C.rows = A.rows) (hCc : C.cols = D.cols)
    (huM : M.Unique) (huN : N.Unique) (huC : C.Unique)
    (hAM : Apart A.toMat.Cell M.Cell) (hBM : Apart B.toMat.Cell M.Cell)
    (hDM : Apart D.toMat.Cell M.Cell) (hCM : Apart C.Cell M.Cell) (hMC : Apart M.Cell C.Cell)
    (hAN : Apart A.toMat.Cell N.Cell) (hBN : Apart B.toMat.Cell N.Cell)
    (hDN : Apart D.toMat.Cell N.Cell) (hCN : Apart C.Cell N.Cell) (hNC : Apart N.Cell C.Cell)
    (hAC : Apart A.toMat.Cell C.Cell) (hDC : Apart D.toMat.Cell C.Cell) :
    Ends (do gemm A B M; gemm M.view D C) h fun _ h1 =>
      Ends (do gemm B D N; gemm A N.view C) h fun _ h2 =>
        ∀ i j, i < C.rows → j < C.cols →
          ∃ v, h1 (C.addr i j) = some v ∧ h2 (C.addr i j) = some v := by
  rw [ends_bind]
  refine (C31_gemm A B M h a b hA hB hM hMr hAB hMc huM hAM hBM).mono fun _ k1 hk1 => ?_
  refine (C31_gemm M.view D C k1 _ d hk1.1.asView (hD.of_onlyChanges hDM hk1.2)
    (hC.of_onlyChanges hCM hk1.2) (hCr.trans hMr.symm) (hMc.trans hBD) hCc huC hMC hDC).mono
    fun _ h1 hb1 => ?_
  rw [ends_bind]
  refine (C31_gemm B D N h b d hB hD hN hNr hBD hNc huN hBN hDN).mono fun _ k2 hk2 => ?_
  refine (C31_gemm A N.view C k2 a _ (hA.of_onlyChanges hAN hk2.2) hk2.1.asView
    (hC.of_onlyChanges hCN hk2.2) hCr (hAB.trans hNr.symm) (hCc.trans hNc.symm) huC hAC hNC).mono
    fun _ h2 hb2 i j hi hj => ⟨_, hb1.1 i j hi hj trivial, ?_⟩
  rw [hb2.1 i j hi hj trivial, show M.view.cols = B.cols from hMc, mulMat_assoc]

example : Ends (do gemm (T.view : MatV ℤ) W.view E; gemm E.view B.view C) (heap ℤ) fun _ h1 =>
    Ends (do gemm (W.view : MatV ℤ) B.view ⟨2, 3, fun i j => 130 + 3 * i + j⟩;
             gemm T.view (Mat.view ⟨2, 3, fun i j => 130 + 3 * i + j⟩) C) (heap ℤ) fun _ h2 =>
      ∀ i j, i < C.rows → j < C.cols →
        ∃ v, h1 (C.addr i j) = some v ∧ h2 (C.addr i j) = some v :=
  C71_matrix_product_assoc _ _ _ _ _ _ _ _ _ _ (mholdsV bT) (mholdsV bW) (mholdsV bB) (malloc bE)
    (malloc fun i j hi hj => by simp only at *; omega) (malloc bC) rfl rfl rfl rfl rfl rfl rfl rfl
    (by view_facts) (by view_facts) (by view_facts)
    (by view_facts) (by view_facts) (by view_facts) (by view_facts) (by view_facts)
    (by view_facts) (by view_facts) (by view_facts) (by view_facts) (by view_facts)
    (by view_facts) (by view_facts)

/-! ## Adjoints -/

/-- **C71** `dot(A x, y) = dot(x, transposed(A) y)`, whichever of the two products is formed. -/
theorem C71_adjoint [NonUnitalCommSemiring α] (A : MatV α) (x y : VecV α) (u w : Vec)
    (h : Heap α) (a : Nat → Nat → α) (f g : Nat → α)
    (hA : A.Holds h a) (hx : x.Holds h f) (hy : y.Holds h g) (hu : u.Alloc h) (hw : w.Alloc h)
    (hxA : x.ext = A.cols) (hyA : y.ext = A.rows) (huA : u.ext = A.rows) (hwA : w.ext = A.cols)
    (huu : u.Unique) (huw : w.Unique)
    (hAu : Apart A.toMat.Cell u.Cell) (hxu : Apart x.toVec.Cell u.Cell)
    (hyu : Apart y.toVec.Cell u.Cell)
    (hAw : Apart A.toMat.Cell w.Cell) (hxw : Apart x.toVec.Cell w.Cell)
    (hyw : Apart y.toVec.Cell w.Cell) :
    Ends (do gemv A x u; dot0 u.view y) h fun r _ =>
      Ends (do gemv A.transposed y w; dot0 x w.view) h fun s _ => r = s := by
  rw [ends_bind]
  refine (C16_gemv A x u h a f hA hx hu huA hxA.ge huu hAu hxu).mono fun _ k1 hk1 => ?_
  refine (C01_dot_no_init u.view y k1 _ g hk1.1.asView (hy.of_onlyChanges hyu hk1.2)
    (by show u.ext ≤ _; omega)).mono fun r _ hr => ?_
  rw [ends_bind]
  refine (C16_gemv A.transposed y w h _ g hA.transposed hy hw hwA hyA.ge huw (transposed_apart hAw)
    hyw).mono fun _ k2 hk2 => ?_
  refine (C01_dot_no_init x w.view k2 f _ (hx.of_onlyChanges hxw hk2.2) hk2.1.asView
    (by show _ ≤ w.ext; omega)).mono fun s _ hs => ?_
  rw [hr.1, hs.1]
  show ∑ k ∈ range u.ext, _ = ∑ k ∈ range x.ext, f k * ∑ j ∈ range A.rows, _
  rw [huA, hxA]
  simp only [sum_mul, mul_sum]
  rw [sum_comm]
  refine sum_congr rfl fun j _ => sum_congr rfl fun i _ => ?_
  rw [mul_comm (a i j), mul_assoc]

example : Ends (do gemv (T.view : MatV ℤ) (Vec.view ⟨2, x.addr⟩) z; dot0 z.view y.view) (heap ℤ)
    fun r _ => Ends (do gemv (T.view : MatV ℤ).transposed y.view ⟨2, fun i => 150 + i⟩;
                        dot0 (Vec.view ⟨2, x.addr⟩) (Vec.view ⟨2, fun i => 150 + i⟩)) (heap ℤ) fun s _ => r = s :=
  C71_adjoint _ _ _ _ _ _ _ _ _ (mholdsV bT)
    (holdsV fun i hi => bx i (by simp only [x] at *; omega)) (holdsV by_) (alloc bz)
    (alloc fun i hi => by simp only at *; omega) rfl rfl rfl rfl (by view_facts) (by view_facts)
    (by view_facts) (by view_facts) (by view_facts) (by view_facts) (by view_facts)
    (by view_facts)

/-- **C71** `dotc(y, A x) = dotc(conjugate_transposed(A) y, x)` for complex elements. -/
theorem C71_adjoint_complex (A : MatV ℂ) (x y : VecV ℂ) (u w : Vec)
    (h : Heap ℂ) (a : Nat → Nat → ℂ) (f g : Nat → ℂ)
    (hA : A.Holds h a) (hx : x.Holds h f) (hy : y.Holds h g) (hu : u.Alloc h) (hw : w.Alloc h)
    (hxA : x.ext = A.cols) (hyA : y.ext = A.rows) (huA : u.ext = A.rows) (hwA : w.ext = A.cols)
    (huu : u.Unique) (huw : w.Unique)
    (hAu : Apart A.toMat.Cell u.Cell) (hxu : Apart x.toVec.Cell u.Cell)
    (hyu : Apart y.toVec.Cell u.Cell)
    (hAw : Apart A.toMat.Cell w.Cell) (hxw : Apart x.toVec.Cell w.Cell)
    (hyw : Apart y.toVec.Cell w.Cell) :
    Ends (do gemv A x u; dotc0 y u.view) h fun r _ =>
      Ends (do gemv A.conjugateTransposed y w; dotc0 w.view x) h fun s _ => r = s := by
  rw [ends_bind]
  refine (C16_gemv A x u h a f hA hx hu huA hxA.ge huu hAu hxu).mono fun _ k1 hk1 => ?_
  refine (C02_dotc y u.view 0 k1 g _ (hy.of_onlyChanges hyu hk1.2) hk1.1.asView
    (by show _ ≤ u.ext; omega)).mono fun r _ hr => ?_
  rw [ends_bind]
  refine (C16_gemv A.conjugateTransposed y w h _ g hA.conjugateTransposed hy hw hwA hyA.ge huw
    (transposed_apart hAw) hyw).mono fun _ k2 hk2 => ?_
  refine (C02_dotc w.view x 0 k2 _ f hk2.1.asView (hx.of_onlyChanges hxw hk2.2)
    (by show w.ext ≤ _; omega)).mono fun s _ hs => ?_
  rw [hr.1, hs.1]
  show 0 + ∑ k ∈ range y.ext, _ = 0 + ∑ k ∈ range w.ext, (starRingEnd ℂ) (∑ j ∈ range A.rows,
    (starRingEnd ℂ) _ * _) * f k
  rw [hyA, hwA, zero_add, zero_add]
  simp only [map_sum, map_mul, sum_mul, mul_sum, Complex.conj_conj]
  rw [sum_comm]
  refine sum_congr rfl fun j _ => sum_congr rfl fun i _ => ?_
  show (starRingEnd ℂ) _ * _ = _
  ring

example : Ends (do gemv (A.view : MatV ℂ) x.view z; dotc0 y.view z.view) (heap ℂ)
    fun r _ => Ends (do gemv (A.view : MatV ℂ).conjugateTransposed y.view z; dotc0 z.view x.view)
      (heap ℂ) fun s _ => r = s :=
  C71_adjoint_complex _ _ _ _ _ _ _ _ _ (mholdsV bA) (holdsV bx) (holdsV by_) (alloc bz)
    (alloc bz) rfl rfl rfl rfl (by view_facts) (by view_facts)
    (by view_facts) (by view_facts) (by view_facts) (by view_facts) (by view_facts)
    (by view_facts)

/-- **C71** The product with the symmetric matrix named by a triangle is self-adjoint:
`dot(A x, y) = dot(x, A y)`. -/
theorem C71_symmetric_self_adjoint [NonUnitalCommSemiring α] (A : MatV α) (t : Triangle)
    (x y : VecV α) (u : Vec)
    (h : Heap α) (a : Nat → Nat → α) (f g : Nat → α)
    (hA : A.HoldsOn h t.region a) (hx : x.Holds h f) (hy : y.Holds h g) (hu : u.Alloc h)
    (hsq : A.rows = A.cols) (hxA : x.ext = A.cols) (hyA : y.ext = A.rows) (huA : A.rows = u.ext)
    (huu : u.Unique) (hAu : Apart (A.toMat.CellOn t.region) u.Cell)
    (hxu : Apart x.toVec.Cell u.Cell) (hyu : Apart y.toVec.Cell u.Cell) :
    Ends (do symv A t x u; dot0 u.view y) h fun r _ =>
      Ends (do symv A t y u; dot0 x u.view) h fun s _ => r = s := by
  rw [ends_bind]
  refine (C17_symv A t x u h a f hA hx hu hsq huA hxA.ge huu hAu hxu).mono fun _ k1 hk1 => ?_
  refine (C01_dot_no_init u.view y k1 _ g hk1.1.asView (hy.of_onlyChanges hyu hk1.2)
    (by show u.ext ≤ _; omega)).mono fun r _ hr => ?_
  rw [ends_bind]
  refine (C17_symv A t y u h a g hA hy hu hsq huA (by omega) huu hAu hyu).mono fun _ k2 hk2 => ?_
  refine (C01_dot_no_init x u.view k2 f _ (hx.of_onlyChanges hxu hk2.2) hk2.1.asView
    (by show _ ≤ u.ext; omega)).mono fun s _ hs => ?_
  rw [hr.1, hs.1]
  show ∑ k ∈ range u.ext, _ = ∑ k ∈ range x.ext, _
  rw [← huA, hxA, hsq]
  simp only [mulVec, sum_mul, mul_sum]
  rw [sum_comm]
  refine sum_congr rfl fun j _ => sum_congr rfl fun i _ => ?_
  have hsym := symOf_comm t a i j
  rw [hsym, mul_comm (symOf t a j i), mul_assoc]

example : Ends (do symv (A.view : MatV ℤ) .lower x.view z; dot0 z.view y.view) (heap ℤ)
    fun r _ => Ends (do symv (A.view : MatV ℤ) .lower y.view z; dot0 x.view z.view)
      (heap ℤ) fun s _ => r = s :=
  C71_symmetric_self_adjoint _ _ _ _ _ _ _ _ _ (mholdsV bA) (holdsV bx) (holdsV by_) (alloc bz)
    rfl rfl rfl rfl (by view_facts) (by view_facts) (by view_facts) (by view_facts)

/-- **C71** The product with the Hermitian matrix named by a triangle is self-adjoint:
`dotc(A x, y) = dotc(x, A y)`. -/
theorem C71_hermitian_self_adjoint (A : MatV ℂ) (t : Triangle) (x y : VecV ℂ) (u : Vec)
    (h : Heap ℂ) (a : Nat → Nat → ℂ) (f g : Nat → ℂ)
    (hA : A.HoldsOn h t.region a) (hx : x.Holds h f) (hy : y.Holds h g) (hu : u.Alloc h)
    (hsq : A.rows = A.cols) (hxA : x.ext = A.cols) (hyA : y.ext = A.rows) (huA : A.rows = u.ext)
    (huu : u.Unique) (hAu : Apart (A.toMat.CellOn t.region) u.Cell)
    (hxu : Apart x.toVec.Cell u.Cell) (hyu : Apart y.toVec.Cell u.Cell) :
    Ends (do hemv A t x u; dotc0 u.view y) h fun r _ =>
      Ends (do hemv A t y u; dotc0 x u.view) h fun s _ => r = s := by
  rw [ends_bind]
  refine (C18_hemv A t x u h a f hA hx hu hsq huA hxA.ge huu hAu hxu).mono fun _ k1 hk1 => ?_
  refine (C02_dotc u.view y 0 k1 _ g hk1.1.asView (hy.of_onlyChanges hyu hk1.2)
    (by show u.ext ≤ _; omega)).mono fun r _ hr => ?_
  rw [ends_bind]
  refine (C18_hemv A t y u h a g hA hy hu hsq huA (by omega) huu hAu hyu).mono fun _ k2 hk2 => ?_
  refine (C02_dotc x u.view 0 k2 f _ (hx.of_onlyChanges hxu hk2.2) hk2.1.asView
    (by show _ ≤ u.ext; omega)).mono fun s _ hs => ?_
  rw [hr.1, hs.1]
  show 0 + ∑ k ∈ range u.ext, (starRingEnd ℂ) _ * _ = 0 + ∑ k ∈ range x.ext, (starRingEnd ℂ) _ * _
  rw [← huA, hxA, hsq, zero_add, zero_add]
  simp only [mulVec, map_sum, map_mul, sum_mul, mul_sum]
  rw [sum_comm]
  refine sum_congr rfl fun j _ => sum_congr rfl fun i _ => ?_
  have hsym := hermOf_conj t a i j
  rw [hsym]
  ring

example : Ends (do hemv (A.view : MatV ℂ) .upper x.view z; dotc0 z.view y.view) (heap ℂ)
    fun r _ => Ends (do hemv (A.view : MatV ℂ) .upper y.view z; dotc0 x.view z.view)
      (heap ℂ) fun s _ => r = s :=
  C71_hermitian_self_adjoint _ _ _ _ _ _ _ _ _ (mholdsV bA) (holdsV bx) (holdsV by_) (alloc bz)
    rfl rfl rfl rfl (by view_facts) (by view_facts) (by view_facts) (by view_facts)

/-! ## Transposed products, linearity -/

/-- **C71** `matrix_product(transposed(B), transposed(A), transposed(C))` has exactly the effect
of `matrix_product(A, B, C)`. -/
theorem C71_transposed_product [NonUnitalCommSemiring α] (A B : MatV α) (C : Mat) (h : Heap α)
    (a b : Nat → Nat → α) (hA : A.Holds h a) (hB : B.Holds h b) (hC : C.Alloc h)
    (hr : C.rows = A.rows) (hk : A.cols = B.rows) (hc : C.cols = B.cols) (hu : C.Unique)
    (hAC : Apart A.toMat.Cell C.Cell) (hBC : Apart B.toMat.Cell C.Cell) :
    Ends (gemm A B C) h fun _ h1 =>
      Ends (gemm B.transposed A.transposed C.transposed) h fun _ h2 => h1 = h2 := by
  have hcell : ∀ p, C.transposed.Cell p ↔ C.Cell p := fun p =>
    ⟨fun ⟨i, j, hi, hj, _, e⟩ => ⟨j, i, hj, hi, trivial, e⟩,
      fun ⟨i, j, hi, hj, _, e⟩ => ⟨j, i, hj, hi, trivial, e⟩⟩
  refine (C31_gemm A B C h a b hA hB hC hr hk hc hu hAC hBC).mono fun _ h1 hb1 => ?_
  refine (C31_gemm B.transposed A.transposed C.transposed h _ _ hB.transposed hA.transposed
    (fun i j hi hj _ => hC j i hj hi trivial) hc hk.symm hr
    (fun i j k l hi hj _ hk hl _ e => (hu j i l k hj hi trivial hl hk trivial e).symm)
    (fun p hp hq => transposed_apart hBC p hp ((hcell p).1 hq))
    (fun p hp hq => transposed_apart hAC p hp ((hcell p).1 hq))).mono fun _ h2 hb2 => ?_
  funext p
  by_cases hp : C.Cell p
  · obtain ⟨i, j, hi, hj, _, rfl⟩ := hp
    rw [hb1.1 i j hi hj trivial]
    have := hb2.1 j i hj hi trivial
    rw [show C.transposed.addr j i = C.addr i j from rfl] at this
    rw [this]
    refine congrArg some ?_
    simp only [mulMat]
    show _ = ∑ k ∈ range B.rows, _
    rw [hk]
    exact sum_congr rfl fun k _ => mul_comm _ _
  · rw [hb1.2 p hp, hb2.2 p fun hq => hp ((hcell p).1 hq)]

example : Ends (gemm (T.view : MatV ℤ) W.view C) (heap ℤ) fun _ h1 =>
    Ends (gemm (W.view : MatV ℤ).transposed (T.view : MatV ℤ).transposed C.transposed) (heap ℤ)
      fun _ h2 => h1 = h2 :=
  C71_transposed_product _ _ _ _ _ _ (mholdsV bT) (mholdsV bW) (malloc bC) rfl rfl rfl
    (by view_facts) (by view_facts) (by view_facts)

/-- **C71** `A (x + y) = A x + A y`: adding first and multiplying once, or multiplying and then
multiplying with update. -/
theorem C71_distributes [NonUnitalNonAssocSemiring α] (A : MatV α) (x y : VecV α) (s z : Vec)
    (h : Heap α) (a : Nat → Nat → α) (f g : Nat → α)
    (hA : A.Holds h a) (hx : x.Holds h f) (hy : y.Holds h g) (hs : s.Alloc h) (hz : z.Alloc h)
    (hxA : x.ext = A.cols) (hyA : y.ext = A.cols) (hsA : s.ext = A.cols) (hzA : z.ext = A.rows)
    (hus : s.Unique) (huz : z.Unique)
    (hAs : Apart A.toMat.Cell s.Cell) (hzs : Apart z.Cell s.Cell)
    (hxs : x.toVec.Aligned s) (hys : y.toVec.Aligned s)
    (hAz : Apart A.toMat.Cell z.Cell) (hsz : Apart s.Cell z.Cell)
    (hxz : Apart x.toVec.Cell z.Cell) (hyz : Apart y.toVec.Cell z.Cell) :
    Ends (do add1 x y s; gemv A s.view z) h fun _ h1 =>
      Ends (do gemv A x z; gemvUpdate A y z.view z) h fun _ h2 =>
        ∀ i, i < z.ext → ∃ v, h1 (z.addr i) = some v ∧ h2 (z.addr i) = some v := by
  rw [ends_bind]
  refine (C12_add_vector x y s h f g hx hy hs (by omega) (by omega) hus hxs hys).mono
    fun _ k1 hk1 => ?_
  refine (C16_gemv A s.view z k1 a _ (hA.of_onlyChanges hAs hk1.2) hk1.1.asView
    (hz.of_onlyChanges hzs hk1.2) hzA (by show _ ≤ s.ext; omega) huz hAz hsz).mono
    fun _ h1 hb1 => ?_
  rw [ends_bind]
  refine (C16_gemv A x z h a f hA hx hz hzA hxA.ge huz hAz hxz).mono fun _ k2 hk2 => ?_
  refine (C16_gemv_update A y z.view z k2 a g _ (hA.of_onlyChanges hAz hk2.2)
    (hy.of_onlyChanges hyz hk2.2) hk2.1.asView hk2.1.alloc hzA hyA.ge
    (by show _ ≤ z.ext; omega) huz hAz hyz (fun i k hi hk e => huz i k hi hk e)).mono
    fun _ h2 hb2 i hi => ⟨_, hb1.1 i hi, ?_⟩
  rw [hb2.1 i hi]
  simp only [mul_add, sum_add_distrib]

example : Ends (do add1 (x.view : VecV ℤ) y.view x; gemv A.view x.view z) (heap ℤ) fun _ h1 =>
    Ends (do gemv (A.view : MatV ℤ) x.view z; gemvUpdate A.view y.view z.view z) (heap ℤ)
      fun _ h2 => ∀ i, i < z.ext → ∃ v, h1 (z.addr i) = some v ∧ h2 (z.addr i) = some v :=
  C71_distributes _ _ _ _ _ _ _ _ _ (mholdsV bA) (holdsV bx) (holdsV by_) (alloc bx) (alloc bz)
    rfl rfl rfl rfl (by view_facts) (by view_facts) (by view_facts) (by view_facts)
    (by view_facts) (by view_facts) (by view_facts) (by view_facts) (by view_facts)
    (by view_facts)

/-- **C71** A scaling factor can be put on the matrix, on the vector, or applied to the
result. -/
theorem C71_scaling [CommSemiring α] (s : α) (A : MatV α) (x : VecV α) (y : Vec)
    (h : Heap α) (a : Nat → Nat → α) (f : Nat → α)
    (hA : A.Holds h a) (hx : x.Holds h f) (hy : y.Alloc h)
    (hrows : y.ext = A.rows) (hcols : A.cols ≤ x.ext) (hu : y.Unique)
    (hAy : Apart A.toMat.Cell y.Cell) (hxy : Apart x.toVec.Cell y.Cell) :
    Ends (gemv (A.scaled s) x y) h fun _ h1 => Ends (gemv A (x.scaled s) y) h fun _ h2 =>
      Ends (do gemv A x y; scale1 s y) h fun _ h3 => h1 = h2 ∧ h2 = h3 := by
  have hAs : (A.scaled s).Holds h fun i j => s * a i j := fun i j hi hj hr => by
    obtain ⟨v, hv, e⟩ := hA i j hi hj hr
    exact ⟨v, hv, congrArg (s * ·) e⟩
  have hxs : (x.scaled s).Holds h fun i => s * f i := fun i hi => by
    obtain ⟨v, hv, e⟩ := hx i hi
    exact ⟨v, hv, congrArg (s * ·) e⟩
  refine (C16_gemv (A.scaled s) x y h _ f hAs hx hy hrows hcols hu hAy hxy).mono
    fun _ h1 hb1 => ?_
  refine (C16_gemv A (x.scaled s) y h a _ hA hxs hy hrows hcols hu hAy hxy).mono
    fun _ h2 hb2 => ?_
  rw [ends_bind]
  refine (C16_gemv A x y h a f hA hx hy hrows hcols hu hAy hxy).mono fun _ k hk => ?_
  refine (C11_scale_vector s y k _ hk.1 hu).mono fun _ h3 hb3 => ?_
  have key : ∀ (p q : Heap α) (u v : Nat → α), y.Becomes h p u → y.Becomes h q v →
      (∀ i, u i = v i) → p = q := by
    intro p q u v hp hq e
    funext c
    by_cases hc : y.Cell c
    · obtain ⟨i, hi, rfl⟩ := hc
      rw [hp.1 i hi, hq.1 i hi, e]
    · rw [hp.2 c hc, hq.2 c hc]
  refine ⟨key _ _ _ _ hb1 hb2 fun i => ?_, key _ _ _ _ hb2 (hk.trans hb3) fun i => ?_⟩
  · refine sum_congr rfl fun j _ => ?_
    rw [mul_comm s (a i j), mul_assoc]
  · rw [sum_mul]
    refine sum_congr rfl fun j _ => ?_
    rw [mul_comm s, ← mul_assoc]

example : Ends (gemv ((A.view : MatV ℤ).scaled 5) x.view y) (heap ℤ) fun _ h1 =>
    Ends (gemv (A.view : MatV ℤ) ((x.view : VecV ℤ).scaled 5) y) (heap ℤ) fun _ h2 =>
      Ends (do gemv (A.view : MatV ℤ) x.view y; scale1 5 y) (heap ℤ) fun _ h3 =>
        h1 = h2 ∧ h2 = h3 :=
  C71_scaling _ _ _ _ _ _ _ (mholdsV bA) (holdsV bx) (alloc by_) rfl le_rfl (by view_facts)
    (by view_facts) (by view_facts)

/-! ## Rank updates and the matrix they produce -/

/-- **C71** `(A + x yᵀ) v = A v + (y·v) x`: updating the matrix and multiplying, or multiplying
by the old matrix, forming `dot(y, v)` and adding the scaled vector. -/
theorem C71_rank_1_then_product [CommSemiring α] (x y v : VecV α) (A : Mat) (w : Vec)
    (h : Heap α) (f g p : Nat → α) (a : Nat → Nat → α)
    (hx : x.Holds h f) (hy : y.Holds h g) (hv : v.Holds h p) (hA : A.Holds h a) (hw : w.Alloc h)
    (hxA : x.ext = A.rows) (hyA : y.ext = A.cols) (hvA : v.ext = A.cols) (hwA : w.ext = A.rows)
    (huA : A.Unique) (huw : w.Unique)
    (hxa : Apart x.toVec.Cell A.Cell) (hya : Apart y.toVec.Cell A.Cell)
    (hva : Apart v.toVec.Cell A.Cell) (hwa : Apart w.Cell A.Cell) (haw : Apart A.Cell w.Cell)
    (hvw : Apart v.toVec.Cell w.Cell) (hyw : Apart y.toVec.Cell w.Cell)
    (hxw : Apart x.toVec.Cell w.Cell) :
    Ends (do ger x y A; gemv A.view v w) h fun _ h1 =>
      Ends (do gemv A.view v w; let s ← dot0 y v; add1 (x.scaled s) w.view w) h fun _ h2 =>
        ∀ i, i < w.ext → ∃ c, h1 (w.addr i) = some c ∧ h2 (w.addr i) = some c := by
  rw [ends_bind]
  refine (C25_ger x y A h f g a hx hy hA hxA.ge hyA.ge huA hxa hya).mono fun _ k1 hk1 => ?_
  refine (C16_gemv A.view v w k1 _ p hk1.1.asView (hv.of_onlyChanges hva hk1.2)
    (hw.of_onlyChanges hwa hk1.2) hwA (by show A.cols ≤ _; omega) huw haw hvw).mono
    fun _ h1 hb1 => ?_
  rw [ends_bind]
  refine (C16_gemv A.view v w h a p hA.asView hv hw hwA (by show A.cols ≤ _; omega) huw haw
    hvw).mono fun _ k2 hk2 => ?_
  rw [ends_bind]
  refine (C01_dot_no_init y v k2 g p (hy.of_onlyChanges hyw hk2.2) (hv.of_onlyChanges hvw hk2.2)
    (by omega)).mono ?_
  rintro s _ ⟨hs, rfl⟩
  refine (C12_add_vector (x.scaled s) w.view w _ (fun i => s * f i) _ (fun i hi => ?_)
    hk2.1.asView hk2.1.alloc (by show _ ≤ x.ext; omega) le_rfl huw
    (fun i k hi hk e => absurd ⟨k, hk, e.symm⟩ (hxw _ ⟨i, hi, rfl⟩))
    (fun i k hi hk e => huw i k hi hk e)).mono fun _ h2 hb2 i hi => ⟨_, hb1.1 i hi, ?_⟩
  · obtain ⟨c, hc, e⟩ := hx.of_onlyChanges hxw hk2.2 i hi
    exact ⟨c, hc, congrArg (s * ·) e⟩
  · rw [hb2.1 i hi]
    refine congrArg some ?_
    show _ = ∑ j ∈ range A.cols, _
    rw [hs, hyA]
    beta_reduce
    rw [sum_mul]
    show _ + ∑ j ∈ range A.cols, _ = _
    rw [← sum_add_distrib]
    refine sum_congr rfl fun j _ => ?_
    ring

example : Ends (do ger (x.view : VecV ℤ) y.view A; gemv A.view x.view z) (heap ℤ) fun _ h1 =>
    Ends (do gemv (A.view : MatV ℤ) x.view z; let s ← dot0 y.view x.view;
             add1 ((x.view : VecV ℤ).scaled s) z.view z) (heap ℤ) fun _ h2 =>
      ∀ i, i < z.ext → ∃ c, h1 (z.addr i) = some c ∧ h2 (z.addr i) = some c :=
  C71_rank_1_then_product _ _ _ _ _ _ _ _ _ _ (holdsV bx) (holdsV by_) (holdsV bx) (mholds bA)
    (alloc bz) rfl rfl rfl rfl (by view_facts) (by view_facts) (by view_facts) (by view_facts)
    (by view_facts) (by view_facts) (by view_facts) (by view_facts) (by view_facts)
    (by view_facts)

/-- **C71** `(C + A Aᵀ) x = C x + A (Aᵀ x)`: a symmetric rank-k update of one triangle followed by
a symmetric product that reads the same triangle, or products with the old triangle, with
`transposed(A)` and with `A`. -/
theorem C71_rank_k_then_product [CommSemiring α] (A : MatV α) (C : Mat) (t : Triangle)
    (x : VecV α) (u w : Vec) (h : Heap α) (a c : Nat → Nat → α) (f : Nat → α)
    (hA : A.Holds h a) (hC : C.HoldsOn h t.region c) (hx : x.Holds h f) (hu : u.Alloc h)
    (hw : w.Alloc h) (hsq : C.rows = C.cols) (hAC : A.rows = C.rows) (hxC : x.ext = C.cols)
    (huA : u.ext = A.cols) (hwC : w.ext = C.rows)
    (huC : C.UniqueOn t.region) (huu : u.Unique) (huw : w.Unique)
    (hac : Apart A.toMat.Cell (C.CellOn t.region)) (hxc : Apart x.toVec.Cell (C.CellOn t.region))
    (hwc : Apart w.Cell (C.CellOn t.region)) (hcw : Apart (C.CellOn t.region) w.Cell)
    (hxw : Apart x.toVec.Cell w.Cell) (haw : Apart A.toMat.Cell w.Cell)
    (huw' : Apart u.Cell w.Cell) (hwu : Apart w.Cell u.Cell)
    (hau : Apart A.toMat.Cell u.Cell) (hxu : Apart x.toVec.Cell u.Cell) :
    Ends (do syrk A C t; symv C.view t x w) h fun _ h1 =>
      Ends (do symv C.view t x w; gemv A.transposed x u; gemvUpdate A u.view w.view w) h
        fun _ h2 => ∀ i, i < w.ext → ∃ v, h1 (w.addr i) = some v ∧ h2 (w.addr i) = some v := by
  rw [ends_bind]
  refine (C28_syrk A C t h a c hA hC hsq hAC.ge huC hac).mono fun _ k1 hk1 => ?_
  refine (C17_symv C.view t x w k1 _ f hk1.1.asView (hx.of_onlyChanges hxc hk1.2)
    (hw.of_onlyChanges hwc hk1.2) hsq hwC.symm (by show C.cols ≤ _; omega) huw hcw hxw).mono
    fun _ h1 hb1 => ?_
  rw [ends_bind]
  refine (C17_symv C.view t x w h c f hC.asView hx hw hsq hwC.symm (by show C.cols ≤ _; omega)
    huw hcw hxw).mono fun _ k2 hk2 => ?_
  rw [ends_bind]
  have hA2 : A.Holds k2 a := hA.of_onlyChanges haw hk2.2
  refine (C16_gemv A.transposed x u k2 _ f hA2.transposed
    (hx.of_onlyChanges hxw hk2.2)
    (hu.of_onlyChanges huw' hk2.2) huA (by show A.rows ≤ _; omega) huu (transposed_apart hau)
    hxu).mono fun _ k3 hk3 => ?_
  have hw3 : w.Holds k3 _ := fun i hi => (hk3.2 _ (hwu _ ⟨i, hi, rfl⟩)).trans (hk2.1 i hi)
  refine (C16_gemv_update A u.view w.view w k3 a _ _
    (hA2.of_onlyChanges hau hk3.2) hk3.1.asView hw3.asView hw3.alloc
    (by omega) (by show _ ≤ u.ext; omega) (by show _ ≤ w.ext; omega) huw haw huw'
    (fun i k hi hk e => huw i k hi hk e)).mono fun _ h2 hb2 i hi => ⟨_, hb1.1 i hi, ?_⟩
  rw [hb2.1 i hi]
  refine congrArg some ?_
  simp only [mulVec]
  show ∑ j ∈ range C.cols, _ + ∑ k ∈ range A.cols, a i k * ∑ j ∈ range A.rows, a j k * f j =
    ∑ j ∈ range C.cols, _
  simp only [mul_sum]
  rw [sum_comm, hAC, hsq, ← sum_add_distrib]
  refine sum_congr rfl fun j _ => ?_
  have : symOf t (fun i j => c i j + ∑ k ∈ range A.cols, a i k * a j k) i j =
      symOf t c i j + ∑ k ∈ range A.cols, a i k * a j k := by
    simp only [symOf]
    split_ifs
    · rfl
    · exact congrArg _ (sum_congr rfl fun k _ => mul_comm _ _)
  rw [this, add_mul, sum_mul]
  refine congrArg _ (sum_congr rfl fun k _ => ?_)
  rw [mul_assoc]

example : Ends (do syrk (T.view : MatV ℤ) C .upper; symv C.view .upper x.view z) (heap ℤ)
    fun _ h1 => Ends (do symv (C.view : MatV ℤ) .upper x.view z;
                         gemv (T.view : MatV ℤ).transposed x.view ⟨2, y.addr⟩;
                         gemvUpdate T.view (Vec.view ⟨2, y.addr⟩) z.view z) (heap ℤ) fun _ h2 =>
      ∀ i, i < z.ext → ∃ v, h1 (z.addr i) = some v ∧ h2 (z.addr i) = some v :=
  C71_rank_k_then_product _ _ _ _ _ _ _ _ _ _ (mholdsV bT) (mholds bC) (holdsV bx)
    (alloc fun i hi => by_ i (by simp only [y] at *; omega)) (alloc bz) rfl rfl rfl rfl rfl
    (by view_facts) (by view_facts) (by view_facts) (by view_facts)
    (by view_facts) (by view_facts) (by view_facts) (by view_facts) (by view_facts)
    (by view_facts) (by view_facts) (by view_facts) (by view_facts)

end StdBLAS

import Verif.Lemmas.Blas3Cols
import Verif.Props.Witness
import Mathlib.Tactic.IntervalCases
import Mathlib.Tactic.NormNum

/-!
# Properties C31-C36: matrix-matrix products
-/

namespace StdBLAS
open Finset Witness
variable {α : Type}

/-! ## C31 general product -/

/-- **C31** `matrix_product(A, B, C)`: `C = A B`, whatever `C` held; nothing else changes. -/
theorem C31_gemm [NonUnitalNonAssocSemiring α] (A B : MatV α) (C : Mat) (h : Heap α)
    (a b : Nat → Nat → α) (hA : A.Holds h a) (hB : B.Holds h b) (hC : C.Alloc h)
    (hr : C.rows = A.rows) (hk : A.cols = B.rows) (hc : C.cols = B.cols) (hu : C.Unique)
    (hAC : Apart A.toMat.Cell C.Cell) (hBC : Apart B.toMat.Cell C.Cell) :
    Ends (gemm A B C) h fun _ h' => C.Becomes h h' (mulMat A.cols a b) := by
  refine (gemm_fold hA hB hC hr.le hk.le hc.le hu hAC hBC).mono fun _ h' hb => hb.congr ?_
  intro i j _ _ _
  rw [foldl_add_eq_sum, zero_add]; rfl

/-- 3×2 times 2×3 -/
example : Ends (gemm (T.view : MatV ℤ) W.view C) (heap ℤ) fun _ h' =>
    C.Becomes (heap ℤ) h' (mulMat 2 (mvals ℤ T) (mvals ℤ W)) :=
  C31_gemm _ _ _ _ _ _ (mholdsV bT) (mholdsV bW) (malloc bC) rfl rfl rfl
    (by view_facts) (by view_facts) (by view_facts)

/-- **C31** `matrix_product(A, B, E, C)`: `C = E + A B`; `E` may be `C`. -/
theorem C31_gemm_update [NonUnitalNonAssocSemiring α] (A B E : MatV α) (C : Mat) (h : Heap α)
    (a b e : Nat → Nat → α) (hA : A.Holds h a) (hB : B.Holds h b) (hE : E.Holds h e)
    (hC : C.Alloc h) (hr : C.rows = A.rows) (hk : A.cols = B.rows) (hc : C.cols = B.cols)
    (her : C.rows = E.rows) (hec : C.cols = E.cols) (hu : C.Unique)
    (hAC : Apart A.toMat.Cell C.Cell) (hBC : Apart B.toMat.Cell C.Cell)
    (hEC : E.toMat.Aligned C) :
    Ends (gemmUpdate A B E C) h fun _ h' =>
      C.Becomes h h' fun i j => e i j + mulMat A.cols a b i j := by
  refine (gemmUpdate_fold hA hB hE hC hr.le hk.le hc.le her.le hec.le hu hAC hBC hEC).mono
    fun _ h' hb => hb.congr ?_
  intro i j _ _ _
  rw [foldl_add_eq_sum]; rfl

/-- `C = C + T W`, and `C = E + T W` -/
example : Ends (gemmUpdate (T.view : MatV ℤ) W.view C.view C) (heap ℤ) fun _ h' =>
    C.Becomes (heap ℤ) h' fun i j => mvals ℤ C i j + mulMat 2 (mvals ℤ T) (mvals ℤ W) i j :=
  C31_gemm_update _ _ _ _ _ _ _ _ (mholdsV bT) (mholdsV bW) (mholdsV bC) (malloc bC) rfl rfl rfl
    rfl rfl (by view_facts) (by view_facts) (by view_facts) (by view_facts)

example : Ends (gemmUpdate (T.view : MatV ℤ) W.view E.view C) (heap ℤ) fun _ h' =>
    C.Becomes (heap ℤ) h' fun i j => mvals ℤ E i j + mulMat 2 (mvals ℤ T) (mvals ℤ W) i j :=
  C31_gemm_update _ _ _ _ _ _ _ _ (mholdsV bT) (mholdsV bW) (mholdsV bE) (malloc bC) rfl rfl rfl
    rfl rfl (by view_facts) (by view_facts) (by view_facts) (by view_facts)

/-! ## C32 symmetric product -/

/-- **C32** `symmetric_matrix_product(A, t, B, C)`: `C = S B`, `S` the symmetric matrix named by
triangle `t` of `A`; only that triangle of `A` need be accessible. -/
theorem C32_symm_left [NonUnitalNonAssocSemiring α] (A : MatV α) (t : Triangle) (B : MatV α)
    (C : Mat) (h : Heap α) (a b : Nat → Nat → α) (hA : A.HoldsOn h t.region a)
    (hB : B.Holds h b) (hC : C.Alloc h) (hsq : A.rows = A.cols)
    (hr : C.rows = A.rows) (hk : A.cols = B.rows) (hc : C.cols = B.cols) (hu : C.Unique)
    (hAC : Apart (A.toMat.CellOn t.region) C.Cell) (hBC : Apart B.toMat.Cell C.Cell) :
    Ends (symmLeft A t B C) h fun _ h' => C.Becomes h h' (mulMat A.cols (symOf t a) b) := by
  refine (symmLeft_fold hA hB hC hsq hr.le hk.le hc.le hu hAC hBC).mono fun _ h' hb => hb.congr ?_
  intro i j _ _ _
  rw [foldl_add_eq_sum, zero_add]; rfl

/-- **C32** `symmetric_matrix_product(B, A, t, C)`: `C = B S`. -/
theorem C32_symm_right [NonUnitalNonAssocSemiring α] (B A : MatV α) (t : Triangle)
    (C : Mat) (h : Heap α) (a b : Nat → Nat → α) (hA : A.HoldsOn h t.region a)
    (hB : B.Holds h b) (hC : C.Alloc h) (hsq : A.rows = A.cols)
    (hr : C.rows = B.rows) (hk : B.cols = A.rows) (hc : C.cols = A.cols) (hu : C.Unique)
    (hAC : Apart (A.toMat.CellOn t.region) C.Cell) (hBC : Apart B.toMat.Cell C.Cell) :
    Ends (symmRight B A t C) h fun _ h' => C.Becomes h h' (mulMat B.cols b (symOf t a)) := by
  refine (symmRight_fold hA hB hC hsq hr.le (by omega) hc.le hu hAC hBC).mono
    fun _ h' hb => hb.congr ?_
  intro i j _ _ _
  rw [foldl_add_eq_sum, zero_add, ← hsq, ← hk]; rfl

example (t : Triangle) : Ends (symmLeft (A.view : MatV ℤ) t B.view C) (heap ℤ) fun _ h' =>
    C.Becomes (heap ℤ) h' (mulMat 3 (symOf t (mvals ℤ A)) (mvals ℤ B)) :=
  C32_symm_left _ _ _ _ _ _ _ (mholdsV bA) (mholdsV bB) (malloc bC) rfl rfl rfl rfl
    (by view_facts) (by view_facts) (by view_facts)

example (t : Triangle) : Ends (symmRight (W.view : MatV ℤ) A.view t
      ⟨2, 3, fun i j => 140 + i + 2 * j⟩) (heap ℤ) fun _ h' =>
    Mat.Becomes ⟨2, 3, fun i j => 140 + i + 2 * j⟩ (heap ℤ) h'
      (mulMat 3 (mvals ℤ W) (symOf t (mvals ℤ A))) :=
  C32_symm_right _ _ _ _ _ _ _ (mholdsV bA) (mholdsV bW)
    (malloc (by intro i j hi hj; simp only at *; omega)) rfl rfl rfl rfl
    (by intro i j k l hi hj _ hk hl _ e; simp only at *; omega)
    (by rintro a ⟨i, j, hi, hj, _, e⟩ ⟨k, l, hk, hl, _, e'⟩
        simp only [A, Mat.view] at *; omega)
    (by rintro a ⟨i, j, hi, hj, _, e⟩ ⟨k, l, hk, hl, _, e'⟩
        simp only [W, Mat.view] at *; omega)

/-! ## C33 Hermitian product -/

/-- **C33** `hermitian_matrix_product(A, t, B, C)`: `C = H B`, `H` the Hermitian matrix (with real
diagonal) named by triangle `t` of `A`; only that triangle of `A` need be accessible. -/
theorem C33_hemm_left [NonUnitalNonAssocSemiring α] [ConjOps α] (A : MatV α) (t : Triangle)
    (B : MatV α) (C : Mat) (h : Heap α) (a b : Nat → Nat → α) (hA : A.HoldsOn h t.region a)
    (hB : B.Holds h b) (hC : C.Alloc h) (hsq : A.rows = A.cols)
    (hr : C.rows = A.rows) (hk : A.cols = B.rows) (hc : C.cols = B.cols) (hu : C.Unique)
    (hAC : Apart (A.toMat.CellOn t.region) C.Cell) (hBC : Apart B.toMat.Cell C.Cell) :
    Ends (hemmLeft A t B C) h fun _ h' => C.Becomes h h' (mulMat A.cols (hermOf t a) b) := by
  refine (hemmLeft_fold hA hB hC hsq hr.le hk.le hc.le hu hAC hBC).mono fun _ h' hb => hb.congr ?_
  intro i j hi _ _
  have hi' : i < A.cols := by omega
  rw [foldl_range'_add, foldl_range'_add, zero_add, ← sum_Ico_succ_top (Nat.zero_le i)
    (fun k => hermOf t a i k * b k j), sum_Ico_consecutive _ (Nat.zero_le _) hi', ← range_eq_Ico]
  rfl

/-- the diagonal of `A` has imaginary parts: cell `a` holds `(a - 7)(1 + i)` -/
def cheap : Heap ℂ := fun a => if a < 200 then some (((a : ℂ) - 7) * (1 + Complex.I)) else none

theorem cheap_holds {m : Mat} {R : Region} (hm : ∀ i j, i < m.rows → j < m.cols → m.addr i j < 200) :
    (m.view : MatV ℂ).HoldsOn cheap R fun i j => ((m.addr i j : ℂ) - 7) * (1 + Complex.I) :=
  fun i j hi hj _ => ⟨_, by
    have := hm i j hi hj
    show cheap (m.addr i j) = some (((m.addr i j : ℂ) - 7) * (1 + Complex.I))
    unfold cheap; rw [if_pos this], rfl⟩

theorem cheap_alloc {m : Mat} {R : Region} (hm : ∀ i j, i < m.rows → j < m.cols → m.addr i j < 200) :
    m.AllocOn cheap R := fun i j hi hj _ => ⟨_, by unfold cheap; rw [if_pos (hm i j hi hj)]⟩

example (t : Triangle) : Ends (hemmLeft (A.view : MatV ℂ) t B.view C) cheap fun _ h' =>
    C.Becomes cheap h' (mulMat 3 (hermOf t fun i j => ((A.addr i j : ℂ) - 7) * (1 + Complex.I))
      fun i j => ((B.addr i j : ℂ) - 7) * (1 + Complex.I)) :=
  C33_hemm_left _ _ _ _ _ _ _ (cheap_holds bA) (cheap_holds bB) (cheap_alloc bC) rfl rfl rfl rfl
    (by view_facts) (by view_facts) (by view_facts)

/-- **C33** (right side) holds when the stored diagonal is real.  Missing: a stored diagonal
with imaginary parts, for which the property is false, see `C33_hemm_right_false`. -/
theorem C33_hemm_right_partial [NonUnitalNonAssocSemiring α] [ConjOps α] (B A : MatV α)
    (t : Triangle) (C : Mat) (h : Heap α) (a b : Nat → Nat → α) (hA : A.HoldsOn h t.region a)
    (hB : B.Holds h b) (hC : C.Alloc h) (hsq : A.rows = A.cols)
    (hr : C.rows = B.rows) (hk : B.cols = A.rows) (hc : C.cols = A.cols) (hu : C.Unique)
    (hAC : Apart (A.toMat.CellOn t.region) C.Cell) (hBC : Apart B.toMat.Cell C.Cell)
    (hreal : ∀ i, i < A.rows → ConjOps.re (a i i) = a i i) :
    Ends (hemmRight B A t C) h fun _ h' => C.Becomes h h' (mulMat B.cols b (hermOf t a)) := by
  refine (hemmRight_fold hA hB hC hsq hr.le (by omega) hc.le hu hAC hBC).mono
    fun _ h' hb => hb.congr ?_
  intro i j _ hj _
  rw [foldl_add_eq_sum, zero_add, ← hsq, ← hk]
  refine sum_congr rfl fun k hk' => ?_
  rw [hermStored_eq]
  intro e
  exact hreal k (by have := mem_range.1 hk'; omega)

example (t : Triangle) : Ends (hemmRight (B.view : MatV ℂ) A.view t C) (heap ℂ) fun _ h' =>
    C.Becomes (heap ℂ) h' (mulMat 3 (mvals ℂ B) (hermOf t (mvals ℂ A))) :=
  C33_hemm_right_partial _ _ _ _ _ _ _ (mholdsV bA) (mholdsV bB) (malloc bC) rfl rfl rfl rfl
    (by view_facts) (by view_facts) (by view_facts)
    (fun i _ => by simp [mvals, re_complex])

/-- **C33** What the right-side product computes in general: the stored diagonal is used as it
is, imaginary parts included. -/
theorem C33_hemm_right_uses_stored_diagonal [NonUnitalNonAssocSemiring α] [ConjOps α] (B A : MatV α)
    (t : Triangle) (C : Mat) (h : Heap α) (a b : Nat → Nat → α) (hA : A.HoldsOn h t.region a)
    (hB : B.Holds h b) (hC : C.Alloc h) (hsq : A.rows = A.cols)
    (hr : C.rows = B.rows) (hk : B.cols = A.rows) (hc : C.cols = A.cols) (hu : C.Unique)
    (hAC : Apart (A.toMat.CellOn t.region) C.Cell) (hBC : Apart B.toMat.Cell C.Cell) :
    Ends (hemmRight B A t C) h fun _ h' => C.Becomes h h' (mulMat B.cols b fun i j =>
      if i = j then a i i else hermOf t a i j) := by
  refine (hemmRight_fold hA hB hC hsq hr.le (by omega) hc.le hu hAC hBC).mono
    fun _ h' hb => hb.congr ?_
  intro i j _ hj _
  rw [foldl_add_eq_sum, zero_add, ← hsq, ← hk]
  refine sum_congr rfl fun k hk' => ?_
  by_cases e : k = j
  · subst e; beta_reduce; rw [if_pos rfl, hermStored_in (by cases t <;> exact le_refl k)]
  · beta_reduce; rw [if_neg e, hermStored_eq fun e' => absurd e' e]

example (t : Triangle) : Ends (hemmRight (B.view : MatV ℂ) A.view t C) cheap fun _ h' =>
    C.Becomes cheap h' (mulMat 3 (fun i j => ((B.addr i j : ℂ) - 7) * (1 + Complex.I))
      fun i j => if i = j then ((A.addr i i : ℂ) - 7) * (1 + Complex.I) else
        hermOf t (fun i j => ((A.addr i j : ℂ) - 7) * (1 + Complex.I)) i j) :=
  C33_hemm_right_uses_stored_diagonal _ _ _ _ _ _ _ (cheap_holds bA) (cheap_holds bB)
    (cheap_alloc bC) rfl rfl rfl rfl (by view_facts) (by view_facts) (by view_facts)

/-- **C33 is false** for the right-side product: with a stored 1×1 matrix `A = (i)` and
`B = (1)`, the result is `i` instead of `0`. -/
theorem C33_hemm_right_false (t : Triangle) :
    ¬ ∀ (B A : MatV ℂ) (C : Mat) (h : Heap ℂ) (a b : Nat → Nat → ℂ),
      A.Holds h a → B.Holds h b → C.Alloc h → A.rows = A.cols → C.rows = B.rows →
      B.cols = A.rows → C.cols = A.cols → C.Unique → Apart A.toMat.Cell C.Cell →
      Apart B.toMat.Cell C.Cell →
      Ends (hemmRight B A t C) h fun _ h' => C.Becomes h h' (mulMat B.cols b (hermOf t a)) := by
  intro H
  let m : Nat → Mat := fun k => ⟨1, 1, fun _ _ => k⟩
  let h : Heap ℂ := fun a => if a = 0 then some Complex.I else some 1
  have hA : (m 0).view.Holds h fun _ _ => Complex.I := fun i j _ _ _ => ⟨Complex.I, rfl, rfl⟩
  have hB : (m 1).view.Holds h fun _ _ => 1 := fun i j _ _ _ => ⟨1, rfl, rfl⟩
  have hC : (m 2).Alloc h := fun i j _ _ _ => ⟨1, rfl⟩
  have hu : (m 2).Unique := by
    intro i j k l hi hj _ hk hl _ _
    simp only [m] at *; omega
  have ap : ∀ k, k ≠ 2 → Apart (m k).Cell (m 2).Cell := by
    rintro k hk a ⟨_, _, _, _, _, e⟩ ⟨_, _, _, _, _, e'⟩
    exact hk (e.trans e'.symm)
  have h1 := H (m 1).view (m 0).view (m 2) h _ _ hA hB hC rfl rfl rfl rfl hu
    (ap 0 (by decide)) (ap 1 (by decide))
  have h2 := C33_hemm_right_uses_stored_diagonal (m 1).view (m 0).view t (m 2) h _ _
    (fun i j hi hj _ => hA i j hi hj trivial) hB hC rfl rfl rfl rfl hu
    (fun a ⟨i, j, hi, hj, _, e⟩ => ap 0 (by decide) a ⟨i, j, hi, hj, trivial, e⟩) (ap 1 (by decide))
  obtain ⟨_, h', _, e1, e2⟩ := h1.and h2
  have := (e1.1 0 0 (by decide) (by decide) trivial).symm.trans
    (e2.1 0 0 (by decide) (by decide) trivial)
  simp only [mulMat, m, Mat.view, sum_range_one, hermOf, if_true, one_mul, Option.some.injEq,
    re_complex, Complex.I_re] at this
  exact Complex.I_ne_zero (by rw [← this]; simp)

/-! ## C34 updating symmetric and Hermitian products -/

/-- The four updating products, as functions of the five mdspans `A`, `B`, `E`, `C` and `t`. -/
inductive UpdatingProduct where
  | symmLeft | symmRight | hemmLeft | hemmRight

/-- The call. -/
def UpdatingProduct.run (p : UpdatingProduct) (ndebug : Bool) (A : MatV ℂ) (t : Triangle)
    (B E : MatV ℂ) (C : Mat) : Prog ℂ Unit :=
  match p with
  | .symmLeft => symmLeftUpdate ndebug A t B E C
  | .symmRight => symmRightUpdate ndebug B A t E C
  | .hemmLeft => hemmLeftUpdate ndebug A t B E C
  | .hemmRight => hemmRightUpdate ndebug B A t E C

/-- The result that the property asks for (square matrices of size `n`). -/
noncomputable def UpdatingProduct.result (p : UpdatingProduct) (n : Nat) (t : Triangle)
    (a b e : Nat → Nat → ℂ) (i j : Nat) : ℂ :=
  match p with
  | .symmLeft => e i j + mulMat n (symOf t a) b i j
  | .symmRight => e i j + mulMat n b (symOf t a) i j
  | .hemmLeft => e i j + mulMat n (hermOf t a) b i j
  | .hemmRight => e i j + mulMat n b (hermOf t a) i j

/-- **C34 is false**: none of the updating symmetric and Hermitian products is implemented.  Each
call aborts in a debug build and does nothing in a release build. -/
theorem C34_updating_products_do_nothing (p : UpdatingProduct) (A : MatV ℂ) (t : Triangle)
    (B E : MatV ℂ) (C : Mat) (h : Heap ℂ) :
    Fails (p.run false A t B E C) h .assertFail ∧
      Ends (p.run true A t B E C) h fun _ h' => h' = h := by
  cases p <;> exact ⟨rfl, ends_pure.2 rfl⟩

example (p : UpdatingProduct) :
    Fails (p.run false A.view .upper B.view E.view C) (heap ℂ) .assertFail ∧
      Ends (p.run true A.view .upper B.view E.view C) (heap ℂ) fun _ h' => h' = heap ℂ :=
  C34_updating_products_do_nothing _ _ _ _ _ _ _

/-- **C34 is false**: in neither build do the updating products leave the result in `C` for
all square inputs that are pairwise disjoint and accessible. -/
theorem C34_updating_products_false (p : UpdatingProduct) (ndebug : Bool) (t : Triangle) :
    ¬ ∀ (n : Nat) (A B E C : Mat) (h : Heap ℂ) (a b e : Nat → Nat → ℂ),
      A.rows = n → A.cols = n → B.rows = n → B.cols = n → E.rows = n → E.cols = n →
      C.rows = n → C.cols = n → A.Holds h a → B.Holds h b → E.Holds h e → C.Alloc h →
      C.Unique → Apart A.Cell C.Cell → Apart B.Cell C.Cell → Apart E.Cell C.Cell →
      Ends (p.run ndebug A.view t B.view E.view C) h fun _ h' =>
        C.Becomes h h' (p.result n t a b e) := by
  intro H
  let m : Nat → Mat := fun k => ⟨1, 1, fun _ _ => k⟩
  let h : Heap ℂ := fun a => if a = 3 then some 0 else some 1
  have hold : ∀ k, k ≠ 3 → (m k).Holds h fun _ _ => 1 := fun k hk i j _ _ _ => if_neg hk
  have hu : (m 3).Unique := by
    intro i j k l hi hj _ hk hl _ _
    simp only [m] at *; omega
  have ap : ∀ k, k ≠ 3 → Apart (m k).Cell (m 3).Cell := by
    rintro k hk a ⟨_, _, _, _, _, e⟩ ⟨_, _, _, _, _, e'⟩
    exact hk (e.trans e'.symm)
  have h1 := H 1 (m 0) (m 1) (m 2) (m 3) h _ _ _ rfl rfl rfl rfl rfl rfl rfl rfl
    (hold 0 (by decide)) (hold 1 (by decide)) (hold 2 (by decide))
    (fun i j _ _ _ => ⟨0, if_pos rfl⟩) hu (ap 0 (by decide)) (ap 1 (by decide)) (ap 2 (by decide))
  obtain ⟨hf, hn⟩ := C34_updating_products_do_nothing p (m 0).view t (m 1).view (m 2).view (m 3) h
  cases ndebug with
  | false => exact h1.not_fails _ hf
  | true =>
    obtain ⟨_, h', _, e1, e2⟩ := h1.and hn
    have := e1.1 0 0 (by decide) (by decide) trivial
    rw [e2] at this
    have e0 : h ((m 3).addr 0 0) = some 0 := if_pos rfl
    rw [e0] at this
    have hres : p.result 1 t (fun _ _ => 1) (fun _ _ => 1) (fun _ _ => 1) 0 0 = 2 := by
      cases p <;> cases t <;>
        simp [UpdatingProduct.result, mulMat, symOf, hermOf, Triangle.region, re_complex] <;>
        norm_num
    rw [hres] at this
    exact absurd (Option.some.inj this) (by norm_num)

/-! ## C35 triangular product -/

/-- **C35** `triangular_matrix_product(A, t, d, B, C)`: `C = T B`, `T` the triangular matrix named
by `(A, t, d)`; the other triangle, and an implicit unit diagonal, need not be accessible. -/
theorem C35_trmm_left [NonAssocSemiring α] (A : MatV α) (t : Triangle) (d : Diag) (B : MatV α)
    (C : Mat) (h : Heap α) (a b : Nat → Nat → α) (hA : A.HoldsOn h (triRegion t d) a)
    (hB : B.Holds h b) (hC : C.Alloc h) (hsq : A.rows = A.cols)
    (hr : C.rows = A.rows) (hk : A.cols = B.rows) (hc : C.cols = B.cols) (hu : C.Unique)
    (hAC : Apart (A.toMat.CellOn (triRegion t d)) C.Cell) (hBC : Apart B.toMat.Cell C.Cell) :
    Ends (trmmLeft A t d B C) h fun _ h' => C.Becomes h h' (mulMat A.cols (triOf t d a) b) := by
  refine (trmmLeft_fold hA hB hC hsq hr (by omega) hc.le hu hAC hBC).mono
    fun _ h' hb => hb.congr ?_
  intro i j hi _ _
  have e : C.rows = A.cols := by omega
  rw [e] at hi ⊢
  refine triElem_sum (w := fun k => triOf t d a i k * b k j) hi ?_ ?_ ?_
  · intro k _ hreg; simp only [triOf_mem hreg]
  · rintro rfl; simp only [triOf_diag_unit, one_mul]
  · intro k _ hne hreg; simp only [triOf_not_mem hne hreg, zero_mul]

/-- **C35** `triangular_matrix_product(B, A, t, d, C)`: `C = B T`. -/
theorem C35_trmm_right [NonAssocSemiring α] (B A : MatV α) (t : Triangle) (d : Diag)
    (C : Mat) (h : Heap α) (a b : Nat → Nat → α) (hA : A.HoldsOn h (triRegion t d) a)
    (hB : B.Holds h b) (hC : C.Alloc h) (hsq : A.rows = A.cols)
    (hr : C.rows = B.rows) (hk : B.cols = A.rows) (hc : C.cols = A.cols) (hu : C.Unique)
    (hAC : Apart (A.toMat.CellOn (triRegion t d)) C.Cell) (hBC : Apart B.toMat.Cell C.Cell) :
    Ends (trmmRight B A t d C) h fun _ h' => C.Becomes h h' (mulMat B.cols b (triOf t d a)) := by
  refine (trmmRight_fold hA hB hC hsq hc (by omega) hr.le hu hAC hBC).mono
    fun _ h' hb => hb.congr ?_
  intro i j _ hj _
  have e : C.cols = B.cols := by omega
  rw [e] at hj ⊢
  refine triElem_sum (w := fun k => b i k * triOf t d a k j) hj ?_ ?_ ?_
  · intro k _ hreg; simp only [triOf_mem (triRegion_flip.1 hreg)]
  · rintro rfl; simp only [triOf_diag_unit, mul_one]
  · intro k _ hne hreg
    simp only [triOf_not_mem (Ne.symm hne) (fun hr => hreg (triRegion_flip.2 hr)), mul_zero]

example (t : Triangle) (d : Diag) :
    Ends (trmmLeft (A.view : MatV ℤ) t d T.view ⟨3, 2, fun i j => 140 + 2 * i + j⟩) (heap ℤ)
    fun _ h' => Mat.Becomes ⟨3, 2, fun i j => 140 + 2 * i + j⟩ (heap ℤ) h'
      (mulMat 3 (triOf t d (mvals ℤ A)) (mvals ℤ T)) :=
  C35_trmm_left _ _ _ _ _ _ _ _ (mholdsV bA) (mholdsV bT)
    (malloc (by intro i j hi hj; simp only at *; omega)) rfl rfl rfl rfl
    (by intro i j k l hi hj _ hk hl _ e; simp only at *; omega)
    (by rintro a ⟨i, j, hi, hj, _, e⟩ ⟨k, l, hk, hl, _, e'⟩
        simp only [A, Mat.view] at *; omega)
    (by rintro a ⟨i, j, hi, hj, _, e⟩ ⟨k, l, hk, hl, _, e'⟩
        simp only [T, Mat.view] at *; omega)

example (t : Triangle) (d : Diag) : Ends (trmmRight (B.view : MatV ℤ) A.view t d C) (heap ℤ)
    fun _ h' => C.Becomes (heap ℤ) h' (mulMat 3 (mvals ℤ B) (triOf t d (mvals ℤ A))) :=
  C35_trmm_right _ _ _ _ _ _ _ _ (mholdsV bA) (mholdsV bB) (malloc bC) rfl rfl rfl rfl
    (by view_facts) (by view_facts) (by view_facts)

/-! ## C36 in-place triangular product -/

/-- **C36** `triangular_matrix_left_product(A, t, d, C)`: `C = T C`, with the old `C` on the
right. -/
theorem C36_trmm_left_in_place [NonAssocSemiring α] (A : MatV α) (t : Triangle) (d : Diag)
    (C : Mat) (h : Heap α) (a c : Nat → Nat → α) (hA : A.HoldsOn h (triRegion t d) a)
    (hC : C.Holds h c) (hsq : A.rows = A.cols) (hr : C.rows = A.rows) (hu : C.Unique)
    (hAC : Apart (A.toMat.CellOn (triRegion t d)) C.Cell) :
    Ends (trmmLeftInPlace A t d C) h fun _ h' =>
      C.Becomes h h' (mulMat A.cols (triOf t d a) c) :=
  trmmLeftInPlace_ends hA hC hsq hr hu hAC

/-- **C36** `triangular_matrix_right_product(A, t, d, C)`: `C = C T`, with the old `C` on the
left. -/
theorem C36_trmm_right_in_place [NonAssocSemiring α] (A : MatV α) (t : Triangle) (d : Diag)
    (C : Mat) (h : Heap α) (a c : Nat → Nat → α) (hA : A.HoldsOn h (triRegion t d) a)
    (hC : C.Holds h c) (hsq : A.rows = A.cols) (hr : C.cols = A.cols) (hu : C.Unique)
    (hAC : Apart (A.toMat.CellOn (triRegion t d)) C.Cell) :
    Ends (trmmRightInPlace A t d C) h fun _ h' =>
      C.Becomes h h' (mulMat C.cols c (triOf t d a)) :=
  (trmmRightInPlace_fold hA hC hsq hr hu hAC).mono fun _ _ hb =>
    Mat.BecomesOn.congr hb fun _ _ _ hj _ => rightElem_sum hj

example (t : Triangle) (d : Diag) : Ends (trmmLeftInPlace (A.view : MatV ℤ) t d T) (heap ℤ)
    fun _ h' => T.Becomes (heap ℤ) h' (mulMat 3 (triOf t d (mvals ℤ A)) (mvals ℤ T)) :=
  C36_trmm_left_in_place _ _ _ _ _ _ _ (mholdsV bA) (mholds bT) rfl rfl
    (by view_facts) (by view_facts)

example (t : Triangle) (d : Diag) : Ends (trmmRightInPlace (A.view : MatV ℤ) t d W) (heap ℤ)
    fun _ h' => W.Becomes (heap ℤ) h' (mulMat 3 (mvals ℤ W) (triOf t d (mvals ℤ A))) :=
  C36_trmm_right_in_place _ _ _ _ _ _ _ (mholdsV bA) (mholds bW) rfl rfl
    (by view_facts) (by view_facts)

end StdBLAS

import Verif.Props.RankUpdates
import Verif.Spec.LinAlg

/-!
# Property C30: Hermitian updates keep the matrix Hermitian

In each theorem `m` is what the triangle holds afterwards and `hermOf t m` is the Hermitian
matrix it names, on all of its elements (Spec/LinAlg.lean).
-/

namespace StdBLAS
open Finset Witness

/-- What the Hermitian updates leave in the triangle names the old Hermitian matrix plus the
update, for every Hermitian update `m`. -/
theorem hermOf_update (t : Triangle) (a m : Nat → Nat → ℂ)
    (hm : ∀ i j, m j i = (starRingEnd ℂ) (m i j)) :
    (∀ i, (((if i = i then ConjOps.re (a i i) else a i i) + m i i : ℂ)).im = 0) ∧
    ∀ i j, hermOf t (fun i j => (if i = j then ConjOps.re (a i i) else a i j) + m i j) i j =
      hermOf t a i j + m i j := by
  have hd : ∀ i, (m i i).im = 0 := fun i => Complex.conj_eq_iff_im.1 (hm i i).symm
  refine ⟨fun i => by simp [re_complex, hd i], fun i j => ?_⟩
  unfold hermOf
  by_cases e : i = j
  · subst e
    rw [if_pos rfl, if_pos rfl]
    apply Complex.ext <;> simp [re_complex, hd i]
  · rw [if_neg e, if_neg e]
    by_cases hr : t.region i j
    · rw [if_pos hr, if_pos hr]; simp only [if_neg e]
    · rw [if_neg hr, if_neg hr]
      simp only [if_neg (fun h => e h.symm : ¬ j = i)]
      rw [conj_complex, map_add, ← hm j i, conj_complex]

/-- **C30** `hermitian_matrix_rank_1_update(x, A, t)` -/
theorem C30_her (x : VecV ℂ) (A : Mat) (t : Triangle) (h : Heap ℂ)
    (f : Nat → ℂ) (a : Nat → Nat → ℂ)
    (hx : x.Holds h f) (hA : A.HoldsOn h t.region a)
    (hsq : A.rows = A.cols) (hxe : A.rows ≤ x.ext) (hu : A.UniqueOn t.region)
    (hxA : Apart x.toVec.Cell (A.CellOn t.region)) :
    Ends (her x A t) h fun _ h' => ∃ m, A.BecomesOn h h' t.region m ∧
      (∀ i, i < A.rows → (m i i).im = 0) ∧
      ∀ i j, i < A.rows → j < A.cols →
        hermOf t m i j = hermOf t a i j + f i * (starRingEnd ℂ) (f j) := by
  refine (C26_her x A t h f a hx hA hsq hxe hu hxA).mono fun _ h' hb => ?_
  have key := hermOf_update t a (fun i j => f i * ConjOps.conj (f j)) fun i j => by
    simp [conj_complex, mul_comm]
  refine ⟨_, hb, fun i _ => key.1 i, fun i j _ _ => ?_⟩
  rw [key.2 i j]
  rfl

example : ∃ h', (her (x.view : VecV ℂ) B .lower) (heap ℂ) = .ok ((), h') ∧ ∃ b, B.BecomesOn (heap ℂ) h' Triangle.lower.region b ∧
    ∀ i, i < 3 → (b i i).im = 0 := by
  obtain ⟨_, h', e, b, hb, hd, _⟩ := C30_her _ _ _ _ _ _ (holdsV bx) (mholds bB) rfl le_rfl
    (by view_facts) (by view_facts)
  exact ⟨h', e, b, hb, hd⟩

/-- **C30** `hermitian_matrix_rank_1_update(alpha, x, A, t)`, real `alpha` -/
theorem C30_herAlpha (r : ℝ) (x : VecV ℂ) (A : Mat) (t : Triangle) (h : Heap ℂ)
    (f : Nat → ℂ) (a : Nat → Nat → ℂ)
    (hx : x.Holds h f) (hA : A.HoldsOn h t.region a)
    (hsq : A.rows = A.cols) (hxe : A.rows ≤ x.ext) (hu : A.UniqueOn t.region)
    (hxA : Apart x.toVec.Cell (A.CellOn t.region)) :
    Ends (herAlpha (r : ℂ) x A t) h fun _ h' => ∃ m, A.BecomesOn h h' t.region m ∧
      (∀ i, i < A.rows → (m i i).im = 0) ∧
      ∀ i j, i < A.rows → j < A.cols →
        hermOf t m i j = hermOf t a i j + r * f i * (starRingEnd ℂ) (f j) := by
  refine (C26_herAlpha (r : ℂ) x A t h f a hx hA hsq hxe hu hxA).mono fun _ h' hb => ?_
  have key := hermOf_update t a (fun i j => (r : ℂ) * f i * ConjOps.conj (f j)) fun i j => by
    simp only [conj_complex, map_mul, Complex.conj_conj, Complex.conj_ofReal]; ring
  refine ⟨_, hb, fun i _ => key.1 i, fun i j _ _ => ?_⟩
  rw [key.2 i j]
  rfl

example : ∃ h', (herAlpha ((5 : ℝ) : ℂ) (x.view : VecV ℂ) A .upper) (heap ℂ) = .ok ((), h') ∧ ∃ b, A.BecomesOn (heap ℂ) h' Triangle.upper.region b ∧
    ∀ i, i < 3 → (b i i).im = 0 := by
  obtain ⟨_, h', e, b, hb, hd, _⟩ := C30_herAlpha 5 _ _ _ _ _ _ (holdsV bx) (mholds bA) rfl le_rfl
    (by view_facts) (by view_facts)
  exact ⟨h', e, b, hb, hd⟩

/-- **C30** `hermitian_matrix_rank_2_update(x, y, A, t)` -/
theorem C30_her2 (x y : VecV ℂ) (A : Mat) (t : Triangle) (h : Heap ℂ)
    (f g : Nat → ℂ) (a : Nat → Nat → ℂ)
    (hx : x.Holds h f) (hy : y.Holds h g)
    (hA : A.HoldsOn h t.region a) (hsq : A.rows = A.cols) (hxe : A.rows ≤ x.ext)
    (hye : A.rows ≤ y.ext) (hu : A.UniqueOn t.region)
    (hxA : Apart x.toVec.Cell (A.CellOn t.region))
    (hyA : Apart y.toVec.Cell (A.CellOn t.region)) :
    Ends (her2 x y A t) h fun _ h' => ∃ m, A.BecomesOn h h' t.region m ∧
      (∀ i, i < A.rows → (m i i).im = 0) ∧
      ∀ i j, i < A.rows → j < A.cols →
        hermOf t m i j = hermOf t a i j + (f i * (starRingEnd ℂ) (g j) + g i * (starRingEnd ℂ) (f j)) := by
  refine (C27_her2 x y A t h f g a hx hy hA hsq hxe hye hu hxA hyA).mono fun _ h' hb => ?_
  have key := hermOf_update t a (fun i j => f i * ConjOps.conj (g j) + g i * ConjOps.conj (f j)) fun i j => by
    simp only [conj_complex, map_add, map_mul, Complex.conj_conj]; ring
  refine ⟨_, hb, fun i _ => key.1 i, fun i j _ _ => ?_⟩
  rw [key.2 i j]
  rfl

example : ∃ h', (her2 (x.view : VecV ℂ) y.view A .upper) (heap ℂ) = .ok ((), h') ∧ ∃ b, A.BecomesOn (heap ℂ) h' Triangle.upper.region b ∧
    ∀ i, i < 3 → (b i i).im = 0 := by
  obtain ⟨_, h', e, b, hb, hd, _⟩ := C30_her2 _ _ _ _ _ _ _ _ (holdsV bx) (holdsV by_) (mholds bA)
    rfl le_rfl le_rfl (by view_facts) (by view_facts) (by view_facts)
  exact ⟨h', e, b, hb, hd⟩

/-- **C30** `hermitian_matrix_rank_k_update(A, C, t)`: adds `A Aᴴ` -/
theorem C30_herk (A : MatV ℂ) (C : Mat) (t : Triangle) (h : Heap ℂ)
    (a c : Nat → Nat → ℂ)
    (hA : A.Holds h a) (hC : C.HoldsOn h t.region c)
    (hsq : C.rows = C.cols) (hAe : C.rows ≤ A.rows) (hu : C.UniqueOn t.region)
    (hAC : Apart A.toMat.Cell (C.CellOn t.region)) :
    Ends (herk A C t) h fun _ h' => ∃ m, C.BecomesOn h h' t.region m ∧
      (∀ i, i < C.rows → (m i i).im = 0) ∧
      ∀ i j, i < C.rows → j < C.cols →
        hermOf t m i j = hermOf t c i j + ∑ k ∈ range A.cols, a i k * (starRingEnd ℂ) (a j k) := by
  refine (C28_herk A C t h a c hA hC hsq hAe hu hAC).mono fun _ h' hb => ?_
  have key := hermOf_update t c (fun i j => ∑ k ∈ range A.cols, a i k * ConjOps.conj (a j k)) fun i j => by
    simp only [conj_complex, map_sum, map_mul, Complex.conj_conj, mul_comm]
  refine ⟨_, hb, fun i _ => key.1 i, fun i j _ _ => ?_⟩
  rw [key.2 i j]
  rfl

example : ∃ h', (herk (T.view : MatV ℂ) B .lower) (heap ℂ) = .ok ((), h') ∧ ∃ b, B.BecomesOn (heap ℂ) h' Triangle.lower.region b ∧
    ∀ i, i < 3 → (b i i).im = 0 := by
  obtain ⟨_, h', e, b, hb, hd, _⟩ := C30_herk _ _ _ _ _ _ (mholdsV bT) (mholds bB) rfl le_rfl
    (by view_facts) (by view_facts)
  exact ⟨h', e, b, hb, hd⟩

/-- **C30** `hermitian_matrix_rank_k_update(alpha, A, C, t)`, real `alpha`: adds `alpha A Aᴴ` -/
theorem C30_herkAlpha (r : ℝ) (A : MatV ℂ) (C : Mat) (t : Triangle) (h : Heap ℂ)
    (a c : Nat → Nat → ℂ)
    (hA : A.Holds h a) (hC : C.HoldsOn h t.region c)
    (hsq : C.rows = C.cols) (hAe : C.rows ≤ A.rows) (hu : C.UniqueOn t.region)
    (hAC : Apart A.toMat.Cell (C.CellOn t.region)) :
    Ends (herkAlpha (r : ℂ) A C t) h fun _ h' => ∃ m, C.BecomesOn h h' t.region m ∧
      (∀ i, i < C.rows → (m i i).im = 0) ∧
      ∀ i j, i < C.rows → j < C.cols →
        hermOf t m i j = hermOf t c i j + r * ∑ k ∈ range A.cols, a i k * (starRingEnd ℂ) (a j k) := by
  refine (C28_herkAlpha (r : ℂ) A C t h a c hA hC hsq hAe hu hAC).mono fun _ h' hb => ?_
  have key := hermOf_update t c (fun i j => ∑ k ∈ range A.cols, (r : ℂ) * a i k * ConjOps.conj (a j k)) fun i j => by
    simp only [conj_complex, map_sum, map_mul, Complex.conj_conj, Complex.conj_ofReal]
    exact sum_congr rfl fun k _ => by ring
  refine ⟨_, hb, fun i _ => key.1 i, fun i j _ _ => ?_⟩
  rw [key.2 i j]
  simp only [mul_sum, mul_assoc, conj_complex]

example : ∃ h', (herkAlpha ((5 : ℝ) : ℂ) (T.view : MatV ℂ) C .upper) (heap ℂ) = .ok ((), h') ∧ ∃ b, C.BecomesOn (heap ℂ) h' Triangle.upper.region b ∧
    ∀ i, i < 3 → (b i i).im = 0 := by
  obtain ⟨_, h', e, b, hb, hd, _⟩ := C30_herkAlpha 5 _ _ _ _ _ _ (mholdsV bT) (mholds bC) rfl le_rfl
    (by view_facts) (by view_facts)
  exact ⟨h', e, b, hb, hd⟩

/-- **C30** `hermitian_matrix_rank_2k_update(A, B, C, t)`: adds `A Bᴴ + B Aᴴ` -/
theorem C30_her2k (A B : MatV ℂ) (C : Mat) (t : Triangle) (h : Heap ℂ)
    (a b c : Nat → Nat → ℂ)
    (hA : A.Holds h a) (hB : B.Holds h b) (hC : C.HoldsOn h t.region c)
    (hsq : C.rows = C.cols) (hAe : C.rows ≤ A.rows) (hBe : C.rows ≤ B.rows)
    (hAB : A.cols ≤ B.cols) (hu : C.UniqueOn t.region)
    (hAC : Apart A.toMat.Cell (C.CellOn t.region))
    (hBC : Apart B.toMat.Cell (C.CellOn t.region)) :
    Ends (her2k A B C t) h fun _ h' => ∃ m, C.BecomesOn h h' t.region m ∧
      (∀ i, i < C.rows → (m i i).im = 0) ∧
      ∀ i j, i < C.rows → j < C.cols →
        hermOf t m i j = hermOf t c i j + (∑ k ∈ range A.cols, a i k * (starRingEnd ℂ) (b j k) +
          ∑ k ∈ range A.cols, b i k * (starRingEnd ℂ) (a j k)) := by
  refine (C29_her2k A B C t h a b c hA hB hC hsq hAe hBe hAB hu hAC hBC).mono fun _ h' hb => ?_
  have key := hermOf_update t c (fun i j => ∑ k ∈ range A.cols, (a i k * ConjOps.conj (b j k) + b i k * ConjOps.conj (a j k))) fun i j => by
    simp only [conj_complex, map_sum, map_add, map_mul, Complex.conj_conj]
    exact sum_congr rfl fun k _ => by ring
  refine ⟨_, hb, fun i _ => key.1 i, fun i j _ _ => ?_⟩
  rw [key.2 i j]
  simp only [sum_add_distrib, conj_complex]

example : ∃ h', (her2k (T.view : MatV ℂ) E.view C .lower) (heap ℂ) = .ok ((), h') ∧ ∃ b, C.BecomesOn (heap ℂ) h' Triangle.lower.region b ∧
    ∀ i, i < 3 → (b i i).im = 0 := by
  obtain ⟨_, h', e, b, hb, hd, _⟩ := C30_her2k _ _ _ _ _ _ _ _ (mholdsV bT) (mholdsV bE) (mholds bC)
    rfl le_rfl le_rfl (by decide) (by view_facts) (by view_facts) (by view_facts)
  exact ⟨h', e, b, hb, hd⟩

end StdBLAS

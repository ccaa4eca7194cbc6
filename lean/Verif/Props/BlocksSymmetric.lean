import Verif.Props.BlocksSolveRight
import Verif.Props.Blas3Products

/-!
# Products with a symmetric or Hermitian matrix in 2 × 2 blocks (C73)

The updating versions for these matrices are not implemented (C34); the calls below need only the updating version of
`matrix_product`.
-/

namespace StdBLAS
open Finset Witness
variable {α : Type}

/-- A structured product from the left, `prod`, whose matrix stands for `S a` if the elements of the region `R` are
`a`: in blocks.  `A12` and `A21` stand for the blocks off the diagonal. -/
theorem leftProduct_blocks [NonUnitalNonAssocSemiring α] (prod : MatV α → MatV α → Mat → Prog α Unit) (R : Region)
    (S : (Nat → Nat → α) → Nat → Nat → α)
    (spec : ∀ (A B : MatV α) (C : Mat) (h : Heap α) (a b : Nat → Nat → α), A.HoldsOn h R a → B.Holds h b →
      C.Alloc h → A.rows = A.cols → C.rows = A.rows → A.cols = B.rows → C.cols = B.cols → C.Unique →
      Apart (A.toMat.CellOn R) C.Cell → Apart B.toMat.Cell C.Cell →
      Ends (prod A B C) h fun _ h' => C.Becomes h h' (mulMat A.cols (S a) b))
    (A A12 A21 B : MatV α) (C : Mat) (h : Heap α) (a b : Nat → Nat → α) (n m k : Nat)
    (hR : ∀ s i j, R i j → R (s + i) (s + j)) (hS : ∀ i j, S (fun i j => a (k + i) (k + j)) i j = S a (k + i) (k + j))
    (hA : A.HoldsOn h R a) (hB : B.Holds h b) (hC : C.Alloc h) (hr : A.rows = n) (hc : A.cols = n)
    (hBr : B.rows = n) (hBc : B.cols = m) (hCr : C.rows = n) (hCc : C.cols = m) (hu : C.Unique)
    (hAC : Apart (A.toMat.CellOn R) C.Cell) (hBC : Apart B.toMat.Cell C.Cell) (hk : k ≤ n)
    (r12 : A12.rows = k) (c12 : A12.cols = n - k) (r21 : A21.rows = n - k) (c21 : A21.cols = k)
    (h12 : A12.Holds h fun i j => S a i (k + j)) (h21 : A21.Holds h fun i j => S a (k + i) j)
    (i12 : ∀ p, A12.toMat.Cell p → A.toMat.CellOn R p) (i21 : ∀ p, A21.toMat.Cell p → A.toMat.CellOn R p) :
    Ends (prod A B C) h fun _ h1 => Ends (do
        prod (A.block 0 0 k k) (B.block 0 0 k m) (C.block 0 0 k m)
        gemmUpdate A12 (B.block k 0 (n - k) m) (C.block 0 0 k m).view (C.block 0 0 k m)
        prod (A.block k k (n - k) (n - k)) (B.block k 0 (n - k) m) (C.block k 0 (n - k) m)
        gemmUpdate A21 (B.block 0 0 k m) (C.block k 0 (n - k) m).view (C.block k 0 (n - k) m)) h
      fun _ h2 => h1 = h2 := by
  have c1 : ∀ p, (C.block 0 0 k m).Cell p → C.Cell p := fun p => Mat.block_cell (by omega) (by omega)
  have c2 : ∀ p, (C.block k 0 (n - k) m).Cell p → C.Cell p := fun p => Mat.block_cell (by omega) (by omega)
  have bB1 : ∀ p, (B.block 0 0 k m).toMat.Cell p → B.toMat.Cell p := by
    rintro p ⟨i, j, hi, hj, _, e⟩
    simp only [MatV.block] at hi hj e
    exact ⟨_, _, by omega, by omega, trivial, e⟩
  have bB2 : ∀ p, (B.block k 0 (n - k) m).toMat.Cell p → B.toMat.Cell p := by
    rintro p ⟨i, j, hi, hj, _, e⟩
    simp only [MatV.block] at hi hj e
    exact ⟨_, _, by omega, by omega, trivial, e⟩
  have c12' : Apart (C.block 0 0 k m).Cell (C.block k 0 (n - k) m).Cell := by
    rintro p ⟨i, j, hi, hj, _, e⟩ ⟨i', j', hi', hj', _, e'⟩
    simp only [Mat.block] at hi hj hi' hj' e e'
    have := hu _ _ _ _ (by omega) (by omega) trivial (by omega) (by omega) trivial (e.trans e'.symm)
    omega
  have c21' : Apart (C.block k 0 (n - k) m).Cell (C.block 0 0 k m).Cell := fun p hp hq => c12' p hq hp
  have aD : ∀ {s r}, s + r ≤ n → ∀ p, (A.block s s r r).toMat.CellOn R p → A.toMat.CellOn R p := by
    rintro s r hs p ⟨i, j, hi, hj, hij, e⟩
    simp only [MatV.block] at hi hj e
    exact ⟨s + i, s + j, by omega, by omega, hR _ _ _ hij, e⟩
  refine (spec A B C h a b hA hB hC (by omega) (by omega) (by omega) (by omega) hu hAC hBC).mono fun _ g hb => ?_
  rw [ends_bind]
  refine (spec (A.block 0 0 k k) (B.block 0 0 k m) (C.block 0 0 k m) h a (fun i j => b (0 + i) (0 + j))
    (fun i j hi hj hij => by
      simp only [MatV.block] at hi hj
      have := hA i j (by omega) (by omega) hij
      simpa only [MatV.block, Nat.zero_add] using this)
    (hB.block (by omega) (by omega)) (hC.block (by omega) (by omega)) rfl rfl rfl rfl (hu.block (by omega) (by omega))
    (fun p hp hq => hAC p (aD (by omega) p hp) (c1 p hq))
    (fun p hp hq => hBC p (bB1 p hp) (c1 p hq))).mono fun _ h1 b1 => ?_
  have o1 : OnlyChanges C.Cell h h1 := fun p hp => b1.2 p fun hq => hp (c1 p hq)
  rw [ends_bind]
  refine (C31_gemm_update A12 (B.block k 0 (n - k) m) (C.block 0 0 k m).view (C.block 0 0 k m) h1 (fun i j => S a i (k + j)) (fun i j => b (k + i) (0 + j)) _
    (h12.of_onlyChanges (fun p hp hq => hAC p (i12 p hp) hq) o1) ((hB.block (by omega) (by omega)).of_onlyChanges (fun p hp hq => hBC p (bB2 p hp) hq) o1)
    b1.1.asView (Mat.Holds.alloc b1.1) (by simp only [Mat.block]; omega)
    (by simp only [MatV.block]; omega) rfl rfl rfl (hu.block (by omega) (by omega))
    (fun p hp hq => hAC p (i12 p hp) (c1 p hq)) (fun p hp hq => hBC p (bB2 p hp) (c1 p hq)) (hu.block (by omega) (by omega)).aligned).mono fun _ h2 b2 => ?_
  have o2 : OnlyChanges C.Cell h h2 := fun p hp => (b2.2 p fun hq => hp (c1 p hq)).trans (o1 p hp)
  rw [ends_bind]
  refine (spec (A.block k k (n - k) (n - k)) (B.block k 0 (n - k) m) (C.block k 0 (n - k) m) h2 (fun i j => a (k + i) (k + j)) (fun i j => b (k + i) (0 + j))
    (fun i j hi hj hij => hA.of_onlyChanges hAC o2 _ _ (by simp only [MatV.block] at hi; omega)
      (by simp only [MatV.block] at hj; omega) (hR _ _ _ hij))
    ((hB.block (by omega) (by omega)).of_onlyChanges (fun p hp hq => hBC p (bB2 p hp) hq) o2)
    ((hC.block (by omega) (by omega)).of_onlyChanges c21' fun p hp => (b2.2 p hp).trans (b1.2 p hp))
    rfl rfl rfl rfl (hu.block (by omega) (by omega))
    (fun p hp hq => hAC p (aD (by omega) p hp) (c2 p hq))
    (fun p hp hq => hBC p (bB2 p hp) (c2 p hq))).mono fun _ h3 b3 => ?_
  have o3 : OnlyChanges C.Cell h h3 := fun p hp => (b3.2 p fun hq => hp (c2 p hq)).trans (o2 p hp)
  refine (C31_gemm_update A21 (B.block 0 0 k m) (C.block k 0 (n - k) m).view (C.block k 0 (n - k) m) h3 (fun i j => S a (k + i) j) (fun i j => b (0 + i) (0 + j)) _
    (h21.of_onlyChanges (fun p hp hq => hAC p (i21 p hp) hq) o3) ((hB.block (by omega) (by omega)).of_onlyChanges (fun p hp hq => hBC p (bB1 p hp) hq) o3)
    b3.1.asView (Mat.Holds.alloc b3.1) (by simp only [Mat.block]; omega)
    (by simp only [MatV.block]; omega) rfl rfl rfl (hu.block (by omega) (by omega))
    (fun p hp hq => hAC p (i21 p hp) (c2 p hq)) (fun p hp hq => hBC p (bB1 p hp) (c2 p hq)) (hu.block (by omega) (by omega)).aligned).mono fun _ h4 b4 => ?_
  have o4 : OnlyChanges C.Cell h h4 := fun p hp => (b4.2 p fun hq => hp (c2 p hq)).trans (o3 p hp)
  have keep := Mat.Holds.of_onlyChanges (Mat.Holds.of_onlyChanges b2.1 c12' b3.2) c12' b4.2
  refine hb.unique (Mat.Becomes.rowParts hCr hCc hk keep b4.1 o4) fun i j hi hj => ?_
  have halves : mulMat A.cols (S a) b i j = ∑ l ∈ range k, S a i l * b l j +
      ∑ l ∈ range (n - k), S a i (k + l) * b (k + l) j := by
    unfold mulMat
    rw [show A.cols = k + (n - k) by omega, sum_range_add]
  rw [halves]
  by_cases hik : i < k
  · simp only [hik, if_true, Nat.zero_add, c12]
    rfl
  · have ek : k + (i - k) = i := by omega
    simp only [hik, if_false, Nat.zero_add, c21]
    unfold mulMat
    simp only [hS, ek]
    exact add_comm _ _

/-- A structured product from the right, `prod`, whose matrix stands for `S a` if the elements of the region `R` are
`a`: in blocks.  `A12` and `A21` stand for the blocks off the diagonal. -/
theorem rightProduct_blocks [NonUnitalNonAssocSemiring α] (prod : MatV α → MatV α → Mat → Prog α Unit) (R : Region)
    (S : (Nat → Nat → α) → Nat → Nat → α)
    (spec : ∀ (A B : MatV α) (C : Mat) (h : Heap α) (a b : Nat → Nat → α), A.HoldsOn h R a → B.Holds h b →
      C.Alloc h → A.rows = A.cols → C.rows = B.rows → B.cols = A.rows → C.cols = A.cols → C.Unique →
      Apart (A.toMat.CellOn R) C.Cell → Apart B.toMat.Cell C.Cell →
      Ends (prod B A C) h fun _ h' => C.Becomes h h' (mulMat B.cols b (S a)))
    (A A12 A21 B : MatV α) (C : Mat) (h : Heap α) (a b : Nat → Nat → α) (n m k : Nat)
    (hR : ∀ s i j, R i j → R (s + i) (s + j)) (hS : ∀ i j, S (fun i j => a (k + i) (k + j)) i j = S a (k + i) (k + j))
    (hA : A.HoldsOn h R a) (hB : B.Holds h b) (hC : C.Alloc h) (hr : A.rows = n) (hc : A.cols = n)
    (hBr : B.rows = m) (hBc : B.cols = n) (hCr : C.rows = m) (hCc : C.cols = n) (hu : C.Unique)
    (hAC : Apart (A.toMat.CellOn R) C.Cell) (hBC : Apart B.toMat.Cell C.Cell) (hk : k ≤ n)
    (r12 : A12.rows = k) (c12 : A12.cols = n - k) (r21 : A21.rows = n - k) (c21 : A21.cols = k)
    (h12 : A12.Holds h fun i j => S a i (k + j)) (h21 : A21.Holds h fun i j => S a (k + i) j)
    (i12 : ∀ p, A12.toMat.Cell p → A.toMat.CellOn R p) (i21 : ∀ p, A21.toMat.Cell p → A.toMat.CellOn R p) :
    Ends (prod B A C) h fun _ h1 => Ends (do
        prod (B.block 0 0 m k) (A.block 0 0 k k) (C.block 0 0 m k)
        gemmUpdate (B.block 0 k m (n - k)) A21 (C.block 0 0 m k).view (C.block 0 0 m k)
        prod (B.block 0 k m (n - k)) (A.block k k (n - k) (n - k)) (C.block 0 k m (n - k))
        gemmUpdate (B.block 0 0 m k) A12 (C.block 0 k m (n - k)).view (C.block 0 k m (n - k))) h
      fun _ h2 => h1 = h2 := by
  have c1 : ∀ p, (C.block 0 0 m k).Cell p → C.Cell p := fun p => Mat.block_cell (by omega) (by omega)
  have c2 : ∀ p, (C.block 0 k m (n - k)).Cell p → C.Cell p := fun p => Mat.block_cell (by omega) (by omega)
  have bB1 : ∀ p, (B.block 0 0 m k).toMat.Cell p → B.toMat.Cell p := by
    rintro p ⟨i, j, hi, hj, _, e⟩
    simp only [MatV.block] at hi hj e
    exact ⟨_, _, by omega, by omega, trivial, e⟩
  have bB2 : ∀ p, (B.block 0 k m (n - k)).toMat.Cell p → B.toMat.Cell p := by
    rintro p ⟨i, j, hi, hj, _, e⟩
    simp only [MatV.block] at hi hj e
    exact ⟨_, _, by omega, by omega, trivial, e⟩
  have c12' : Apart (C.block 0 0 m k).Cell (C.block 0 k m (n - k)).Cell := by
    rintro p ⟨i, j, hi, hj, _, e⟩ ⟨i', j', hi', hj', _, e'⟩
    simp only [Mat.block] at hi hj hi' hj' e e'
    have := hu _ _ _ _ (by omega) (by omega) trivial (by omega) (by omega) trivial (e.trans e'.symm)
    omega
  have c21' : Apart (C.block 0 k m (n - k)).Cell (C.block 0 0 m k).Cell := fun p hp hq => c12' p hq hp
  have aD : ∀ {s r}, s + r ≤ n → ∀ p, (A.block s s r r).toMat.CellOn R p → A.toMat.CellOn R p := by
    rintro s r hs p ⟨i, j, hi, hj, hij, e⟩
    simp only [MatV.block] at hi hj e
    exact ⟨s + i, s + j, by omega, by omega, hR _ _ _ hij, e⟩
  refine (spec A B C h a b hA hB hC (by omega) (by omega) (by omega) (by omega) hu hAC hBC).mono fun _ g hb => ?_
  rw [ends_bind]
  refine (spec (A.block 0 0 k k) (B.block 0 0 m k) (C.block 0 0 m k) h a (fun i j => b (0 + i) (0 + j))
    (fun i j hi hj hij => by
      simp only [MatV.block] at hi hj
      have := hA i j (by omega) (by omega) hij
      simpa only [MatV.block, Nat.zero_add] using this)
    (hB.block (by omega) (by omega)) (hC.block (by omega) (by omega)) rfl rfl rfl rfl (hu.block (by omega) (by omega))
    (fun p hp hq => hAC p (aD (by omega) p hp) (c1 p hq))
    (fun p hp hq => hBC p (bB1 p hp) (c1 p hq))).mono fun _ h1 b1 => ?_
  have o1 : OnlyChanges C.Cell h h1 := fun p hp => b1.2 p fun hq => hp (c1 p hq)
  rw [ends_bind]
  refine (C31_gemm_update (B.block 0 k m (n - k)) A21 (C.block 0 0 m k).view (C.block 0 0 m k) h1 (fun i j => b (0 + i) (k + j)) (fun i j => S a (k + i) j) _
    ((hB.block (by omega) (by omega)).of_onlyChanges (fun p hp hq => hBC p (bB2 p hp) hq) o1) (h21.of_onlyChanges (fun p hp hq => hAC p (i21 p hp) hq) o1)
    b1.1.asView (Mat.Holds.alloc b1.1) rfl
    (by simp only [MatV.block]; omega) (by simp only [Mat.block]; omega) rfl rfl (hu.block (by omega) (by omega))
    (fun p hp hq => hBC p (bB2 p hp) (c1 p hq)) (fun p hp hq => hAC p (i21 p hp) (c1 p hq)) (hu.block (by omega) (by omega)).aligned).mono fun _ h2 b2 => ?_
  have o2 : OnlyChanges C.Cell h h2 := fun p hp => (b2.2 p fun hq => hp (c1 p hq)).trans (o1 p hp)
  rw [ends_bind]
  refine (spec (A.block k k (n - k) (n - k)) (B.block 0 k m (n - k)) (C.block 0 k m (n - k)) h2 (fun i j => a (k + i) (k + j)) (fun i j => b (0 + i) (k + j))
    (fun i j hi hj hij => hA.of_onlyChanges hAC o2 _ _ (by simp only [MatV.block] at hi; omega)
      (by simp only [MatV.block] at hj; omega) (hR _ _ _ hij))
    ((hB.block (by omega) (by omega)).of_onlyChanges (fun p hp hq => hBC p (bB2 p hp) hq) o2)
    ((hC.block (by omega) (by omega)).of_onlyChanges c21' fun p hp => (b2.2 p hp).trans (b1.2 p hp))
    rfl rfl rfl rfl (hu.block (by omega) (by omega))
    (fun p hp hq => hAC p (aD (by omega) p hp) (c2 p hq))
    (fun p hp hq => hBC p (bB2 p hp) (c2 p hq))).mono fun _ h3 b3 => ?_
  have o3 : OnlyChanges C.Cell h h3 := fun p hp => (b3.2 p fun hq => hp (c2 p hq)).trans (o2 p hp)
  refine (C31_gemm_update (B.block 0 0 m k) A12 (C.block 0 k m (n - k)).view (C.block 0 k m (n - k)) h3 (fun i j => b (0 + i) (0 + j)) (fun i j => S a i (k + j)) _
    ((hB.block (by omega) (by omega)).of_onlyChanges (fun p hp hq => hBC p (bB1 p hp) hq) o3) (h12.of_onlyChanges (fun p hp hq => hAC p (i12 p hp) hq) o3)
    b3.1.asView (Mat.Holds.alloc b3.1) rfl
    (by simp only [MatV.block]; omega) (by simp only [Mat.block]; omega) rfl rfl (hu.block (by omega) (by omega))
    (fun p hp hq => hBC p (bB1 p hp) (c2 p hq)) (fun p hp hq => hAC p (i12 p hp) (c2 p hq)) (hu.block (by omega) (by omega)).aligned).mono fun _ h4 b4 => ?_
  have o4 : OnlyChanges C.Cell h h4 := fun p hp => (b4.2 p fun hq => hp (c2 p hq)).trans (o3 p hp)
  have keep := Mat.Holds.of_onlyChanges (Mat.Holds.of_onlyChanges b2.1 c12' b3.2) c12' b4.2
  refine hb.unique (Mat.Becomes.colParts hCr hCc hk keep b4.1 o4) fun i j hi hj => ?_
  have halves : mulMat B.cols b (S a) i j = ∑ l ∈ range k, b i l * S a l j +
      ∑ l ∈ range (n - k), b i (k + l) * S a (k + l) j := by
    unfold mulMat
    rw [show B.cols = k + (n - k) by omega, sum_range_add]
  rw [halves]
  by_cases hjk : j < k
  · simp only [hjk, if_true, Nat.zero_add]
    rfl
  · have ek : k + (j - k) = j := by omega
    simp only [hjk, if_false, Nat.zero_add]
    unfold mulMat
    simp only [hS, ek]
    exact add_comm _ _

theorem symOf_shift (t : Triangle) (a : Nat → Nat → α) (k i j : Nat) :
    symOf t a (k + i) (k + j) = symOf t (fun i j => a (k + i) (k + j)) i j := by
  have q : t.region (k + i) (k + j) ↔ t.region i j := by cases t <;> simp only [Triangle.region] <;> omega
  unfold symOf
  by_cases r : t.region i j
  · rw [if_pos r, if_pos (q.2 r)]
  · rw [if_neg r, if_neg fun s => r (q.1 s)]

theorem hermOf_shift [ConjOps α] (t : Triangle) (a : Nat → Nat → α) (k i j : Nat) :
    hermOf t a (k + i) (k + j) = hermOf t (fun i j => a (k + i) (k + j)) i j := by
  have q : t.region (k + i) (k + j) ↔ t.region i j := by cases t <;> simp only [Triangle.region] <;> omega
  unfold hermOf
  by_cases e : i = j
  · rw [if_pos e, if_pos (by omega)]
  · rw [if_neg e, if_neg (by omega)]
    by_cases r : t.region i j
    · rw [if_pos r, if_pos (q.2 r)]
    · rw [if_neg r, if_neg fun s => r (q.1 s)]

/-- A Hermitian matrix with the diagonal as stored (`C33_hemm_right_uses_stored_diagonal`). -/
noncomputable def storedDiag [ConjOps α] (t : Triangle) (a : Nat → Nat → α) (i j : Nat) : α :=
  if i = j then a i i else hermOf t a i j

theorem storedDiag_shift [ConjOps α] (t : Triangle) (a : Nat → Nat → α) (k i j : Nat) :
    storedDiag t a (k + i) (k + j) = storedDiag t (fun i j => a (k + i) (k + j)) i j := by
  unfold storedDiag
  by_cases e : i = j
  · rw [if_pos e, if_pos (by omega)]
  · rw [if_neg e, if_neg (by omega), hermOf_shift]

theorem storedDiag_off [ConjOps α] {t : Triangle} (a : Nat → Nat → α) {k i j : Nat} :
    (t = .lower → i < k → storedDiag t a i (k + j) = ConjOps.conj (a (k + j) i)) ∧
      (t = .lower → j < k → storedDiag t a (k + i) j = a (k + i) j) ∧
        (t = .upper → i < k → storedDiag t a i (k + j) = a i (k + j)) ∧
          (t = .upper → j < k → storedDiag t a (k + i) j = ConjOps.conj (a j (k + i))) := by
  unfold storedDiag
  refine ⟨fun e q => ?_, fun e q => ?_, fun e q => ?_, fun e q => ?_⟩ <;> rw [if_neg (by omega)]
  · exact (hermOf_off a).1 e q
  · exact (hermOf_off a).2.1 e q
  · exact (hermOf_off a).2.2.1 e q
  · exact (hermOf_off a).2.2.2 e q

/-- **C73** `symmetric_matrix_product(A, lower_triangle, B, C)` in blocks. -/
theorem C73_symm_left_lower_blocks [NonUnitalNonAssocSemiring α] (A B : MatV α) (C : Mat) (h : Heap α)
    (a b : Nat → Nat → α) (n m k : Nat) (hA : A.HoldsOn h Triangle.lower.region a) (hB : B.Holds h b) (hC : C.Alloc h)
    (hr : A.rows = n) (hc : A.cols = n) (hBr : B.rows = n) (hBc : B.cols = m) (hCr : C.rows = n) (hCc : C.cols = m)
    (hu : C.Unique) (hAC : Apart (A.toMat.CellOn Triangle.lower.region) C.Cell) (hBC : Apart B.toMat.Cell C.Cell)
    (hk : k ≤ n) :
    Ends (symmLeft A .lower B C) h fun _ h1 => Ends (do
        symmLeft (A.block 0 0 k k) .lower (B.block 0 0 k m) (C.block 0 0 k m)
        gemmUpdate (A.block k 0 (n - k) k).transposed (B.block k 0 (n - k) m) (C.block 0 0 k m).view (C.block 0 0 k m)
        symmLeft (A.block k k (n - k) (n - k)) .lower (B.block k 0 (n - k) m) (C.block k 0 (n - k) m)
        gemmUpdate (A.block k 0 (n - k) k) (B.block 0 0 k m) (C.block k 0 (n - k) m).view (C.block k 0 (n - k) m)) h
      fun _ h2 => h1 = h2 := by
  refine leftProduct_blocks (fun A B C => symmLeft A .lower B C) Triangle.lower.region (symOf .lower)
    (fun A B C h a b => C32_symm_left A .lower B C h a b) A _ _ B C h a b n m k
    (fun s i j => by simp only [Triangle.region]; omega) (fun i j => (symOf_shift _ a k i j).symm) hA hB hC hr hc hBr hBc hCr hCc
    hu hAC hBC hk rfl rfl rfl rfl ?_ ?_ ?_ ?_
  · intro i j hi hj _
    simp only [MatV.block, MatV.transposed, Mat.transposed] at hi hj
    obtain ⟨w, hw, e⟩ := hA (k + j) (0 + i) (by omega) (by omega) (by simp only [Triangle.region]; omega)
    exact ⟨w, hw, e.trans (by beta_reduce; rw [(symOf_off a).1 rfl hi, Nat.zero_add])⟩
  · intro i j hi hj _
    simp only [MatV.block] at hi hj
    obtain ⟨w, hw, e⟩ := hA (k + i) (0 + j) (by omega) (by omega) (by simp only [Triangle.region]; omega)
    exact ⟨w, hw, e.trans (by beta_reduce; rw [(symOf_off a).2.1 rfl hj, Nat.zero_add])⟩
  · rintro p ⟨i, j, hi, hj, _, e⟩
    simp only [MatV.block, MatV.transposed, Mat.transposed] at hi hj e
    exact ⟨k + j, 0 + i, by omega, by omega, by simp only [Triangle.region]; omega, e⟩
  · rintro p ⟨i, j, hi, hj, _, e⟩
    simp only [MatV.block] at hi hj e
    exact ⟨k + i, 0 + j, by omega, by omega, by simp only [Triangle.region]; omega, e⟩

example : Ends (symmLeft (A.view : MatV ℤ) .lower B.view C) (heap ℤ) fun _ h1 => Ends (do
    symmLeft ((A.view : MatV ℤ).block 0 0 2 2) .lower ((B.view : MatV ℤ).block 0 0 2 3) (C.block 0 0 2 3)
    gemmUpdate ((A.view : MatV ℤ).block 2 0 1 2).transposed ((B.view : MatV ℤ).block 2 0 1 3) (C.block 0 0 2 3).view (C.block 0 0 2 3)
    symmLeft ((A.view : MatV ℤ).block 2 2 1 1) .lower ((B.view : MatV ℤ).block 2 0 1 3) (C.block 2 0 1 3)
    gemmUpdate ((A.view : MatV ℤ).block 2 0 1 2) ((B.view : MatV ℤ).block 0 0 2 3) (C.block 2 0 1 3).view (C.block 2 0 1 3)) (heap ℤ) fun _ h2 => h1 = h2 :=
  C73_symm_left_lower_blocks _ _ _ _ _ _ 3 3 2 (mholdsV bA) (mholdsV bB) (malloc bC) rfl rfl rfl rfl rfl rfl (by view_facts)
    (by view_facts) (by view_facts) (by decide)

/-- **C73** `symmetric_matrix_product(A, upper_triangle, B, C)` in blocks. -/
theorem C73_symm_left_upper_blocks [NonUnitalNonAssocSemiring α] (A B : MatV α) (C : Mat) (h : Heap α)
    (a b : Nat → Nat → α) (n m k : Nat) (hA : A.HoldsOn h Triangle.upper.region a) (hB : B.Holds h b) (hC : C.Alloc h)
    (hr : A.rows = n) (hc : A.cols = n) (hBr : B.rows = n) (hBc : B.cols = m) (hCr : C.rows = n) (hCc : C.cols = m)
    (hu : C.Unique) (hAC : Apart (A.toMat.CellOn Triangle.upper.region) C.Cell) (hBC : Apart B.toMat.Cell C.Cell)
    (hk : k ≤ n) :
    Ends (symmLeft A .upper B C) h fun _ h1 => Ends (do
        symmLeft (A.block 0 0 k k) .upper (B.block 0 0 k m) (C.block 0 0 k m)
        gemmUpdate (A.block 0 k k (n - k)) (B.block k 0 (n - k) m) (C.block 0 0 k m).view (C.block 0 0 k m)
        symmLeft (A.block k k (n - k) (n - k)) .upper (B.block k 0 (n - k) m) (C.block k 0 (n - k) m)
        gemmUpdate (A.block 0 k k (n - k)).transposed (B.block 0 0 k m) (C.block k 0 (n - k) m).view (C.block k 0 (n - k) m)) h
      fun _ h2 => h1 = h2 := by
  refine leftProduct_blocks (fun A B C => symmLeft A .upper B C) Triangle.upper.region (symOf .upper)
    (fun A B C h a b => C32_symm_left A .upper B C h a b) A _ _ B C h a b n m k
    (fun s i j => by simp only [Triangle.region]; omega) (fun i j => (symOf_shift _ a k i j).symm) hA hB hC hr hc hBr hBc hCr hCc
    hu hAC hBC hk rfl rfl rfl rfl ?_ ?_ ?_ ?_
  · intro i j hi hj _
    simp only [MatV.block] at hi hj
    obtain ⟨w, hw, e⟩ := hA (0 + i) (k + j) (by omega) (by omega) (by simp only [Triangle.region]; omega)
    exact ⟨w, hw, e.trans (by beta_reduce; rw [(symOf_off a).2.2.1 rfl hi, Nat.zero_add])⟩
  · intro i j hi hj _
    simp only [MatV.block, MatV.transposed, Mat.transposed] at hi hj
    obtain ⟨w, hw, e⟩ := hA (0 + j) (k + i) (by omega) (by omega) (by simp only [Triangle.region]; omega)
    exact ⟨w, hw, e.trans (by beta_reduce; rw [(symOf_off a).2.2.2 rfl hj, Nat.zero_add])⟩
  · rintro p ⟨i, j, hi, hj, _, e⟩
    simp only [MatV.block] at hi hj e
    exact ⟨0 + i, k + j, by omega, by omega, by simp only [Triangle.region]; omega, e⟩
  · rintro p ⟨i, j, hi, hj, _, e⟩
    simp only [MatV.block, MatV.transposed, Mat.transposed] at hi hj e
    exact ⟨0 + j, k + i, by omega, by omega, by simp only [Triangle.region]; omega, e⟩

example : Ends (symmLeft (A.view : MatV ℤ) .upper B.view C) (heap ℤ) fun _ h1 => Ends (do
    symmLeft ((A.view : MatV ℤ).block 0 0 1 1) .upper ((B.view : MatV ℤ).block 0 0 1 3) (C.block 0 0 1 3)
    gemmUpdate ((A.view : MatV ℤ).block 0 1 1 2) ((B.view : MatV ℤ).block 1 0 2 3) (C.block 0 0 1 3).view (C.block 0 0 1 3)
    symmLeft ((A.view : MatV ℤ).block 1 1 2 2) .upper ((B.view : MatV ℤ).block 1 0 2 3) (C.block 1 0 2 3)
    gemmUpdate ((A.view : MatV ℤ).block 0 1 1 2).transposed ((B.view : MatV ℤ).block 0 0 1 3) (C.block 1 0 2 3).view (C.block 1 0 2 3)) (heap ℤ) fun _ h2 => h1 = h2 :=
  C73_symm_left_upper_blocks _ _ _ _ _ _ 3 3 1 (mholdsV bA) (mholdsV bB) (malloc bC) rfl rfl rfl rfl rfl rfl (by view_facts)
    (by view_facts) (by view_facts) (by decide)

/-- **C73** `symmetric_matrix_product(B, A, lower_triangle, C)` in blocks. -/
theorem C73_symm_right_lower_blocks [NonUnitalNonAssocSemiring α] (A B : MatV α) (C : Mat) (h : Heap α)
    (a b : Nat → Nat → α) (n m k : Nat) (hA : A.HoldsOn h Triangle.lower.region a) (hB : B.Holds h b) (hC : C.Alloc h)
    (hr : A.rows = n) (hc : A.cols = n) (hBr : B.rows = m) (hBc : B.cols = n) (hCr : C.rows = m) (hCc : C.cols = n)
    (hu : C.Unique) (hAC : Apart (A.toMat.CellOn Triangle.lower.region) C.Cell) (hBC : Apart B.toMat.Cell C.Cell)
    (hk : k ≤ n) :
    Ends (symmRight B A .lower C) h fun _ h1 => Ends (do
        symmRight (B.block 0 0 m k) (A.block 0 0 k k) .lower (C.block 0 0 m k)
        gemmUpdate (B.block 0 k m (n - k)) (A.block k 0 (n - k) k) (C.block 0 0 m k).view (C.block 0 0 m k)
        symmRight (B.block 0 k m (n - k)) (A.block k k (n - k) (n - k)) .lower (C.block 0 k m (n - k))
        gemmUpdate (B.block 0 0 m k) (A.block k 0 (n - k) k).transposed (C.block 0 k m (n - k)).view (C.block 0 k m (n - k))) h
      fun _ h2 => h1 = h2 := by
  refine rightProduct_blocks (fun B A C => symmRight B A .lower C) Triangle.lower.region (symOf .lower)
    (fun A B C h a b => C32_symm_right B A .lower C h a b) A _ _ B C h a b n m k
    (fun s i j => by simp only [Triangle.region]; omega) (fun i j => (symOf_shift _ a k i j).symm) hA hB hC hr hc hBr hBc hCr hCc
    hu hAC hBC hk rfl rfl rfl rfl ?_ ?_ ?_ ?_
  · intro i j hi hj _
    simp only [MatV.block, MatV.transposed, Mat.transposed] at hi hj
    obtain ⟨w, hw, e⟩ := hA (k + j) (0 + i) (by omega) (by omega) (by simp only [Triangle.region]; omega)
    exact ⟨w, hw, e.trans (by beta_reduce; rw [(symOf_off a).1 rfl hi, Nat.zero_add])⟩
  · intro i j hi hj _
    simp only [MatV.block] at hi hj
    obtain ⟨w, hw, e⟩ := hA (k + i) (0 + j) (by omega) (by omega) (by simp only [Triangle.region]; omega)
    exact ⟨w, hw, e.trans (by beta_reduce; rw [(symOf_off a).2.1 rfl hj, Nat.zero_add])⟩
  · rintro p ⟨i, j, hi, hj, _, e⟩
    simp only [MatV.block, MatV.transposed, Mat.transposed] at hi hj e
    exact ⟨k + j, 0 + i, by omega, by omega, by simp only [Triangle.region]; omega, e⟩
  · rintro p ⟨i, j, hi, hj, _, e⟩
    simp only [MatV.block] at hi hj e
    exact ⟨k + i, 0 + j, by omega, by omega, by simp only [Triangle.region]; omega, e⟩

example : Ends (symmRight B.view (A.view : MatV ℤ) .lower C) (heap ℤ) fun _ h1 => Ends (do
    symmRight ((B.view : MatV ℤ).block 0 0 3 2) ((A.view : MatV ℤ).block 0 0 2 2) .lower (C.block 0 0 3 2)
    gemmUpdate ((B.view : MatV ℤ).block 0 2 3 1) ((A.view : MatV ℤ).block 2 0 1 2) (C.block 0 0 3 2).view (C.block 0 0 3 2)
    symmRight ((B.view : MatV ℤ).block 0 2 3 1) ((A.view : MatV ℤ).block 2 2 1 1) .lower (C.block 0 2 3 1)
    gemmUpdate ((B.view : MatV ℤ).block 0 0 3 2) ((A.view : MatV ℤ).block 2 0 1 2).transposed (C.block 0 2 3 1).view (C.block 0 2 3 1)) (heap ℤ) fun _ h2 => h1 = h2 :=
  C73_symm_right_lower_blocks _ _ _ _ _ _ 3 3 2 (mholdsV bA) (mholdsV bB) (malloc bC) rfl rfl rfl rfl rfl rfl (by view_facts)
    (by view_facts) (by view_facts) (by decide)

/-- **C73** `symmetric_matrix_product(B, A, upper_triangle, C)` in blocks. -/
theorem C73_symm_right_upper_blocks [NonUnitalNonAssocSemiring α] (A B : MatV α) (C : Mat) (h : Heap α)
    (a b : Nat → Nat → α) (n m k : Nat) (hA : A.HoldsOn h Triangle.upper.region a) (hB : B.Holds h b) (hC : C.Alloc h)
    (hr : A.rows = n) (hc : A.cols = n) (hBr : B.rows = m) (hBc : B.cols = n) (hCr : C.rows = m) (hCc : C.cols = n)
    (hu : C.Unique) (hAC : Apart (A.toMat.CellOn Triangle.upper.region) C.Cell) (hBC : Apart B.toMat.Cell C.Cell)
    (hk : k ≤ n) :
    Ends (symmRight B A .upper C) h fun _ h1 => Ends (do
        symmRight (B.block 0 0 m k) (A.block 0 0 k k) .upper (C.block 0 0 m k)
        gemmUpdate (B.block 0 k m (n - k)) (A.block 0 k k (n - k)).transposed (C.block 0 0 m k).view (C.block 0 0 m k)
        symmRight (B.block 0 k m (n - k)) (A.block k k (n - k) (n - k)) .upper (C.block 0 k m (n - k))
        gemmUpdate (B.block 0 0 m k) (A.block 0 k k (n - k)) (C.block 0 k m (n - k)).view (C.block 0 k m (n - k))) h
      fun _ h2 => h1 = h2 := by
  refine rightProduct_blocks (fun B A C => symmRight B A .upper C) Triangle.upper.region (symOf .upper)
    (fun A B C h a b => C32_symm_right B A .upper C h a b) A _ _ B C h a b n m k
    (fun s i j => by simp only [Triangle.region]; omega) (fun i j => (symOf_shift _ a k i j).symm) hA hB hC hr hc hBr hBc hCr hCc
    hu hAC hBC hk rfl rfl rfl rfl ?_ ?_ ?_ ?_
  · intro i j hi hj _
    simp only [MatV.block] at hi hj
    obtain ⟨w, hw, e⟩ := hA (0 + i) (k + j) (by omega) (by omega) (by simp only [Triangle.region]; omega)
    exact ⟨w, hw, e.trans (by beta_reduce; rw [(symOf_off a).2.2.1 rfl hi, Nat.zero_add])⟩
  · intro i j hi hj _
    simp only [MatV.block, MatV.transposed, Mat.transposed] at hi hj
    obtain ⟨w, hw, e⟩ := hA (0 + j) (k + i) (by omega) (by omega) (by simp only [Triangle.region]; omega)
    exact ⟨w, hw, e.trans (by beta_reduce; rw [(symOf_off a).2.2.2 rfl hj, Nat.zero_add])⟩
  · rintro p ⟨i, j, hi, hj, _, e⟩
    simp only [MatV.block] at hi hj e
    exact ⟨0 + i, k + j, by omega, by omega, by simp only [Triangle.region]; omega, e⟩
  · rintro p ⟨i, j, hi, hj, _, e⟩
    simp only [MatV.block, MatV.transposed, Mat.transposed] at hi hj e
    exact ⟨0 + j, k + i, by omega, by omega, by simp only [Triangle.region]; omega, e⟩

example : Ends (symmRight B.view (A.view : MatV ℤ) .upper C) (heap ℤ) fun _ h1 => Ends (do
    symmRight ((B.view : MatV ℤ).block 0 0 3 1) ((A.view : MatV ℤ).block 0 0 1 1) .upper (C.block 0 0 3 1)
    gemmUpdate ((B.view : MatV ℤ).block 0 1 3 2) ((A.view : MatV ℤ).block 0 1 1 2).transposed (C.block 0 0 3 1).view (C.block 0 0 3 1)
    symmRight ((B.view : MatV ℤ).block 0 1 3 2) ((A.view : MatV ℤ).block 1 1 2 2) .upper (C.block 0 1 3 2)
    gemmUpdate ((B.view : MatV ℤ).block 0 0 3 1) ((A.view : MatV ℤ).block 0 1 1 2) (C.block 0 1 3 2).view (C.block 0 1 3 2)) (heap ℤ) fun _ h2 => h1 = h2 :=
  C73_symm_right_upper_blocks _ _ _ _ _ _ 3 3 1 (mholdsV bA) (mholdsV bB) (malloc bC) rfl rfl rfl rfl rfl rfl (by view_facts)
    (by view_facts) (by view_facts) (by decide)

/-- **C73** `hermitian_matrix_product(A, lower_triangle, B, C)` in blocks. -/
theorem C73_hemm_left_lower_blocks [NonUnitalNonAssocSemiring α] [ConjOps α] (A B : MatV α) (C : Mat) (h : Heap α)
    (a b : Nat → Nat → α) (n m k : Nat) (hA : A.HoldsOn h Triangle.lower.region a) (hB : B.Holds h b) (hC : C.Alloc h)
    (hr : A.rows = n) (hc : A.cols = n) (hBr : B.rows = n) (hBc : B.cols = m) (hCr : C.rows = n) (hCc : C.cols = m)
    (hu : C.Unique) (hAC : Apart (A.toMat.CellOn Triangle.lower.region) C.Cell) (hBC : Apart B.toMat.Cell C.Cell)
    (hk : k ≤ n) :
    Ends (hemmLeft A .lower B C) h fun _ h1 => Ends (do
        hemmLeft (A.block 0 0 k k) .lower (B.block 0 0 k m) (C.block 0 0 k m)
        gemmUpdate (A.block k 0 (n - k) k).conjugateTransposed (B.block k 0 (n - k) m) (C.block 0 0 k m).view (C.block 0 0 k m)
        hemmLeft (A.block k k (n - k) (n - k)) .lower (B.block k 0 (n - k) m) (C.block k 0 (n - k) m)
        gemmUpdate (A.block k 0 (n - k) k) (B.block 0 0 k m) (C.block k 0 (n - k) m).view (C.block k 0 (n - k) m)) h
      fun _ h2 => h1 = h2 := by
  refine leftProduct_blocks (fun A B C => hemmLeft A .lower B C) Triangle.lower.region (hermOf .lower)
    (fun A B C h a b => C33_hemm_left A .lower B C h a b) A _ _ B C h a b n m k
    (fun s i j => by simp only [Triangle.region]; omega) (fun i j => (hermOf_shift _ a k i j).symm) hA hB hC hr hc hBr hBc hCr hCc
    hu hAC hBC hk rfl rfl rfl rfl ?_ ?_ ?_ ?_
  · intro i j hi hj _
    simp only [MatV.block, MatV.conjugateTransposed, MatV.conjugated, MatV.transposed, Mat.transposed] at hi hj
    obtain ⟨w, hw, e⟩ := hA (k + j) (0 + i) (by omega) (by omega) (by simp only [Triangle.region]; omega)
    exact ⟨w, hw, (congrArg ConjOps.conj e).trans (by beta_reduce; rw [(hermOf_off a).1 rfl hi, Nat.zero_add])⟩
  · intro i j hi hj _
    simp only [MatV.block] at hi hj
    obtain ⟨w, hw, e⟩ := hA (k + i) (0 + j) (by omega) (by omega) (by simp only [Triangle.region]; omega)
    exact ⟨w, hw, e.trans (by beta_reduce; rw [(hermOf_off a).2.1 rfl hj, Nat.zero_add])⟩
  · rintro p ⟨i, j, hi, hj, _, e⟩
    simp only [MatV.block, MatV.conjugateTransposed, MatV.conjugated, MatV.transposed, Mat.transposed] at hi hj e
    exact ⟨k + j, 0 + i, by omega, by omega, by simp only [Triangle.region]; omega, e⟩
  · rintro p ⟨i, j, hi, hj, _, e⟩
    simp only [MatV.block] at hi hj e
    exact ⟨k + i, 0 + j, by omega, by omega, by simp only [Triangle.region]; omega, e⟩

example : Ends (hemmLeft (A.view : MatV ℂ) .lower B.view C) (heap ℂ) fun _ h1 => Ends (do
    hemmLeft ((A.view : MatV ℂ).block 0 0 2 2) .lower ((B.view : MatV ℂ).block 0 0 2 3) (C.block 0 0 2 3)
    gemmUpdate ((A.view : MatV ℂ).block 2 0 1 2).conjugateTransposed ((B.view : MatV ℂ).block 2 0 1 3) (C.block 0 0 2 3).view (C.block 0 0 2 3)
    hemmLeft ((A.view : MatV ℂ).block 2 2 1 1) .lower ((B.view : MatV ℂ).block 2 0 1 3) (C.block 2 0 1 3)
    gemmUpdate ((A.view : MatV ℂ).block 2 0 1 2) ((B.view : MatV ℂ).block 0 0 2 3) (C.block 2 0 1 3).view (C.block 2 0 1 3)) (heap ℂ) fun _ h2 => h1 = h2 :=
  C73_hemm_left_lower_blocks _ _ _ _ _ _ 3 3 2 (mholdsV bA) (mholdsV bB) (malloc bC) rfl rfl rfl rfl rfl rfl (by view_facts)
    (by view_facts) (by view_facts) (by decide)

/-- **C73** `hermitian_matrix_product(A, upper_triangle, B, C)` in blocks. -/
theorem C73_hemm_left_upper_blocks [NonUnitalNonAssocSemiring α] [ConjOps α] (A B : MatV α) (C : Mat) (h : Heap α)
    (a b : Nat → Nat → α) (n m k : Nat) (hA : A.HoldsOn h Triangle.upper.region a) (hB : B.Holds h b) (hC : C.Alloc h)
    (hr : A.rows = n) (hc : A.cols = n) (hBr : B.rows = n) (hBc : B.cols = m) (hCr : C.rows = n) (hCc : C.cols = m)
    (hu : C.Unique) (hAC : Apart (A.toMat.CellOn Triangle.upper.region) C.Cell) (hBC : Apart B.toMat.Cell C.Cell)
    (hk : k ≤ n) :
    Ends (hemmLeft A .upper B C) h fun _ h1 => Ends (do
        hemmLeft (A.block 0 0 k k) .upper (B.block 0 0 k m) (C.block 0 0 k m)
        gemmUpdate (A.block 0 k k (n - k)) (B.block k 0 (n - k) m) (C.block 0 0 k m).view (C.block 0 0 k m)
        hemmLeft (A.block k k (n - k) (n - k)) .upper (B.block k 0 (n - k) m) (C.block k 0 (n - k) m)
        gemmUpdate (A.block 0 k k (n - k)).conjugateTransposed (B.block 0 0 k m) (C.block k 0 (n - k) m).view (C.block k 0 (n - k) m)) h
      fun _ h2 => h1 = h2 := by
  refine leftProduct_blocks (fun A B C => hemmLeft A .upper B C) Triangle.upper.region (hermOf .upper)
    (fun A B C h a b => C33_hemm_left A .upper B C h a b) A _ _ B C h a b n m k
    (fun s i j => by simp only [Triangle.region]; omega) (fun i j => (hermOf_shift _ a k i j).symm) hA hB hC hr hc hBr hBc hCr hCc
    hu hAC hBC hk rfl rfl rfl rfl ?_ ?_ ?_ ?_
  · intro i j hi hj _
    simp only [MatV.block] at hi hj
    obtain ⟨w, hw, e⟩ := hA (0 + i) (k + j) (by omega) (by omega) (by simp only [Triangle.region]; omega)
    exact ⟨w, hw, e.trans (by beta_reduce; rw [(hermOf_off a).2.2.1 rfl hi, Nat.zero_add])⟩
  · intro i j hi hj _
    simp only [MatV.block, MatV.conjugateTransposed, MatV.conjugated, MatV.transposed, Mat.transposed] at hi hj
    obtain ⟨w, hw, e⟩ := hA (0 + j) (k + i) (by omega) (by omega) (by simp only [Triangle.region]; omega)
    exact ⟨w, hw, (congrArg ConjOps.conj e).trans (by beta_reduce; rw [(hermOf_off a).2.2.2 rfl hj, Nat.zero_add])⟩
  · rintro p ⟨i, j, hi, hj, _, e⟩
    simp only [MatV.block] at hi hj e
    exact ⟨0 + i, k + j, by omega, by omega, by simp only [Triangle.region]; omega, e⟩
  · rintro p ⟨i, j, hi, hj, _, e⟩
    simp only [MatV.block, MatV.conjugateTransposed, MatV.conjugated, MatV.transposed, Mat.transposed] at hi hj e
    exact ⟨0 + j, k + i, by omega, by omega, by simp only [Triangle.region]; omega, e⟩

example : Ends (hemmLeft (A.view : MatV ℂ) .upper B.view C) (heap ℂ) fun _ h1 => Ends (do
    hemmLeft ((A.view : MatV ℂ).block 0 0 1 1) .upper ((B.view : MatV ℂ).block 0 0 1 3) (C.block 0 0 1 3)
    gemmUpdate ((A.view : MatV ℂ).block 0 1 1 2) ((B.view : MatV ℂ).block 1 0 2 3) (C.block 0 0 1 3).view (C.block 0 0 1 3)
    hemmLeft ((A.view : MatV ℂ).block 1 1 2 2) .upper ((B.view : MatV ℂ).block 1 0 2 3) (C.block 1 0 2 3)
    gemmUpdate ((A.view : MatV ℂ).block 0 1 1 2).conjugateTransposed ((B.view : MatV ℂ).block 0 0 1 3) (C.block 1 0 2 3).view (C.block 1 0 2 3)) (heap ℂ) fun _ h2 => h1 = h2 :=
  C73_hemm_left_upper_blocks _ _ _ _ _ _ 3 3 1 (mholdsV bA) (mholdsV bB) (malloc bC) rfl rfl rfl rfl rfl rfl (by view_facts)
    (by view_facts) (by view_facts) (by decide)

/-- **C73** `hermitian_matrix_product(B, A, lower_triangle, C)` in blocks. -/
theorem C73_hemm_right_lower_blocks [NonUnitalNonAssocSemiring α] [ConjOps α] (A B : MatV α) (C : Mat) (h : Heap α)
    (a b : Nat → Nat → α) (n m k : Nat) (hA : A.HoldsOn h Triangle.lower.region a) (hB : B.Holds h b) (hC : C.Alloc h)
    (hr : A.rows = n) (hc : A.cols = n) (hBr : B.rows = m) (hBc : B.cols = n) (hCr : C.rows = m) (hCc : C.cols = n)
    (hu : C.Unique) (hAC : Apart (A.toMat.CellOn Triangle.lower.region) C.Cell) (hBC : Apart B.toMat.Cell C.Cell)
    (hk : k ≤ n) :
    Ends (hemmRight B A .lower C) h fun _ h1 => Ends (do
        hemmRight (B.block 0 0 m k) (A.block 0 0 k k) .lower (C.block 0 0 m k)
        gemmUpdate (B.block 0 k m (n - k)) (A.block k 0 (n - k) k) (C.block 0 0 m k).view (C.block 0 0 m k)
        hemmRight (B.block 0 k m (n - k)) (A.block k k (n - k) (n - k)) .lower (C.block 0 k m (n - k))
        gemmUpdate (B.block 0 0 m k) (A.block k 0 (n - k) k).conjugateTransposed (C.block 0 k m (n - k)).view (C.block 0 k m (n - k))) h
      fun _ h2 => h1 = h2 := by
  refine rightProduct_blocks (fun B A C => hemmRight B A .lower C) Triangle.lower.region (storedDiag .lower)
    (fun A B C h a b => C33_hemm_right_uses_stored_diagonal B A .lower C h a b) A _ _ B C h a b n m k
    (fun s i j => by simp only [Triangle.region]; omega) (fun i j => (storedDiag_shift _ a k i j).symm) hA hB hC hr hc hBr hBc hCr hCc
    hu hAC hBC hk rfl rfl rfl rfl ?_ ?_ ?_ ?_
  · intro i j hi hj _
    simp only [MatV.block, MatV.conjugateTransposed, MatV.conjugated, MatV.transposed, Mat.transposed] at hi hj
    obtain ⟨w, hw, e⟩ := hA (k + j) (0 + i) (by omega) (by omega) (by simp only [Triangle.region]; omega)
    exact ⟨w, hw, (congrArg ConjOps.conj e).trans (by beta_reduce; rw [(storedDiag_off a).1 rfl hi, Nat.zero_add])⟩
  · intro i j hi hj _
    simp only [MatV.block] at hi hj
    obtain ⟨w, hw, e⟩ := hA (k + i) (0 + j) (by omega) (by omega) (by simp only [Triangle.region]; omega)
    exact ⟨w, hw, e.trans (by beta_reduce; rw [(storedDiag_off a).2.1 rfl hj, Nat.zero_add])⟩
  · rintro p ⟨i, j, hi, hj, _, e⟩
    simp only [MatV.block, MatV.conjugateTransposed, MatV.conjugated, MatV.transposed, Mat.transposed] at hi hj e
    exact ⟨k + j, 0 + i, by omega, by omega, by simp only [Triangle.region]; omega, e⟩
  · rintro p ⟨i, j, hi, hj, _, e⟩
    simp only [MatV.block] at hi hj e
    exact ⟨k + i, 0 + j, by omega, by omega, by simp only [Triangle.region]; omega, e⟩

example : Ends (hemmRight B.view (A.view : MatV ℂ) .lower C) (heap ℂ) fun _ h1 => Ends (do
    hemmRight ((B.view : MatV ℂ).block 0 0 3 2) ((A.view : MatV ℂ).block 0 0 2 2) .lower (C.block 0 0 3 2)
    gemmUpdate ((B.view : MatV ℂ).block 0 2 3 1) ((A.view : MatV ℂ).block 2 0 1 2) (C.block 0 0 3 2).view (C.block 0 0 3 2)
    hemmRight ((B.view : MatV ℂ).block 0 2 3 1) ((A.view : MatV ℂ).block 2 2 1 1) .lower (C.block 0 2 3 1)
    gemmUpdate ((B.view : MatV ℂ).block 0 0 3 2) ((A.view : MatV ℂ).block 2 0 1 2).conjugateTransposed (C.block 0 2 3 1).view (C.block 0 2 3 1)) (heap ℂ) fun _ h2 => h1 = h2 :=
  C73_hemm_right_lower_blocks _ _ _ _ _ _ 3 3 2 (mholdsV bA) (mholdsV bB) (malloc bC) rfl rfl rfl rfl rfl rfl (by view_facts)
    (by view_facts) (by view_facts) (by decide)

/-- **C73** `hermitian_matrix_product(B, A, upper_triangle, C)` in blocks. -/
theorem C73_hemm_right_upper_blocks [NonUnitalNonAssocSemiring α] [ConjOps α] (A B : MatV α) (C : Mat) (h : Heap α)
    (a b : Nat → Nat → α) (n m k : Nat) (hA : A.HoldsOn h Triangle.upper.region a) (hB : B.Holds h b) (hC : C.Alloc h)
    (hr : A.rows = n) (hc : A.cols = n) (hBr : B.rows = m) (hBc : B.cols = n) (hCr : C.rows = m) (hCc : C.cols = n)
    (hu : C.Unique) (hAC : Apart (A.toMat.CellOn Triangle.upper.region) C.Cell) (hBC : Apart B.toMat.Cell C.Cell)
    (hk : k ≤ n) :
    Ends (hemmRight B A .upper C) h fun _ h1 => Ends (do
        hemmRight (B.block 0 0 m k) (A.block 0 0 k k) .upper (C.block 0 0 m k)
        gemmUpdate (B.block 0 k m (n - k)) (A.block 0 k k (n - k)).conjugateTransposed (C.block 0 0 m k).view (C.block 0 0 m k)
        hemmRight (B.block 0 k m (n - k)) (A.block k k (n - k) (n - k)) .upper (C.block 0 k m (n - k))
        gemmUpdate (B.block 0 0 m k) (A.block 0 k k (n - k)) (C.block 0 k m (n - k)).view (C.block 0 k m (n - k))) h
      fun _ h2 => h1 = h2 := by
  refine rightProduct_blocks (fun B A C => hemmRight B A .upper C) Triangle.upper.region (storedDiag .upper)
    (fun A B C h a b => C33_hemm_right_uses_stored_diagonal B A .upper C h a b) A _ _ B C h a b n m k
    (fun s i j => by simp only [Triangle.region]; omega) (fun i j => (storedDiag_shift _ a k i j).symm) hA hB hC hr hc hBr hBc hCr hCc
    hu hAC hBC hk rfl rfl rfl rfl ?_ ?_ ?_ ?_
  · intro i j hi hj _
    simp only [MatV.block] at hi hj
    obtain ⟨w, hw, e⟩ := hA (0 + i) (k + j) (by omega) (by omega) (by simp only [Triangle.region]; omega)
    exact ⟨w, hw, e.trans (by beta_reduce; rw [(storedDiag_off a).2.2.1 rfl hi, Nat.zero_add])⟩
  · intro i j hi hj _
    simp only [MatV.block, MatV.conjugateTransposed, MatV.conjugated, MatV.transposed, Mat.transposed] at hi hj
    obtain ⟨w, hw, e⟩ := hA (0 + j) (k + i) (by omega) (by omega) (by simp only [Triangle.region]; omega)
    exact ⟨w, hw, (congrArg ConjOps.conj e).trans (by beta_reduce; rw [(storedDiag_off a).2.2.2 rfl hj, Nat.zero_add])⟩
  · rintro p ⟨i, j, hi, hj, _, e⟩
    simp only [MatV.block] at hi hj e
    exact ⟨0 + i, k + j, by omega, by omega, by simp only [Triangle.region]; omega, e⟩
  · rintro p ⟨i, j, hi, hj, _, e⟩
    simp only [MatV.block, MatV.conjugateTransposed, MatV.conjugated, MatV.transposed, Mat.transposed] at hi hj e
    exact ⟨0 + j, k + i, by omega, by omega, by simp only [Triangle.region]; omega, e⟩

example : Ends (hemmRight B.view (A.view : MatV ℂ) .upper C) (heap ℂ) fun _ h1 => Ends (do
    hemmRight ((B.view : MatV ℂ).block 0 0 3 1) ((A.view : MatV ℂ).block 0 0 1 1) .upper (C.block 0 0 3 1)
    gemmUpdate ((B.view : MatV ℂ).block 0 1 3 2) ((A.view : MatV ℂ).block 0 1 1 2).conjugateTransposed (C.block 0 0 3 1).view (C.block 0 0 3 1)
    hemmRight ((B.view : MatV ℂ).block 0 1 3 2) ((A.view : MatV ℂ).block 1 1 2 2) .upper (C.block 0 1 3 2)
    gemmUpdate ((B.view : MatV ℂ).block 0 0 3 1) ((A.view : MatV ℂ).block 0 1 1 2) (C.block 0 1 3 2).view (C.block 0 1 3 2)) (heap ℂ) fun _ h2 => h1 = h2 :=
  C73_hemm_right_upper_blocks _ _ _ _ _ _ 3 3 1 (mholdsV bA) (mholdsV bB) (malloc bC) rfl rfl rfl rfl rfl rfl (by view_facts)
    (by view_facts) (by view_facts) (by decide)

end StdBLAS

import Verif.Props.Solver
import Verif.Props.BlocksSolve

/-!
# Property C75: LU factorisation by blocks

Factor the leading block, triangular solves for the blocks below it and to its right, a matrix product for the
trailing block, factor that.
-/

namespace StdBLAS
open Finset Witness
variable {α : Type}

/-- LU factorisation without interchanges, in place, with blocks of the sizes `ks` (the rest as one block). -/
noncomputable def blockLU [Field α] : List Nat → Mat → Nat → Prog α Unit
  | [], A, n => luFactor A n
  | k :: ks, A, n => do
    luFactor (A.block 0 0 k k) k
    trsmRight (A.block 0 0 k k).view .upper .explicit (A.block k 0 (n - k) k).view (A.block k 0 (n - k) k)
    trsmLeft (A.block 0 0 k k).view .lower .implicitUnit (A.block 0 k k (n - k)).view (A.block 0 k k (n - k))
    gemmUpdate ((A.block k 0 (n - k) k).view.scaled (-1)) (A.block 0 k k (n - k)).view
      (A.block k k (n - k) (n - k)).view (A.block k k (n - k) (n - k))
    blockLU ks (A.block k k (n - k) (n - k)) (n - k)

/-- **C75** Blocked LU factorisation: for all block sizes the array holds afterwards the factors that
C75_lu names. -/
theorem C75_block_lu [Field α] (ks : List Nat) (A : Mat) (n : Nat) (h : Heap α) (a l u : Nat → Nat → α)
    (hks : ks.sum ≤ n) (hA : A.Holds h a) (hr : A.rows = n) (hc : A.cols = n) (hu : A.Unique)
    (ha : ∀ i j, i < n → j < n →
      a i j = mulMat n (triOf .lower .implicitUnit l) (triOf .upper .explicit u) i j)
    (hnz : ∀ k, k < n → u k k ≠ 0) :
    Ends (blockLU ks A n) h fun _ h' =>
      A.Becomes h h' fun i j => if j < i then l i j else u i j := by
  induction ks generalizing A n h a l u with
  | nil => exact C75_lu A n h a l u hA hr hc hu ha hnz
  | cons k ks ih =>
    simp only [List.sum_cons] at hks
    have split : ∀ i j, mulMat n (triOf .lower .implicitUnit l) (triOf .upper .explicit u) i j =
        ∑ m ∈ range k, triOf .lower .implicitUnit l i m * triOf .upper .explicit u m j +
        ∑ m ∈ range (n - k), triOf .lower .implicitUnit l i (k + m) * triOf .upper .explicit u (k + m) j :=
      fun i j => by
        unfold mulMat
        conv_lhs => rw [show n = k + (n - k) by omega, sum_range_add]
    have front : ∀ i j, i < n → j < n → i < k ∨ j < k → a i j =
        ∑ m ∈ range k, triOf .lower .implicitUnit l i m * triOf .upper .explicit u m j := fun i j hi hj q => by
      rw [ha i j hi hj, split, sum_eq_zero (s := range (n - k)) fun m _ => ?_, add_zero]
      rcases q with q | q
      · rw [triOf_zero _ _ _ (by omega) (by simp only [Triangle.region]; omega), zero_mul]
      · rw [triOf_zero .upper _ _ (by omega) (by simp only [Triangle.region]; omega), mul_zero]
    have cell : ∀ {s t r c}, s + r ≤ n → t + c ≤ n → ∀ p, (A.block s t r c).Cell p → A.Cell p :=
      fun hs ht p => Mat.block_cell (by omega) (by omega)
    have apart : ∀ {s t r c s' t' r' c'}, s + r ≤ n → t + c ≤ n → s' + r' ≤ n → t' + c' ≤ n →
        (s + r ≤ s' ∨ s' + r' ≤ s ∨ t + c ≤ t' ∨ t' + c' ≤ t) →
        Apart (A.block s t r c).Cell (A.block s' t' r' c').Cell := by
      rintro s t r c s' t' r' c' h1 h2 h3 h4 q p ⟨i, j, hi, hj, _, e⟩ ⟨i', j', hi', hj', _, e'⟩
      simp only [Mat.block] at hi hj hi' hj' e e'
      have := hu _ _ _ _ (by omega) (by omega) trivial (by omega) (by omega) trivial (e.trans e'.symm)
      omega
    have uniq : ∀ {s t r c}, s + r ≤ n → t + c ≤ n → (A.block s t r c).Unique :=
      fun hs ht => hu.block (by omega) (by omega)
    have start : ∀ {s t r c}, s + r ≤ n → t + c ≤ n → (A.block s t r c).Holds h fun i j => a (s + i) (t + j) :=
      fun hs ht i j hi hj _ => hA _ _ (by simp only [Mat.block] at hi; omega)
        (by simp only [Mat.block] at hj; omega) trivial
    unfold blockLU
    rw [ends_bind]
    refine (C75_lu (A.block 0 0 k k) k h (fun i j => a (0 + i) (0 + j)) l u (start (by omega) (by omega)) rfl rfl
      (uniq (by omega) (by omega)) (fun i j hi hj => ?_) (fun i hi => hnz i (by omega))).mono fun _ h1 b1 => ?_
    · rw [Nat.zero_add, Nat.zero_add]
      exact front i j (by omega) (by omega) (.inl hi)
    have sub11 : ∀ {R : Region} p, (A.block 0 0 k k).CellOn R p → (A.block 0 0 k k).Cell p :=
      fun p ⟨i, j, hi, hj, _, e⟩ => ⟨i, j, hi, hj, trivial, e⟩
    rw [ends_bind]
    have a1121 : Apart (A.block 0 0 k k).Cell (A.block k 0 (n - k) k).Cell :=
      apart (by omega) (by omega) (by omega) (by omega) (by omega)
    have h21 : (A.block k 0 (n - k) k).Holds h1 fun i j => a (k + i) (0 + j) :=
      Mat.Holds.of_onlyChanges (start (by omega) (by omega)) (fun p hp hq => a1121 p hq hp) b1.2
    refine (C37_trsm_right (A.block 0 0 k k).view .upper .explicit (A.block k 0 (n - k) k).view
      (A.block k 0 (n - k) k) h1 u (fun i j => a (k + i) (0 + j)) (fun i j hi hj hij => ?_) h21.viewHolds h21.alloc
      rfl rfl rfl rfl (uniq (by omega) (by omega)) (fun p hp hq => a1121 p (sub11 p hp) hq)
      (uniq (by omega) (by omega)).aligned (fun _ i hi w => ?_)).mono ?_
    · refine ⟨_, b1.1 i j hi hj trivial, ?_⟩
      have : i ≤ j := hij.1
      simp only [show ¬j < i by omega, if_false]
      rfl
    · have hi : i < k := hi
      have := hnz i (by omega)
      exact ⟨div_mul_cancel₀ w this, mul_div_cancel_right₀ w this⟩
    rintro _ h2 ⟨x, b2, -, ux⟩
    have ex : ∀ i j, i < n - k → j < k → l (k + i) j = x i j := by
      refine ux (fun i j => l (k + i) j) fun i j hi hj => ?_
      have hi : i < n - k := hi
      have hj : j < k := hj
      rw [Nat.zero_add, front (k + i) j (by omega) (by omega) (.inr hj)]
      refine sum_congr rfl fun m hm => ?_
      have : m < k := mem_range.1 hm
      rw [triOf_stored .lower _ _ (by omega) (by simp only [Triangle.region]; omega)]
    have a1112 : Apart (A.block 0 0 k k).Cell (A.block 0 k k (n - k)).Cell :=
      apart (by omega) (by omega) (by omega) (by omega) (by omega)
    have a2112 : Apart (A.block k 0 (n - k) k).Cell (A.block 0 k k (n - k)).Cell :=
      apart (by omega) (by omega) (by omega) (by omega) (by omega)
    have h11 : (A.block 0 0 k k).Holds h2 fun i j => if j < i then l i j else u i j :=
      Mat.Holds.of_onlyChanges b1.1 a1121 b2.2
    have h12 : (A.block 0 k k (n - k)).Holds h2 fun i j => a (0 + i) (k + j) :=
      Mat.Holds.of_onlyChanges (Mat.Holds.of_onlyChanges (start (by omega) (by omega))
        (fun p hp hq => a1112 p hq hp) b1.2) (fun p hp hq => a2112 p hq hp) b2.2
    rw [ends_bind]
    refine (C37_trsm_left (A.block 0 0 k k).view .lower .implicitUnit (A.block 0 k k (n - k)).view
      (A.block 0 k k (n - k)) h2 l (fun i j => a (0 + i) (k + j)) (fun i j hi hj hij => ?_) h12.viewHolds h12.alloc
      rfl rfl rfl rfl (uniq (by omega) (by omega)) (fun p hp hq => a1112 p (sub11 p hp) hq)
      (uniq (by omega) (by omega)).aligned (fun hd => by simp at hd)).mono ?_
    · refine ⟨_, h11 i j hi hj trivial, ?_⟩
      have e1 : j ≤ i := hij.1
      have e2 := hij.2 rfl
      simp only [show j < i by omega, if_true]
      rfl
    rintro _ h3 ⟨y, b3, -, uy⟩
    have ey : ∀ i j, i < k → j < n - k → u i (k + j) = y i j := by
      refine uy (fun i j => u i (k + j)) fun i j hi hj => ?_
      have hi : i < k := hi
      have hj : j < n - k := hj
      rw [Nat.zero_add, front i (k + j) (by omega) (by omega) (.inl hi)]
      refine sum_congr rfl fun m hm => ?_
      have : m < k := mem_range.1 hm
      rw [triOf_stored .upper _ _ (by omega) (by simp only [Triangle.region]; omega)]
    have a1122 : Apart (A.block 0 0 k k).Cell (A.block k k (n - k) (n - k)).Cell :=
      apart (by omega) (by omega) (by omega) (by omega) (by omega)
    have a2122 : Apart (A.block k 0 (n - k) k).Cell (A.block k k (n - k) (n - k)).Cell :=
      apart (by omega) (by omega) (by omega) (by omega) (by omega)
    have a1222 : Apart (A.block 0 k k (n - k)).Cell (A.block k k (n - k) (n - k)).Cell :=
      apart (by omega) (by omega) (by omega) (by omega) (by omega)
    have h11' : (A.block 0 0 k k).Holds h3 fun i j => if j < i then l i j else u i j :=
      Mat.Holds.of_onlyChanges h11 a1112 b3.2
    have h21' : (A.block k 0 (n - k) k).Holds h3 x := Mat.Holds.of_onlyChanges b2.1 a2112 b3.2
    have h22 : (A.block k k (n - k) (n - k)).Holds h3 fun i j => a (k + i) (k + j) :=
      Mat.Holds.of_onlyChanges (Mat.Holds.of_onlyChanges (Mat.Holds.of_onlyChanges (start (by omega) (by omega))
        (fun p hp hq => a1122 p hq hp) b1.2) (fun p hp hq => a2122 p hq hp) b2.2)
        (fun p hp hq => a1222 p hq hp) b3.2
    rw [ends_bind]
    refine (C31_gemm_update ((A.block k 0 (n - k) k).view.scaled (-1)) (A.block 0 k k (n - k)).view
      (A.block k k (n - k) (n - k)).view (A.block k k (n - k) (n - k)) h3 (fun i j => -1 * x i j) y
      (fun i j => a (k + i) (k + j)) (fun i j hi hj _ => ⟨_, h21' i j hi hj trivial, rfl⟩)
      (Mat.Holds.viewHolds b3.1) h22.viewHolds h22.alloc rfl rfl rfl rfl rfl (uniq (by omega) (by omega))
      a2122 a1222 (uniq (by omega) (by omega)).aligned).mono fun _ h4 b4 => ?_
    refine (ih (A.block k k (n - k) (n - k)) (n - k) h4 _ (fun i j => l (k + i) (k + j))
      (fun i j => u (k + i) (k + j)) (by omega) b4.1 rfl rfl (uniq (by omega) (by omega)) (fun i j hi hj => ?_)
      (fun i hi => hnz _ (by omega))).mono fun _ h5 b5 => ?_
    · rw [ha (k + i) (k + j) (by omega) (by omega), split]
      have e1 : ∑ m ∈ range k, triOf .lower .implicitUnit l (k + i) m * triOf .upper .explicit u m (k + j) =
          ∑ m ∈ range k, x i m * y m j := sum_congr rfl fun m hm => by
        have : m < k := mem_range.1 hm
        rw [triOf_stored .lower _ _ (by omega) (by simp only [Triangle.region]; omega),
          triOf_stored .upper _ _ (by omega) (by simp only [Triangle.region]; omega), ex i m hi this, ey m j this hj]
      have e2 : mulMat k (fun i j => -1 * x i j) y i j = -∑ m ∈ range k, x i m * y m j := by
        unfold mulMat
        rw [← sum_neg_distrib]
        exact sum_congr rfl fun m _ => by ring
      refine (congrArg₂ (fun p q => p + ∑ m ∈ range (n - k), triOf .lower .implicitUnit l (k + i) (k + m) *
        triOf .upper .explicit u (k + m) (k + j) + q) e1 e2).trans ?_
      simp only [triOf_shift]
      unfold mulMat
      ring
    have g11 : (A.block 0 0 k k).Holds h5 fun i j => if j < i then l i j else u i j :=
      Mat.Holds.of_onlyChanges (Mat.Holds.of_onlyChanges h11' a1122 b4.2) a1122 b5.2
    have g21 : (A.block k 0 (n - k) k).Holds h5 x :=
      Mat.Holds.of_onlyChanges (Mat.Holds.of_onlyChanges h21' a2122 b4.2) a2122 b5.2
    have g12 : (A.block 0 k k (n - k)).Holds h5 y :=
      Mat.Holds.of_onlyChanges (Mat.Holds.of_onlyChanges b3.1 a1222 b4.2) a1222 b5.2
    refine ⟨fun i j hi hj _ => ?_, fun p hp => ?_⟩
    · beta_reduce
      by_cases hik : i < k
      · by_cases hjk : j < k
        · have := g11 i j hik hjk trivial
          simpa only [Mat.block, Nat.zero_add] using this
        · have := g12 i (j - k) hik (show j - k < n - k by omega) trivial
          simp only [Mat.block, Nat.zero_add, show k + (j - k) = j by omega] at this
          rw [this, ← ey i (j - k) hik (by omega), if_neg (by omega), show k + (j - k) = j by omega]
      · by_cases hjk : j < k
        · have := g21 (i - k) j (show i - k < n - k by omega) hjk trivial
          simp only [Mat.block, Nat.zero_add, show k + (i - k) = i by omega] at this
          rw [this, ← ex (i - k) j (by omega) hjk, if_pos (by omega), show k + (i - k) = i by omega]
        · have := b5.1 (i - k) (j - k) (show i - k < n - k by omega) (show j - k < n - k by omega) trivial
          simp only [Mat.block, show k + (i - k) = i by omega, show k + (j - k) = j by omega] at this
          rw [this]
          by_cases q : j < i
          · rw [if_pos q, if_pos (by omega)]
          · rw [if_neg q, if_neg (by omega)]
    · rw [b5.2 p fun q => hp (cell (by omega) (by omega) p q), b4.2 p fun q => hp (cell (by omega) (by omega) p q),
        b3.2 p fun q => hp (cell (by omega) (by omega) p q), b2.2 p fun q => hp (cell (by omega) (by omega) p q),
        b1.2 p fun q => hp (cell (by omega) (by omega) p q)]

example : Ends (blockLU [1, 1] (A.block 0 0 2 2) 2) (heap ℚ) fun _ h' =>
    (A.block 0 0 2 2).Becomes (heap ℚ) h' fun i j =>
      if j < i then 24 / 23 else if i = 1 then -3 / 23 else if j = 1 then 26 else 23 :=
  C75_block_lu _ _ 2 _ (mvals ℚ (A.block 0 0 2 2)) (fun _ _ => 24 / 23)
    (fun i j => if i = 1 then -3 / 23 else if j = 1 then 26 else 23) (by decide)
    (mholds fun i j hi hj => by simp only [A, Mat.block] at *; omega) rfl rfl
    (Mat.Unique.block (by view_facts) (by decide) (by decide))
    (fun i j hi hj => by
      interval_cases i <;> interval_cases j <;>
        simp [mulMat, sum_range_succ, tri_lower_unit, tri_upper, mvals, A, Mat.block]
      norm_num)
    (fun k hk => by interval_cases k <;> norm_num)

end StdBLAS

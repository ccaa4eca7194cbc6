import Verif.Props.Cholesky
import Verif.Props.BlocksSolve
import Verif.Props.RankUpdates

/-!
# Property C75: Cholesky factorisation by blocks

The factorisation as it is written for speed: factor the leading block, a triangular solve from the right for the
block below it, a symmetric rank-k update of the trailing block, factor that.
-/

namespace StdBLAS
open Finset Witness
variable {α : Type}

theorem tri_lower (s : Nat → Nat → ℝ) (i m : Nat) :
    triOf .lower .explicit s i m = if m ≤ i then s i m else 0 := by
  unfold triOf Triangle.region
  by_cases e : i = m
  · subst e; simp
  · rw [if_neg e]
    by_cases e' : m ≤ i
    · exact (if_pos e').trans (if_pos e').symm
    · exact (if_neg e').trans (if_neg e').symm

/-- The transposed system of a lower triangle with nonzero diagonal has a solution. -/
theorem tri_transposed_solvable (k : Nat) (l : Nat → Nat → ℝ) (hl : ∀ m, m < k → l m m ≠ 0) (t : Nat → ℝ) :
    ∃ z : Nat → ℝ, ∀ m, m < k → ∑ i ∈ range k, triOf .lower .explicit l i m * z i = t m := by
  have : ∀ r, r ≤ k → ∃ z : Nat → ℝ, ∀ m, k - r ≤ m → m < k →
      ∑ i ∈ range k, triOf .lower .explicit l i m * z i = t m := by
    intro r
    induction r with
    | zero => exact fun _ => ⟨fun _ => 0, fun m h1 h2 => by omega⟩
    | succ r ih =>
      intro hr
      obtain ⟨z, hz⟩ := ih (by omega)
      set q := k - (r + 1) with hq
      refine ⟨fun i => z i + if i = q then
        (t q - ∑ i ∈ range k, triOf .lower .explicit l i q * z i) / l q q else 0, fun m h1 h2 => ?_⟩
      simp only [mul_add, sum_add_distrib, mul_ite, mul_zero, sum_ite_eq', mem_range,
        show q < k from by omega, if_true]
      rcases Nat.eq_or_lt_of_le h1 with e | e
      · subst e
        rw [tri_lower l q q, if_pos le_rfl, mul_div_cancel₀ _ (hl q (by omega))]
        ring
      · rw [tri_lower l q m, if_neg (by omega), zero_mul, add_zero]
        exact hz m (by omega) h2
  obtain ⟨z, hz⟩ := this k le_rfl
  exact ⟨z, fun m hm => hz m (by omega) hm⟩

/-- The factor of the leading rows. -/
noncomputable def frontFactor (k : Nat) (l1 x : Nat → Nat → ℝ) (i m : Nat) : ℝ :=
  if i < k then triOf .lower .explicit l1 i m else x (i - k) m

theorem symOf_lower_comm (s : Nat → Nat → ℝ) (i j : Nat) : symOf .lower s i j = symOf .lower s j i := by
  rw [symOf_lower_eq, symOf_lower_eq]
  rcases Nat.lt_trichotomy i j with e | e | e
  · rw [if_neg (by omega), if_pos (by omega)]
  · rw [e]
  · rw [if_pos (by omega), if_neg (by omega)]

/-- The matrix is the product of the front factor and its transpose, plus the trailing block. -/
theorem front_eq {n k : Nat} {a l1 x s : Nat → Nat → ℝ}
    (e11 : ∀ i j, i < k → j < k → ∑ m ∈ range k, triOf .lower .explicit l1 i m * triOf .lower .explicit l1 j m =
      symOf .lower a i j)
    (e21 : ∀ i j, i < n - k → j < k → ∑ m ∈ range k, x i m * triOf .lower .explicit l1 j m = a (k + i) j)
    (e22 : ∀ i j, i < n - k → j ≤ i → s i j = a (k + i) (k + j) - ∑ m ∈ range k, x i m * x j m) :
    ∀ i j, i < n → j < n → symOf .lower a i j = ∑ m ∈ range k, frontFactor k l1 x i m * frontFactor k l1 x j m +
      if k ≤ i ∧ k ≤ j then symOf .lower s (i - k) (j - k) else 0 := by
  have low : ∀ i j, i < n → j ≤ i → symOf .lower a i j =
      ∑ m ∈ range k, frontFactor k l1 x i m * frontFactor k l1 x j m +
        if k ≤ i ∧ k ≤ j then symOf .lower s (i - k) (j - k) else 0 := by
    intro i j hi hij
    unfold frontFactor
    by_cases hik : i < k
    · rw [if_neg (by omega), add_zero, ← e11 i j hik (by omega)]
      exact sum_congr rfl fun m _ => by rw [if_pos hik, if_pos (by omega)]
    · by_cases hjk : j < k
      · rw [if_neg (by omega), add_zero, symOf_lower_eq, if_pos hij]
        have := e21 (i - k) j (by omega) hjk
        rw [show k + (i - k) = i by omega] at this
        rw [← this]
        exact sum_congr rfl fun m _ => by rw [if_neg hik, if_pos hjk]
      · have := e22 (i - k) (j - k) (by omega) (by omega)
        rw [show k + (i - k) = i by omega, show k + (j - k) = j by omega] at this
        rw [if_pos ⟨by omega, by omega⟩, symOf_lower_eq, if_pos hij, symOf_lower_eq, if_pos (by omega), this]
        simp only [hik, hjk, if_false]
        ring
  intro i j hi hj
  rcases Nat.le_total j i with q | q
  · exact low i j hi q
  · rw [symOf_lower_comm, low j i hj q]
    congr 1
    · exact sum_congr rfl fun m _ => mul_comm ..
    · by_cases r : k ≤ i ∧ k ≤ j
      · rw [if_pos r, if_pos r.symm, symOf_lower_comm]
      · rw [if_neg r, if_neg fun t => r t.symm]

/-- What is left for the trailing block is positive definite. -/
theorem trailing_posdef {n k : Nat} {a l1 x s : Nat → Nat → ℝ} (hk : k ≤ n)
    (hpd : ∀ w : Nat → ℝ, (∃ i, i < n ∧ w i ≠ 0) →
      0 < ∑ i ∈ range n, ∑ j ∈ range n, symOf .lower a i j * w i * w j)
    (hl : ∀ m, m < k → l1 m m ≠ 0)
    (F : ∀ i j, i < n → j < n → symOf .lower a i j =
      ∑ m ∈ range k, frontFactor k l1 x i m * frontFactor k l1 x j m +
        if k ≤ i ∧ k ≤ j then symOf .lower s (i - k) (j - k) else 0) :
    ∀ w : Nat → ℝ, (∃ i, i < n - k ∧ w i ≠ 0) →
      0 < ∑ i ∈ range (n - k), ∑ j ∈ range (n - k), symOf .lower s i j * w i * w j := by
  rintro w ⟨i0, hi0, hw⟩
  obtain ⟨z1, hz1⟩ := tri_transposed_solvable k l1 hl fun m => -∑ i ∈ range (n - k), x i m * w i
  set z : Nat → ℝ := fun i => if i < k then z1 i else w (i - k) with hz
  have zlt : ∀ i, i < k → z i = z1 i := fun i hi => if_pos hi
  have zge : ∀ i, z (k + i) = w i := fun i => by
    rw [hz]
    simp only [show ¬k + i < k by omega, if_false, Nat.add_sub_cancel_left]
  have pos := hpd z ⟨k + i0, by omega, by rw [zge]; exact hw⟩
  have split : ∀ f : Nat → ℝ, ∑ i ∈ range n, f i = ∑ i ∈ range k, f i + ∑ i ∈ range (n - k), f (k + i) :=
    fun f => by
      conv_lhs => rw [show n = k + (n - k) by omega, sum_range_add]
  have col : ∀ m, m < k → ∑ i ∈ range n, frontFactor k l1 x i m * z i = 0 := fun m hm => by
    rw [split]
    have e1 : ∑ i ∈ range k, frontFactor k l1 x i m * z i = -∑ i ∈ range (n - k), x i m * w i := by
      rw [← hz1 m hm]
      refine sum_congr rfl fun i hi => ?_
      have := mem_range.1 hi
      rw [zlt i this, frontFactor, if_pos this]
    have e2 : ∑ i ∈ range (n - k), frontFactor k l1 x (k + i) m * z (k + i) = ∑ i ∈ range (n - k), x i m * w i :=
      sum_congr rfl fun i _ => by
        rw [zge, frontFactor, if_neg (by omega), Nat.add_sub_cancel_left]
    rw [e1, e2]
    ring
  have quad : ∑ i ∈ range n, ∑ j ∈ range n, symOf .lower a i j * z i * z j =
      ∑ m ∈ range k, (∑ i ∈ range n, frontFactor k l1 x i m * z i) *
        (∑ j ∈ range n, frontFactor k l1 x j m * z j) +
      ∑ i ∈ range n, ∑ j ∈ range n,
        (if k ≤ i ∧ k ≤ j then symOf .lower s (i - k) (j - k) else 0) * z i * z j := by
    simp only [sum_mul_sum]
    rw [sum_comm (s := range k), ← sum_add_distrib]
    refine sum_congr rfl fun i hi => ?_
    rw [sum_comm (s := range k), ← sum_add_distrib]
    refine sum_congr rfl fun j hj => ?_
    rw [F i j (mem_range.1 hi) (mem_range.1 hj), add_mul, add_mul, sum_mul, sum_mul]
    congr 1
    exact sum_congr rfl fun m _ => by ring
  have zero : ∑ m ∈ range k, (∑ i ∈ range n, frontFactor k l1 x i m * z i) *
        (∑ j ∈ range n, frontFactor k l1 x j m * z j) = 0 :=
    sum_eq_zero fun m hm => by rw [col m (mem_range.1 hm), zero_mul]
  rw [quad, zero, zero_add, split] at pos
  rw [sum_eq_zero (s := range k) fun i hi => sum_eq_zero fun j _ => by
    rw [if_neg fun q => by have := mem_range.1 hi; omega, zero_mul, zero_mul], zero_add] at pos
  refine pos.trans_eq (sum_congr rfl fun i _ => ?_)
  rw [split, sum_eq_zero (s := range k) fun j hj => by
    rw [if_neg fun q => by have := mem_range.1 hj; omega, zero_mul, zero_mul], zero_add]
  refine sum_congr rfl fun j _ => ?_
  rw [if_pos ⟨by omega, by omega⟩, zge, zge, Nat.add_sub_cancel_left, Nat.add_sub_cancel_left]

/-- Cholesky factorisation of the lower triangle of `A` in place with blocks of the sizes `ks` (the rest as one
block). -/
noncomputable def blockCholesky : List Nat → Mat → Nat → Prog ℝ Unit
  | [], A, n => cholesky A n
  | k :: ks, A, n => do
    cholesky (A.block 0 0 k k) k
    trsmRight (A.block 0 0 k k).view.transposed .upper .explicit (A.block k 0 (n - k) k).view
      (A.block k 0 (n - k) k)
    syrkAlpha (-1) (A.block k 0 (n - k) k).view (A.block k k (n - k) (n - k)) .lower
    blockCholesky ks (A.block k k (n - k) (n - k)) (n - k)

/-- **C75** Blocked Cholesky factorisation: for all block sizes and every positive definite matrix the lower
triangle of the array holds the factor `L` with positive diagonal and `L Lᵀ = A`; the upper triangle is neither
read nor written. -/
theorem C75_block_cholesky (ks : List Nat) (A : Mat) (n : Nat) (h : Heap ℝ) (a : Nat → Nat → ℝ)
    (hks : ks.sum ≤ n) (hA : A.HoldsOn h Triangle.lower.region a) (hr : A.rows = n) (hc : A.cols = n)
    (hu : A.UniqueOn Triangle.lower.region)
    (hpd : ∀ w : Nat → ℝ, (∃ i, i < n ∧ w i ≠ 0) →
      0 < ∑ i ∈ range n, ∑ j ∈ range n, symOf .lower a i j * w i * w j) :
    Ends (blockCholesky ks A n) h fun _ h' => ∃ l,
      A.BecomesOn h h' Triangle.lower.region l ∧ (∀ k, k < n → 0 < l k k) ∧
      ∀ i j, i < n → j < n → ∑ m ∈ range n,
        triOf .lower .explicit l i m * triOf .lower .explicit l j m = symOf .lower a i j := by
  induction ks generalizing A n h a with
  | nil => exact C75_cholesky A n h a hA hr hc hu hpd
  | cons k ks ih =>
    simp only [List.sum_cons] at hks
    have low : ∀ i j, lowerTri i j ↔ j ≤ i := fun i j => Iff.rfl
    have c11 : ∀ p, (A.block 0 0 k k).CellOn lowerTri p → A.CellOn lowerTri p := by
      rintro p ⟨i, j, hi, hj, hij, e⟩
      simp only [Mat.block, low] at hi hj hij e
      exact ⟨0 + i, 0 + j, by omega, by omega, (low _ _).2 (by omega), e⟩
    have c21 : ∀ p, (A.block k 0 (n - k) k).Cell p → A.CellOn lowerTri p := by
      rintro p ⟨i, j, hi, hj, hij, e⟩
      simp only [Mat.block] at hi hj e
      exact ⟨k + i, 0 + j, by omega, by omega, (low _ _).2 (by omega), e⟩
    have c22 : ∀ p, (A.block k k (n - k) (n - k)).CellOn lowerTri p → A.CellOn lowerTri p := by
      rintro p ⟨i, j, hi, hj, hij, e⟩
      simp only [Mat.block, low] at hi hj hij e
      exact ⟨k + i, k + j, by omega, by omega, (low _ _).2 (by omega), e⟩
    have d1121 : Apart ((A.block 0 0 k k).CellOn lowerTri) (A.block k 0 (n - k) k).Cell := by
      rintro p ⟨i, j, hi, hj, hij, e⟩ ⟨i', j', hi', hj', _, e'⟩
      simp only [Mat.block, low] at hi hj hij hi' hj' e e'
      have := hu _ _ _ _ (by omega) (by omega) ((low _ _).2 (by omega)) (by omega) (by omega)
        ((low _ _).2 (by omega)) (e.trans e'.symm)
      omega
    have d1122 : Apart ((A.block 0 0 k k).CellOn lowerTri) ((A.block k k (n - k) (n - k)).CellOn lowerTri) := by
      rintro p ⟨i, j, hi, hj, hij, e⟩ ⟨i', j', hi', hj', hij', e'⟩
      simp only [Mat.block, low] at hi hj hij hi' hj' hij' e e'
      have := hu _ _ _ _ (by omega) (by omega) ((low _ _).2 (by omega)) (by omega) (by omega)
        ((low _ _).2 (by omega)) (e.trans e'.symm)
      omega
    have d2122 : Apart (A.block k 0 (n - k) k).Cell ((A.block k k (n - k) (n - k)).CellOn lowerTri) := by
      rintro p ⟨i, j, hi, hj, _, e⟩ ⟨i', j', hi', hj', hij', e'⟩
      simp only [Mat.block, low] at hi hj hi' hj' hij' e e'
      have := hu _ _ _ _ (by omega) (by omega) ((low _ _).2 (by omega)) (by omega) (by omega)
        ((low _ _).2 (by omega)) (e.trans e'.symm)
      omega
    have u11 : (A.block 0 0 k k).UniqueOn lowerTri := by
      intro i j i' j' hi hj hij hi' hj' hij' e
      simp only [Mat.block, low] at hi hj hij hi' hj' hij' e
      have := hu _ _ _ _ (by omega) (by omega) ((low _ _).2 (by omega)) (by omega) (by omega)
        ((low _ _).2 (by omega)) e
      omega
    have u21 : (A.block k 0 (n - k) k).Unique := by
      intro i j i' j' hi hj _ hi' hj' _ e
      simp only [Mat.block] at hi hj hi' hj' e
      have := hu _ _ _ _ (by omega) (by omega) ((low _ _).2 (by omega)) (by omega) (by omega)
        ((low _ _).2 (by omega)) e
      omega
    have u22 : (A.block k k (n - k) (n - k)).UniqueOn lowerTri := by
      intro i j i' j' hi hj hij hi' hj' hij' e
      simp only [Mat.block, low] at hi hj hij hi' hj' hij' e
      have := hu _ _ _ _ (by omega) (by omega) ((low _ _).2 (by omega)) (by omega) (by omega)
        ((low _ _).2 (by omega)) e
      omega
    unfold blockCholesky
    rw [ends_bind]
    -- the leading block
    refine (C75_cholesky (A.block 0 0 k k) k h a (fun i j hi hj hij => ?_) rfl rfl u11 ?_).mono ?_
    · simp only [Mat.block] at hi hj
      have := hA i j (by omega) (by omega) hij
      simpa only [Mat.block, Nat.zero_add] using this
    · rintro w ⟨i, hi, hw⟩
      refine (hpd (fun i => if i < k then w i else 0) ⟨i, by omega, by simpa only [hi, if_true] using hw⟩).trans_eq ?_
      have split : ∀ f : Nat → ℝ, (∀ i, k ≤ i → f i = 0) → ∑ i ∈ range n, f i = ∑ i ∈ range k, f i := fun f hf => by
        conv_lhs => rw [show n = k + (n - k) by omega, sum_range_add]
        rw [sum_eq_zero (s := range (n - k)) fun i _ => hf _ (by omega), add_zero]
      rw [split _ fun i hi => sum_eq_zero fun j _ => by rw [if_neg (by omega), mul_zero, zero_mul]]
      refine sum_congr rfl fun i hi => ?_
      rw [split _ fun j hj => by rw [if_neg (c := j < k) (by omega), mul_zero]]
      exact sum_congr rfl fun j hj => by rw [if_pos (mem_range.1 hi), if_pos (mem_range.1 hj)]
    rintro _ h1 ⟨l1, b1, p1, e1⟩
    rw [ends_bind]
    -- the block below it
    refine (C37_trsm_right (A.block 0 0 k k).view.transposed .upper .explicit (A.block k 0 (n - k) k).view
      (A.block k 0 (n - k) k) h1 (fun i j => l1 j i) (fun i j => a (k + i) (0 + j)) ?_ ?_ ?_ rfl rfl rfl rfl u21
      ?_ u21.aligned ?_).mono ?_
    · intro i j hi hj hij
      exact ⟨_, b1.1 j i hj hi hij.1, rfl⟩
    · intro i j hi hj _
      have hi : i < n - k := hi
      have hj : j < k := hj
      refine ⟨_, (b1.2 _ fun q => d1121 _ q ⟨i, j, hi, hj, trivial, rfl⟩).trans
        (hA (k + i) (0 + j) (by omega) (by omega) ((low _ _).2 (by omega))), rfl⟩
    · intro i j hi hj _
      have hi : i < n - k := hi
      have hj : j < k := hj
      exact ⟨_, (b1.2 _ fun q => d1121 _ q ⟨i, j, hi, hj, trivial, rfl⟩).trans
        (hA (k + i) (0 + j) (by omega) (by omega) ((low _ _).2 (by omega)))⟩
    · rintro p ⟨i, j, hi, hj, hij, e⟩ hq
      exact d1121 p ⟨j, i, hj, hi, hij.1, e⟩ hq
    · intro _ i hi w
      have hi : i < k := hi
      have := (p1 i hi).ne'
      exact ⟨div_mul_cancel₀ w this, mul_div_cancel_right₀ w this⟩
    rintro _ h2 ⟨x, b2, e2, -⟩
    rw [ends_bind]
    -- the trailing block
    refine (C28_syrkAlpha (-1) (A.block k 0 (n - k) k).view (A.block k k (n - k) (n - k)) .lower h2 x
      (fun i j => a (k + i) (k + j)) (Mat.HoldsOn.asView b2.1) ?_ rfl le_rfl u22 d2122).mono ?_
    · intro i j hi hj hij
      have hi : i < n - k := hi
      have hj : j < n - k := hj
      have hij' := (low _ _).1 hij
      refine (b2.2 _ fun q => d2122 _ q ⟨i, j, hi, hj, hij, rfl⟩).trans
        ((b1.2 _ fun q => d1122 _ q ⟨i, j, hi, hj, hij, rfl⟩).trans
          (hA (k + i) (k + j) (by omega) (by omega) ((low _ _).2 (by omega))))
    rintro _ h3 b3
    have tri : ∀ j m, triOf .upper .explicit (fun i j => l1 j i) m j = triOf .lower .explicit l1 j m := fun j m => by
      rw [tri_lower]
      unfold triOf
      by_cases q : m = j
      · rw [if_pos q, if_pos (by omega), q]
      · rw [if_neg q]
        by_cases r : m ≤ j
        · rw [if_pos r, if_pos (by simp only [Triangle.region]; omega)]
        · rw [if_neg r, if_neg (by simp only [Triangle.region]; omega)]
    have F := front_eq (n := n) (k := k) (a := a) (l1 := l1) (x := x)
      (s := fun i j => a (k + i) (k + j) + ∑ m ∈ range k, -1 * x i m * x j m) e1 (fun i j hi hj => by
        have := e2 i j hi hj
        simp only [Nat.zero_add] at this
        rw [← this]
        exact sum_congr rfl fun m _ => by rw [tri]) (fun i j _ _ => by
        rw [sub_eq_add_neg, ← sum_neg_distrib]
        exact congrArg _ (sum_congr rfl fun m _ => by ring))
    refine (ih (A.block k k (n - k) (n - k)) (n - k) h3 _ (by omega) b3.1 rfl rfl u22
      (trailing_posdef (by omega) hpd (fun m hm => (p1 m hm).ne') F)).mono ?_
    rintro _ h4 ⟨l2, b4, p4, e4⟩
    refine ⟨fun i j => if i < k then l1 i j else if j < k then x (i - k) j else l2 (i - k) (j - k),
      ⟨?_, fun p hp => ?_⟩, fun i hi => ?_, fun i j hi hj => ?_⟩
    · intro i j hi hj hij
      have hij' := (low _ _).1 hij
      by_cases hik : i < k
      · have hcell : (A.block 0 0 k k).CellOn lowerTri (A.addr i j) :=
          ⟨i, j, hik, show j < k by omega, hij, by simp only [Mat.block, Nat.zero_add]⟩
        have := b1.1 i j hik (show j < k by omega) hij
        simp only [Mat.block, Nat.zero_add] at this
        rw [b4.2 _ (d1122 _ hcell), b3.2 _ (d1122 _ hcell), b2.2 _ (d1121 _ hcell), this]
        simp only [hik, if_true]
      · have ek : k + (i - k) = i := by omega
        by_cases hjk : j < k
        · have hcell : (A.block k 0 (n - k) k).Cell (A.addr i j) :=
            ⟨i - k, j, show i - k < n - k by omega, hjk, trivial, by simp only [Mat.block, Nat.zero_add, ek]⟩
          have := b2.1 (i - k) j (show i - k < n - k by omega) hjk trivial
          simp only [Mat.block, Nat.zero_add, ek] at this
          rw [b4.2 _ (d2122 _ hcell), b3.2 _ (d2122 _ hcell), this]
          simp only [hik, hjk, if_true, if_false]
        · have := b4.1 (i - k) (j - k) (show i - k < n - k by omega) (show j - k < n - k by omega)
            ((low _ _).2 (by omega))
          simp only [Mat.block, ek, show k + (j - k) = j by omega] at this
          rw [this]
          simp only [hik, hjk, if_false]
    · rw [b4.2 p fun q => hp (c22 p q), b3.2 p fun q => hp (c22 p q), b2.2 p fun q => hp (c21 p q),
        b1.2 p fun q => hp (c11 p q)]
    · by_cases hik : i < k
      · simp only [hik, if_true]
        exact p1 i hik
      · simp only [hik, if_false]
        exact p4 (i - k) (by omega)
    · rw [F i j hi hj, show n = k + (n - k) by omega, sum_range_add]
      have G : ∀ i m, m < k → triOf .lower .explicit (fun i j => if i < k then l1 i j else if j < k then x (i - k) j
          else l2 (i - k) (j - k)) i m = frontFactor k l1 x i m := fun i m hm => by
        unfold frontFactor
        rw [tri_lower, tri_lower]
        by_cases hik : i < k
        · simp only [hik, if_true]
        · rw [if_pos (by omega)]
          simp only [hik, hm, if_true, if_false]
      have H : ∀ i m, triOf .lower .explicit (fun i j => if i < k then l1 i j else if j < k then x (i - k) j
          else l2 (i - k) (j - k)) i (k + m) = if k ≤ i then triOf .lower .explicit l2 (i - k) m else 0 := fun i m => by
        rw [tri_lower, tri_lower]
        by_cases hik : i < k
        · rw [if_neg (by omega), if_neg (by omega)]
        · rw [if_pos (c := k ≤ i) (by omega)]
          by_cases q : k + m ≤ i
          · have q' : m ≤ i - k := by omega
            simp only [q, q', hik, show ¬k + m < k by omega, if_true, if_false, Nat.add_sub_cancel_left]
          · rw [if_neg q, if_neg (by omega)]
      congr 1
      · exact sum_congr rfl fun m hm => by rw [G i m (mem_range.1 hm), G j m (mem_range.1 hm)]
      · simp only [H]
        by_cases q : k ≤ i ∧ k ≤ j
        · rw [if_pos q]
          refine Eq.trans ?_ (e4 (i - k) (j - k) (by omega) (by omega))
          exact sum_congr rfl fun m _ => by rw [if_pos q.1, if_pos q.2]
        · rw [if_neg q]
          refine sum_eq_zero fun m _ => ?_
          by_cases q1 : k ≤ i
          · rw [if_neg (c := k ≤ j) fun q2 => q ⟨q1, q2⟩, mul_zero]
          · rw [if_neg q1, zero_mul]

example : Ends (blockCholesky [1] (A.block 0 0 2 2) 2) (heap ℝ) fun _ h' => ∃ l,
    (A.block 0 0 2 2).BecomesOn (heap ℝ) h' Triangle.lower.region l ∧ (∀ k, k < 2 → 0 < l k k) ∧
      ∀ i j, i < 2 → j < 2 → ∑ m ∈ range 2,
        triOf .lower .explicit l i m * triOf .lower .explicit l j m =
          symOf .lower (mvals ℝ (A.block 0 0 2 2)) i j :=
  C75_block_cholesky _ _ 2 _ _ (by decide) (mholds fun i j hi hj => by simp only [A, Mat.block] at *; omega) rfl rfl
    (fun i j k l hi hj _ hk hl _ e => by simp only [A, Mat.block] at *; omega) block_posdef

end StdBLAS

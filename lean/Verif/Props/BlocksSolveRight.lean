import Verif.Props.BlocksSolve

/-!
# Triangular solves from the right in 2 × 2 blocks (C73)
-/

namespace StdBLAS
open Finset Witness
variable {α : Type}

/-- A matrix whose first `k` columns and whose other columns have changed, in either order. -/
theorem Mat.Becomes.colParts {X : Mat} {n m k : Nat} {h h1 : Heap α} {v1 v2 : Nat → Nat → α} (hr : X.rows = m)
    (hc : X.cols = n) (hk : k ≤ n) (b1 : (X.block 0 0 m k).Holds h1 v1)
    (b2 : (X.block 0 k m (n - k)).Holds h1 v2) (o : OnlyChanges X.Cell h h1) :
    X.Becomes h h1 fun i j => if j < k then v1 i j else v2 i (j - k) := by
  refine ⟨fun i j hi hj _ => ?_, o⟩
  by_cases hjk : j < k
  · have := b1 i j (by simp only [Mat.block]; omega) hjk trivial
    simp only [Mat.block, Nat.zero_add] at this
    simp only [hjk, if_true, this]
  · have := b2 i (j - k) (by simp only [Mat.block]; omega) (by simp only [Mat.block]; omega) trivial
    simp only [Mat.block, Nat.zero_add, show k + (j - k) = j by omega] at this
    simp only [hjk, if_false, this]

/-- **C73** `triangular_matrix_matrix_right_solve(A, lower_triangle, d, B, X)` in blocks: the last columns of `X` first. -/
theorem C73_trsm_right_lower_blocks [Field α] (A : MatV α) (d : Diag) (B : MatV α) (X : Mat) (h : Heap α)
    (a b : Nat → Nat → α) (n m k : Nat) (hA : A.HoldsOn h (triRegion .lower d) a) (hB : B.Holds h b) (hX : X.Alloc h)
    (hr : A.rows = n) (hc : A.cols = n) (hXr : X.rows = m) (hXc : X.cols = n) (hBr : B.rows = m) (hBc : B.cols = n)
    (hu : X.Unique) (hAX : Apart (A.toMat.CellOn (triRegion .lower d)) X.Cell) (hBX : B.toMat.Aligned X)
    (hnz : d = .explicit → ∀ i, i < n → a i i ≠ 0) (hk : k ≤ n) :
    Ends (trsmRight A .lower d B X) h fun _ h1 => Ends (do
        trsmRight (A.block k k (n - k) (n - k)) .lower d (B.block 0 k m (n - k)) (X.block 0 k m (n - k))
        gemmUpdate ((X.block 0 k m (n - k)).view.scaled (-1)) (A.block k 0 (n - k) k) (B.block 0 0 m k)
          (X.block 0 0 m k)
        trsmRight (A.block 0 0 k k) .lower d (X.block 0 0 m k).view (X.block 0 0 m k)) h
      fun _ h2 => h1 = h2 := by
  have inD : ∀ {s i j}, triRegion .lower d i j → triRegion .lower d (s + i) (s + j) := fun hij =>
    ⟨by have := hij.1; simp only [Triangle.region] at *; omega, fun hd e => hij.2 hd (by omega)⟩
  have inO : ∀ {i j}, i < (n - k) → j < k → triRegion .lower d (k + i) (0 + j) := fun hi hj =>
    ⟨by simp only [Triangle.region]; omega, fun _ => by omega⟩
  have xp : ∀ p, (X.block 0 k m (n - k)).Cell p → X.Cell p := fun p => Mat.block_cell (by omega) (by omega)
  have xq : ∀ p, (X.block 0 0 m k).Cell p → X.Cell p := fun p => Mat.block_cell (by omega) (by omega)
  have xpq : Apart (X.block 0 k m (n - k)).Cell (X.block 0 0 m k).Cell := by
    rintro p ⟨i, j, hi, hj, _, e⟩ ⟨i', j', hi', hj', _, e'⟩
    simp only [Mat.block] at hi hj hi' hj' e e'
    have := hu _ _ _ _ (by omega) (by omega) trivial (by omega) (by omega) trivial (e.trans e'.symm)
    omega
  have xqp : Apart (X.block 0 0 m k).Cell (X.block 0 k m (n - k)).Cell := fun p hp hq => xpq p hq hp
  have up : (X.block 0 k m (n - k)).Unique := hu.block (by omega) (by omega)
  have uq : (X.block 0 0 m k).Unique := hu.block (by omega) (by omega)
  have aD : ∀ {s r}, s + r ≤ n → ∀ p, (A.block s s r r).toMat.CellOn (triRegion .lower d) p →
      A.toMat.CellOn (triRegion .lower d) p := by
    rintro s r hs p ⟨i, j, hi, hj, hij, e⟩
    simp only [MatV.block] at hi hj e
    exact ⟨s + i, s + j, by omega, by omega, inD hij, e⟩
  have aO : ∀ p, (A.block k 0 (n - k) k).toMat.Cell p → A.toMat.CellOn (triRegion .lower d) p := by
    rintro p ⟨i, j, hi, hj, _, e⟩
    simp only [MatV.block] at hi hj e
    exact ⟨k + i, 0 + j, by omega, by omega, inO hi hj, e⟩
  have div : ∀ s, d = .explicit → ∀ i, s + i < n → ∀ w : α, (w / a (s + i) (s + i)) * a (s + i) (s + i) = w ∧
      (w * a (s + i) (s + i)) / a (s + i) (s + i) = w := fun s hd i hi w => by
    have := hnz hd _ hi
    exact ⟨div_mul_cancel₀ w this, mul_div_cancel_right₀ w this⟩
  refine (C37_trsm_right A .lower d B X h a b hA hB hX (by omega) (by omega) (by omega) (by omega) hu hAX hBX
    (fun hd i hi w => by simpa only [Nat.zero_add] using div 0 hd i (by omega) w)).mono
    fun _ g ⟨x, hb, _, uniq⟩ => ?_
  rw [ends_bind]
  refine (C37_trsm_right (A.block k k (n - k) (n - k)) .lower d (B.block 0 k m (n - k)) (X.block 0 k m (n - k)) h
    (fun i j => a (k + i) (k + j)) (fun i j => b (0 + i) (k + j))
    (fun i j hi hj hij => hA _ _ (by simp only [MatV.block] at hi; omega)
      (by simp only [MatV.block] at hj; omega) (inD hij))
    (hB.block (by omega) (by omega)) (hX.block (by omega) (by omega)) rfl rfl rfl rfl up
    (fun p hp hq => hAX p (aD (by omega) p hp) (xp p hq)) ?_
    (fun hd i hi w => div k hd i (by simp only [MatV.block] at hi; omega) w)).mono
    fun _ h1 ⟨v1, b1, s1, _⟩ => ?_
  · intro i j i' j' hi hj hi' hj' e
    simp only [MatV.block, Mat.block] at hi hj hi' hj' e
    have := hBX _ _ _ _ (by omega) (by omega) (by omega) (by omega) e
    omega
  have o1 : OnlyChanges X.Cell h h1 := fun p hp => b1.2 p fun hq => hp (xp p hq)
  have hA1 := hA.of_onlyChanges hAX o1
  rw [ends_bind]
  refine (C31_gemm_update ((X.block 0 k m (n - k)).view.scaled (-1)) (A.block k 0 (n - k) k) (B.block 0 0 m k)
    (X.block 0 0 m k) h1 (fun i j => -1 * v1 i j) (fun i j => a (k + i) (0 + j)) (fun i j => b (0 + i) (0 + j))
    (fun i j hi hj _ => ⟨_, b1.1 i j hi hj trivial, rfl⟩) (fun i j hi hj _ => hA1 _ _ ?_ ?_ (inO hi hj))
    ?_ ((hX.block (by omega) (by omega)).of_onlyChanges xqp b1.2) rfl rfl rfl rfl rfl uq
    xpq (fun p hp hq => hAX p (aO p hp) (xq p hq)) ?_).mono fun _ h2 b2 => ?_
  · simp only [MatV.block] at hi
    omega
  · simp only [MatV.block] at hj
    omega
  · refine (hB.block (by omega) (by omega)).of_onlyChanges ?_ b1.2
    rintro p ⟨i, j, hi, hj, _, e⟩ ⟨i', j', hi', hj', _, e'⟩
    simp only [MatV.block, Mat.block] at hi hj hi' hj' e e'
    have := hBX _ _ _ _ (by omega) (by omega) (by omega) (by omega) (e.trans e'.symm)
    omega
  · intro i j i' j' hi hj hi' hj' e
    simp only [MatV.block, Mat.block] at hi hj hi' hj' e
    have := hBX _ _ _ _ (by omega) (by omega) (by omega) (by omega) e
    omega
  have o2 : OnlyChanges X.Cell h h2 := fun p hp => (b2.2 p fun hq => hp (xq p hq)).trans (o1 p hp)
  have hA2 := hA.of_onlyChanges hAX o2
  refine (C37_trsm_right (A.block 0 0 k k) .lower d (X.block 0 0 m k).view (X.block 0 0 m k) h2
    (fun i j => a (0 + i) (0 + j)) _
    (fun i j hi hj hij => hA2 _ _ (by simp only [MatV.block] at hi; omega)
      (by simp only [MatV.block] at hj; omega) (inD hij))
    b2.1.asView (Mat.Holds.alloc b2.1) rfl rfl rfl rfl uq (fun p hp hq => hAX p (aD (by omega) p hp) (xq p hq))
    uq.aligned (fun hd i hi w => div 0 hd i (by simp only [MatV.block] at hi; omega) w)).mono
    fun _ h3 ⟨v2, b3, s2, _⟩ => ?_
  have o3 : OnlyChanges X.Cell h h3 := fun p hp => (b3.2 p fun hq => hp (xq p hq)).trans (o2 p hp)
  have keep : (X.block 0 k m (n - k)).Holds h3 v1 :=
    Mat.Holds.of_onlyChanges (Mat.Holds.of_onlyChanges b1.1 xpq b2.2) xpq b3.2
  refine hb.unique (Mat.Becomes.colParts hXr hXc hk b3.1 keep o3) fun i j hi hj =>
    (uniq (fun i j => if j < k then v2 i j else v1 i (j - k)) (fun i j hi hj => ?_) i j hi hj).symm
  have halves : mulMat X.cols (fun i j => if j < k then v2 i j else v1 i (j - k)) (triOf .lower d a) i j =
      ∑ l ∈ range k, v2 i l * triOf .lower d a l j + ∑ l ∈ range (n - k), v1 i l * triOf .lower d a (k + l) j := by
    unfold mulMat
    rw [show X.cols = k + (n - k) by omega, sum_range_add]
    refine congrArg₂ (· + ·) (sum_congr rfl fun l hl => ?_) (sum_congr rfl fun l _ => ?_)
    · simp only [mem_range.1 hl, if_true]
    · simp only [show ¬k + l < k by omega, if_false, Nat.add_sub_cancel_left]
  refine halves.trans ?_
  by_cases hjk : j < k
  · have e := s2 i j (by simp only [Mat.block]; omega) hjk
    simp only [Nat.zero_add] at e
    have s21 : ∑ l ∈ range (n - k), v1 i l * triOf .lower d a (k + l) j =
        ∑ l ∈ range (n - k), v1 i l * a (k + l) j :=
      sum_congr rfl fun l _ => by
        rw [triOf_stored _ _ _ (by omega) (by simp only [Triangle.region]; omega)]
    refine (congrArg₂ (· + ·) e s21).trans ?_
    have neg : mulMat (n - k) (fun i j => -1 * v1 i j) (fun i j => a (k + i) j) i j =
        -∑ l ∈ range (n - k), v1 i l * a (k + l) j := by
      unfold mulMat
      rw [← sum_neg_distrib]
      exact sum_congr rfl fun l _ => by ring
    refine (congrArg (fun z => b i j + z + ∑ l ∈ range (n - k), v1 i l * a (k + l) j) neg).trans ?_
    ring
  · have ek : k + (j - k) = j := by omega
    have e := s1 i (j - k) (by simp only [Mat.block]; omega) (by simp only [Mat.block]; omega)
    simp only [Nat.zero_add, ek] at e
    have s22 : ∀ l, triOf .lower d a (k + l) j = triOf .lower d (fun i j => a (k + i) (k + j)) l (j - k) :=
      fun l => by rw [← triOf_shift, ek]
    rw [sum_eq_zero (s := range k) fun l hl => by
      have := mem_range.1 hl
      rw [triOf_zero _ _ _ (by omega) (by simp only [Triangle.region]; omega), mul_zero], zero_add]
    simp only [s22]
    exact e

/-- **C73** The same for `upper_triangle`: the first `k` columns of `X` first. -/
theorem C73_trsm_right_upper_blocks [Field α] (A : MatV α) (d : Diag) (B : MatV α) (X : Mat) (h : Heap α)
    (a b : Nat → Nat → α) (n m k : Nat) (hA : A.HoldsOn h (triRegion .upper d) a) (hB : B.Holds h b) (hX : X.Alloc h)
    (hr : A.rows = n) (hc : A.cols = n) (hXr : X.rows = m) (hXc : X.cols = n) (hBr : B.rows = m) (hBc : B.cols = n)
    (hu : X.Unique) (hAX : Apart (A.toMat.CellOn (triRegion .upper d)) X.Cell) (hBX : B.toMat.Aligned X)
    (hnz : d = .explicit → ∀ i, i < n → a i i ≠ 0) (hk : k ≤ n) :
    Ends (trsmRight A .upper d B X) h fun _ h1 => Ends (do
        trsmRight (A.block 0 0 k k) .upper d (B.block 0 0 m k) (X.block 0 0 m k)
        gemmUpdate ((X.block 0 0 m k).view.scaled (-1)) (A.block 0 k k (n - k)) (B.block 0 k m (n - k))
          (X.block 0 k m (n - k))
        trsmRight (A.block k k (n - k) (n - k)) .upper d (X.block 0 k m (n - k)).view (X.block 0 k m (n - k))) h
      fun _ h2 => h1 = h2 := by
  have inD : ∀ {s i j}, triRegion .upper d i j → triRegion .upper d (s + i) (s + j) := fun hij =>
    ⟨by have := hij.1; simp only [Triangle.region] at *; omega, fun hd e => hij.2 hd (by omega)⟩
  have inO : ∀ {i j}, i < k → j < (n - k) → triRegion .upper d (0 + i) (k + j) := fun hi hj =>
    ⟨by simp only [Triangle.region]; omega, fun _ => by omega⟩
  have xp : ∀ p, (X.block 0 0 m k).Cell p → X.Cell p := fun p => Mat.block_cell (by omega) (by omega)
  have xq : ∀ p, (X.block 0 k m (n - k)).Cell p → X.Cell p := fun p => Mat.block_cell (by omega) (by omega)
  have xpq : Apart (X.block 0 0 m k).Cell (X.block 0 k m (n - k)).Cell := by
    rintro p ⟨i, j, hi, hj, _, e⟩ ⟨i', j', hi', hj', _, e'⟩
    simp only [Mat.block] at hi hj hi' hj' e e'
    have := hu _ _ _ _ (by omega) (by omega) trivial (by omega) (by omega) trivial (e.trans e'.symm)
    omega
  have xqp : Apart (X.block 0 k m (n - k)).Cell (X.block 0 0 m k).Cell := fun p hp hq => xpq p hq hp
  have up : (X.block 0 0 m k).Unique := hu.block (by omega) (by omega)
  have uq : (X.block 0 k m (n - k)).Unique := hu.block (by omega) (by omega)
  have aD : ∀ {s r}, s + r ≤ n → ∀ p, (A.block s s r r).toMat.CellOn (triRegion .upper d) p →
      A.toMat.CellOn (triRegion .upper d) p := by
    rintro s r hs p ⟨i, j, hi, hj, hij, e⟩
    simp only [MatV.block] at hi hj e
    exact ⟨s + i, s + j, by omega, by omega, inD hij, e⟩
  have aO : ∀ p, (A.block 0 k k (n - k)).toMat.Cell p → A.toMat.CellOn (triRegion .upper d) p := by
    rintro p ⟨i, j, hi, hj, _, e⟩
    simp only [MatV.block] at hi hj e
    exact ⟨0 + i, k + j, by omega, by omega, inO hi hj, e⟩
  have div : ∀ s, d = .explicit → ∀ i, s + i < n → ∀ w : α, (w / a (s + i) (s + i)) * a (s + i) (s + i) = w ∧
      (w * a (s + i) (s + i)) / a (s + i) (s + i) = w := fun s hd i hi w => by
    have := hnz hd _ hi
    exact ⟨div_mul_cancel₀ w this, mul_div_cancel_right₀ w this⟩
  refine (C37_trsm_right A .upper d B X h a b hA hB hX (by omega) (by omega) (by omega) (by omega) hu hAX hBX
    (fun hd i hi w => by simpa only [Nat.zero_add] using div 0 hd i (by omega) w)).mono
    fun _ g ⟨x, hb, _, uniq⟩ => ?_
  rw [ends_bind]
  refine (C37_trsm_right (A.block 0 0 k k) .upper d (B.block 0 0 m k) (X.block 0 0 m k) h
    (fun i j => a (0 + i) (0 + j)) (fun i j => b (0 + i) (0 + j))
    (fun i j hi hj hij => hA _ _ (by simp only [MatV.block] at hi; omega)
      (by simp only [MatV.block] at hj; omega) (inD hij))
    (hB.block (by omega) (by omega)) (hX.block (by omega) (by omega)) rfl rfl rfl rfl up
    (fun p hp hq => hAX p (aD (by omega) p hp) (xp p hq)) ?_
    (fun hd i hi w => div 0 hd i (by simp only [MatV.block] at hi; omega) w)).mono
    fun _ h1 ⟨v1, b1, s1, _⟩ => ?_
  · intro i j i' j' hi hj hi' hj' e
    simp only [MatV.block, Mat.block] at hi hj hi' hj' e
    have := hBX _ _ _ _ (by omega) (by omega) (by omega) (by omega) e
    omega
  have o1 : OnlyChanges X.Cell h h1 := fun p hp => b1.2 p fun hq => hp (xp p hq)
  have hA1 := hA.of_onlyChanges hAX o1
  rw [ends_bind]
  refine (C31_gemm_update ((X.block 0 0 m k).view.scaled (-1)) (A.block 0 k k (n - k)) (B.block 0 k m (n - k))
    (X.block 0 k m (n - k)) h1 (fun i j => -1 * v1 i j) (fun i j => a (0 + i) (k + j)) (fun i j => b (0 + i) (k + j))
    (fun i j hi hj _ => ⟨_, b1.1 i j hi hj trivial, rfl⟩) (fun i j hi hj _ => hA1 _ _ ?_ ?_ (inO hi hj))
    ?_ ((hX.block (by omega) (by omega)).of_onlyChanges xqp b1.2) rfl rfl rfl rfl rfl uq
    xpq (fun p hp hq => hAX p (aO p hp) (xq p hq)) ?_).mono fun _ h2 b2 => ?_
  · simp only [MatV.block] at hi
    omega
  · simp only [MatV.block] at hj
    omega
  · refine (hB.block (by omega) (by omega)).of_onlyChanges ?_ b1.2
    rintro p ⟨i, j, hi, hj, _, e⟩ ⟨i', j', hi', hj', _, e'⟩
    simp only [MatV.block, Mat.block] at hi hj hi' hj' e e'
    have := hBX _ _ _ _ (by omega) (by omega) (by omega) (by omega) (e.trans e'.symm)
    omega
  · intro i j i' j' hi hj hi' hj' e
    simp only [MatV.block, Mat.block] at hi hj hi' hj' e
    have := hBX _ _ _ _ (by omega) (by omega) (by omega) (by omega) e
    omega
  have o2 : OnlyChanges X.Cell h h2 := fun p hp => (b2.2 p fun hq => hp (xq p hq)).trans (o1 p hp)
  have hA2 := hA.of_onlyChanges hAX o2
  refine (C37_trsm_right (A.block k k (n - k) (n - k)) .upper d (X.block 0 k m (n - k)).view (X.block 0 k m (n - k)) h2
    (fun i j => a (k + i) (k + j)) _
    (fun i j hi hj hij => hA2 _ _ (by simp only [MatV.block] at hi; omega)
      (by simp only [MatV.block] at hj; omega) (inD hij))
    b2.1.asView (Mat.Holds.alloc b2.1) rfl rfl rfl rfl uq (fun p hp hq => hAX p (aD (by omega) p hp) (xq p hq))
    uq.aligned (fun hd i hi w => div k hd i (by simp only [MatV.block] at hi; omega) w)).mono
    fun _ h3 ⟨v2, b3, s2, _⟩ => ?_
  have o3 : OnlyChanges X.Cell h h3 := fun p hp => (b3.2 p fun hq => hp (xq p hq)).trans (o2 p hp)
  have keep : (X.block 0 0 m k).Holds h3 v1 :=
    Mat.Holds.of_onlyChanges (Mat.Holds.of_onlyChanges b1.1 xpq b2.2) xpq b3.2
  refine hb.unique (Mat.Becomes.colParts hXr hXc hk keep b3.1 o3) fun i j hi hj =>
    (uniq (fun i j => if j < k then v1 i j else v2 i (j - k)) (fun i j hi hj => ?_) i j hi hj).symm
  have halves : mulMat X.cols (fun i j => if j < k then v1 i j else v2 i (j - k)) (triOf .upper d a) i j =
      ∑ l ∈ range k, v1 i l * triOf .upper d a l j + ∑ l ∈ range (n - k), v2 i l * triOf .upper d a (k + l) j := by
    unfold mulMat
    rw [show X.cols = k + (n - k) by omega, sum_range_add]
    refine congrArg₂ (· + ·) (sum_congr rfl fun l hl => ?_) (sum_congr rfl fun l _ => ?_)
    · simp only [mem_range.1 hl, if_true]
    · simp only [show ¬k + l < k by omega, if_false, Nat.add_sub_cancel_left]
  refine halves.trans ?_
  by_cases hjk : j < k
  · have e := s1 i j (by simp only [Mat.block]; omega) hjk
    simp only [Nat.zero_add] at e
    rw [sum_eq_zero (s := range (n - k)) fun l _ => by
      rw [triOf_zero _ _ _ (by omega) (by simp only [Triangle.region]; omega), mul_zero], add_zero]
    exact e
  · have ek : k + (j - k) = j := by omega
    have e := s2 i (j - k) (by simp only [Mat.block]; omega) (by simp only [Mat.block]; omega)
    simp only [Nat.zero_add, ek] at e
    have s22 : ∀ l, triOf .upper d a (k + l) j = triOf .upper d (fun i j => a (k + i) (k + j)) l (j - k) :=
      fun l => by rw [← triOf_shift, ek]
    have s12 : ∑ l ∈ range k, v1 i l * triOf .upper d a l j = ∑ l ∈ range k, v1 i l * a l j :=
      sum_congr rfl fun l hl => by
        have := mem_range.1 hl
        rw [triOf_stored _ _ _ (by omega) (by simp only [Triangle.region]; omega)]
    simp only [s22]
    refine (congrArg₂ (· + ·) s12 e).trans ?_
    have neg : mulMat k (fun i j => -1 * v1 i j) (fun i j => a i (k + j)) i (j - k) =
        -∑ l ∈ range k, v1 i l * a l j := by
      unfold mulMat
      rw [← sum_neg_distrib]
      exact sum_congr rfl fun l _ => by beta_reduce; rw [ek]; ring
    refine (congrArg (fun z => ∑ l ∈ range k, v1 i l * a l j + (b i j + z)) neg).trans ?_
    ring

example : Ends (trsmRight (A.view : MatV ℚ) .lower .implicitUnit B.view C) (heap ℚ) fun _ h1 => Ends (do
    trsmRight ((A.view : MatV ℚ).block 2 2 1 1) .lower .implicitUnit ((B.view : MatV ℚ).block 0 2 3 1)
      (C.block 0 2 3 1)
    gemmUpdate ((C.block 0 2 3 1).view.scaled (-1)) ((A.view : MatV ℚ).block 2 0 1 2)
      ((B.view : MatV ℚ).block 0 0 3 2) (C.block 0 0 3 2)
    trsmRight ((A.view : MatV ℚ).block 0 0 2 2) .lower .implicitUnit (C.block 0 0 3 2).view (C.block 0 0 3 2))
    (heap ℚ) fun _ h2 => h1 = h2 :=
  C73_trsm_right_lower_blocks _ _ _ _ _ _ _ 3 3 2 (mholdsV bA) (mholdsV bB) (malloc bC) rfl rfl rfl rfl rfl rfl
    (by view_facts) (by view_facts) (by view_facts) (by simp) (by decide)

/-- explicit diagonal, in place -/
example : Ends (trsmRight (A.view : MatV ℚ) .upper .explicit C.view C) (heap ℚ) fun _ h1 => Ends (do
    trsmRight ((A.view : MatV ℚ).block 0 0 1 1) .upper .explicit ((C.view : MatV ℚ).block 0 0 3 1)
      (C.block 0 0 3 1)
    gemmUpdate ((C.block 0 0 3 1).view.scaled (-1)) ((A.view : MatV ℚ).block 0 1 1 2)
      ((C.view : MatV ℚ).block 0 1 3 2) (C.block 0 1 3 2)
    trsmRight ((A.view : MatV ℚ).block 1 1 2 2) .upper .explicit (C.block 0 1 3 2).view (C.block 0 1 3 2))
    (heap ℚ) fun _ h2 => h1 = h2 :=
  C73_trsm_right_upper_blocks _ _ _ _ _ _ _ 3 3 1 (mholdsV bA) (mholdsV bC) (malloc bC) rfl rfl rfl rfl rfl rfl
    (by view_facts) (by view_facts) (by view_facts) (fun _ i hi => mvals_A_diag hi) (by decide)

end StdBLAS

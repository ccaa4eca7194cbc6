import Verif.Props.BlocksSolveRight
import Verif.Props.Blas3Products

/-!
# Triangular products in place in 2 × 2 blocks (C73)

The part of the result that needs both parts of the old values first: its own triangle, then a matrix product for
the block off the diagonal, then the other part.
-/

namespace StdBLAS
open Finset Witness
variable {α : Type}

/-- **C73** `triangular_matrix_left_product(A, lower_triangle, d, C)` in place in blocks. -/
theorem C73_trmm_left_in_place_lower_blocks [NonAssocSemiring α] (A : MatV α) (d : Diag) (C : Mat) (h : Heap α)
    (a c : Nat → Nat → α) (n m k : Nat) (hA : A.HoldsOn h (triRegion .lower d) a) (hC : C.Holds h c)
    (hr : A.rows = n) (hc : A.cols = n) (hCr : C.rows = n) (hCc : C.cols = m) (hu : C.Unique)
    (hAC : Apart (A.toMat.CellOn (triRegion .lower d)) C.Cell) (hk : k ≤ n) :
    Ends (trmmLeftInPlace A .lower d C) h fun _ h1 => Ends (do
        trmmLeftInPlace (A.block k k (n - k) (n - k)) .lower d (C.block k 0 (n - k) m)
        gemmUpdate (A.block k 0 (n - k) k) (C.block 0 0 k m).view (C.block k 0 (n - k) m).view (C.block k 0 (n - k) m)
        trmmLeftInPlace (A.block 0 0 k k) .lower d (C.block 0 0 k m)) h
      fun _ h2 => h1 = h2 := by
  have inD : ∀ {s i j}, triRegion .lower d i j → triRegion .lower d (s + i) (s + j) := fun hij =>
    ⟨by have := hij.1; simp only [Triangle.region] at *; omega, fun hd e => hij.2 hd (by omega)⟩
  have inO : ∀ {i j}, i < (n - k) → j < k → triRegion .lower d (k + i) (0 + j) := fun hi hj =>
    ⟨by simp only [Triangle.region]; omega, fun _ => by omega⟩
  have cp : ∀ p, (C.block 0 0 k m).Cell p → C.Cell p := fun p => Mat.block_cell (by omega) (by omega)
  have cq : ∀ p, (C.block k 0 (n - k) m).Cell p → C.Cell p := fun p => Mat.block_cell (by omega) (by omega)
  have cpq : Apart (C.block 0 0 k m).Cell (C.block k 0 (n - k) m).Cell := by
    rintro p ⟨i, j, hi, hj, _, e⟩ ⟨i', j', hi', hj', _, e'⟩
    simp only [Mat.block] at hi hj hi' hj' e e'
    have := hu _ _ _ _ (by omega) (by omega) trivial (by omega) (by omega) trivial (e.trans e'.symm)
    omega
  have cqp : Apart (C.block k 0 (n - k) m).Cell (C.block 0 0 k m).Cell := fun p hp hq => cpq p hq hp
  have up : (C.block 0 0 k m).Unique := hu.block (by omega) (by omega)
  have uq : (C.block k 0 (n - k) m).Unique := hu.block (by omega) (by omega)
  have aD : ∀ {s r}, s + r ≤ n → ∀ p, (A.block s s r r).toMat.CellOn (triRegion .lower d) p →
      A.toMat.CellOn (triRegion .lower d) p := by
    rintro s r hs p ⟨i, j, hi, hj, hij, e⟩
    simp only [MatV.block] at hi hj e
    exact ⟨s + i, s + j, by omega, by omega, inD hij, e⟩
  have aO : ∀ p, (A.block k 0 (n - k) k).toMat.Cell p → A.toMat.CellOn (triRegion .lower d) p := by
    rintro p ⟨i, j, hi, hj, _, e⟩
    simp only [MatV.block] at hi hj e
    exact ⟨k + i, 0 + j, by omega, by omega, inO hi hj, e⟩
  have hP : (C.block 0 0 k m).Holds h (fun i j => c (0 + i) (0 + j)) := fun i j hi hj _ =>
    hC _ _ (by simp only [Mat.block] at hi; omega) (by simp only [Mat.block] at hj; omega) trivial
  have hQ : (C.block k 0 (n - k) m).Holds h (fun i j => c (k + i) (0 + j)) := fun i j hi hj _ =>
    hC _ _ (by simp only [Mat.block] at hi; omega) (by simp only [Mat.block] at hj; omega) trivial
  refine (C36_trmm_left_in_place A .lower d C h a c hA hC (by omega) (by omega) hu hAC).mono fun _ g hb => ?_
  rw [ends_bind]
  refine (C36_trmm_left_in_place (A.block k k (n - k) (n - k)) .lower d (C.block k 0 (n - k) m) h (fun i j => a (k + i) (k + j)) _
    (fun i j hi hj hij => hA _ _ (by simp only [MatV.block] at hi; omega)
      (by simp only [MatV.block] at hj; omega) (inD hij)) hQ rfl rfl uq
    (fun p hp hq => hAC p (aD (by omega) p hp) (cq p hq))).mono fun _ h1 b1 => ?_
  have o1 : OnlyChanges C.Cell h h1 := fun p hp => b1.2 p fun hq => hp (cq p hq)
  have hA1 := hA.of_onlyChanges hAC o1
  have hP1 := Mat.Holds.of_onlyChanges hP cpq b1.2
  rw [ends_bind]
  refine (C31_gemm_update _ _ (C.block k 0 (n - k) m).view (C.block k 0 (n - k) m) h1 (fun i j => a (k + i) (0 + j)) (fun i j => c (0 + i) (0 + j)) _
    (fun i j hi hj _ => hA1 _ _ ?_ ?_ (inO hi hj)) hP1.viewHolds (Mat.Holds.viewHolds b1.1)
    (Mat.Holds.alloc b1.1) rfl rfl rfl rfl rfl uq (fun p hp hq => hAC p (aO p hp) (cq p hq)) cpq uq.aligned).mono fun _ h2 b2 => ?_
  · simp only [MatV.block] at hi
    omega
  · simp only [MatV.block] at hj
    omega
  have o2 : OnlyChanges C.Cell h h2 := fun p hp => (b2.2 p fun hq => hp (cq p hq)).trans (o1 p hp)
  have hA2 := hA.of_onlyChanges hAC o2
  have hP2 := Mat.Holds.of_onlyChanges hP1 cpq b2.2
  refine (C36_trmm_left_in_place (A.block 0 0 k k) .lower d (C.block 0 0 k m) h2 (fun i j => a (0 + i) (0 + j)) _
    (fun i j hi hj hij => hA2 _ _ (by simp only [MatV.block] at hi; omega)
      (by simp only [MatV.block] at hj; omega) (inD hij)) hP2 rfl rfl up
    (fun p hp hq => hAC p (aD (by omega) p hp) (cp p hq))).mono fun _ h3 b3 => ?_
  have o3 : OnlyChanges C.Cell h h3 := fun p hp => (b3.2 p fun hq => hp (cp p hq)).trans (o2 p hp)
  have keep := Mat.Holds.of_onlyChanges b2.1 cqp b3.2
  refine hb.unique (Mat.Becomes.rowParts hCr hCc hk b3.1 keep o3) fun i j hi hj => ?_
  have halves : mulMat A.cols (triOf .lower d a) c i j = ∑ l ∈ range k, triOf .lower d a i l * c l j +
      ∑ l ∈ range (n - k), triOf .lower d a i (k + l) * c (k + l) j := by
    unfold mulMat
    rw [show A.cols = k + (n - k) by omega, sum_range_add]
  rw [halves]
  by_cases hk' : i < k
  · simp only [hk', if_true, Nat.zero_add]
    rw [sum_eq_zero (s := range (n - k)) fun l _ => by
      rw [triOf_zero _ _ _ (by omega) (by simp only [Triangle.region]; omega), zero_mul], add_zero]
    rfl
  · have ek : k + (i - k) = i := by omega
    have sh : ∀ l, triOf .lower d a i (k + l) = triOf .lower d (fun i j => a (k + i) (k + j)) (i - k) l :=
      fun l => by rw [← triOf_shift, ek]
    simp only [hk', if_false, Nat.zero_add, sh]
    rw [add_comm]
    refine congrArg₂ (· + ·) ?_ (sum_congr rfl fun l hl => ?_)
    · rfl
    · have : l < k := mem_range.1 hl
      rw [triOf_stored .lower d a (i := i) (j := l) (by omega) (by simp only [Triangle.region]; omega)]
      simp only [ek]

/-- **C73** `triangular_matrix_left_product(A, upper_triangle, d, C)` in place in blocks. -/
theorem C73_trmm_left_in_place_upper_blocks [NonAssocSemiring α] (A : MatV α) (d : Diag) (C : Mat) (h : Heap α)
    (a c : Nat → Nat → α) (n m k : Nat) (hA : A.HoldsOn h (triRegion .upper d) a) (hC : C.Holds h c)
    (hr : A.rows = n) (hc : A.cols = n) (hCr : C.rows = n) (hCc : C.cols = m) (hu : C.Unique)
    (hAC : Apart (A.toMat.CellOn (triRegion .upper d)) C.Cell) (hk : k ≤ n) :
    Ends (trmmLeftInPlace A .upper d C) h fun _ h1 => Ends (do
        trmmLeftInPlace (A.block 0 0 k k) .upper d (C.block 0 0 k m)
        gemmUpdate (A.block 0 k k (n - k)) (C.block k 0 (n - k) m).view (C.block 0 0 k m).view (C.block 0 0 k m)
        trmmLeftInPlace (A.block k k (n - k) (n - k)) .upper d (C.block k 0 (n - k) m)) h
      fun _ h2 => h1 = h2 := by
  have inD : ∀ {s i j}, triRegion .upper d i j → triRegion .upper d (s + i) (s + j) := fun hij =>
    ⟨by have := hij.1; simp only [Triangle.region] at *; omega, fun hd e => hij.2 hd (by omega)⟩
  have inO : ∀ {i j}, i < k → j < (n - k) → triRegion .upper d (0 + i) (k + j) := fun hi hj =>
    ⟨by simp only [Triangle.region]; omega, fun _ => by omega⟩
  have cp : ∀ p, (C.block k 0 (n - k) m).Cell p → C.Cell p := fun p => Mat.block_cell (by omega) (by omega)
  have cq : ∀ p, (C.block 0 0 k m).Cell p → C.Cell p := fun p => Mat.block_cell (by omega) (by omega)
  have cpq : Apart (C.block k 0 (n - k) m).Cell (C.block 0 0 k m).Cell := by
    rintro p ⟨i, j, hi, hj, _, e⟩ ⟨i', j', hi', hj', _, e'⟩
    simp only [Mat.block] at hi hj hi' hj' e e'
    have := hu _ _ _ _ (by omega) (by omega) trivial (by omega) (by omega) trivial (e.trans e'.symm)
    omega
  have cqp : Apart (C.block 0 0 k m).Cell (C.block k 0 (n - k) m).Cell := fun p hp hq => cpq p hq hp
  have up : (C.block k 0 (n - k) m).Unique := hu.block (by omega) (by omega)
  have uq : (C.block 0 0 k m).Unique := hu.block (by omega) (by omega)
  have aD : ∀ {s r}, s + r ≤ n → ∀ p, (A.block s s r r).toMat.CellOn (triRegion .upper d) p →
      A.toMat.CellOn (triRegion .upper d) p := by
    rintro s r hs p ⟨i, j, hi, hj, hij, e⟩
    simp only [MatV.block] at hi hj e
    exact ⟨s + i, s + j, by omega, by omega, inD hij, e⟩
  have aO : ∀ p, (A.block 0 k k (n - k)).toMat.Cell p → A.toMat.CellOn (triRegion .upper d) p := by
    rintro p ⟨i, j, hi, hj, _, e⟩
    simp only [MatV.block] at hi hj e
    exact ⟨0 + i, k + j, by omega, by omega, inO hi hj, e⟩
  have hP : (C.block k 0 (n - k) m).Holds h (fun i j => c (k + i) (0 + j)) := fun i j hi hj _ =>
    hC _ _ (by simp only [Mat.block] at hi; omega) (by simp only [Mat.block] at hj; omega) trivial
  have hQ : (C.block 0 0 k m).Holds h (fun i j => c (0 + i) (0 + j)) := fun i j hi hj _ =>
    hC _ _ (by simp only [Mat.block] at hi; omega) (by simp only [Mat.block] at hj; omega) trivial
  refine (C36_trmm_left_in_place A .upper d C h a c hA hC (by omega) (by omega) hu hAC).mono fun _ g hb => ?_
  rw [ends_bind]
  refine (C36_trmm_left_in_place (A.block 0 0 k k) .upper d (C.block 0 0 k m) h (fun i j => a (0 + i) (0 + j)) _
    (fun i j hi hj hij => hA _ _ (by simp only [MatV.block] at hi; omega)
      (by simp only [MatV.block] at hj; omega) (inD hij)) hQ rfl rfl uq
    (fun p hp hq => hAC p (aD (by omega) p hp) (cq p hq))).mono fun _ h1 b1 => ?_
  have o1 : OnlyChanges C.Cell h h1 := fun p hp => b1.2 p fun hq => hp (cq p hq)
  have hA1 := hA.of_onlyChanges hAC o1
  have hP1 := Mat.Holds.of_onlyChanges hP cpq b1.2
  rw [ends_bind]
  refine (C31_gemm_update _ _ (C.block 0 0 k m).view (C.block 0 0 k m) h1 (fun i j => a (0 + i) (k + j)) (fun i j => c (k + i) (0 + j)) _
    (fun i j hi hj _ => hA1 _ _ ?_ ?_ (inO hi hj)) hP1.viewHolds (Mat.Holds.viewHolds b1.1)
    (Mat.Holds.alloc b1.1) rfl rfl rfl rfl rfl uq (fun p hp hq => hAC p (aO p hp) (cq p hq)) cpq uq.aligned).mono fun _ h2 b2 => ?_
  · simp only [MatV.block] at hi
    omega
  · simp only [MatV.block] at hj
    omega
  have o2 : OnlyChanges C.Cell h h2 := fun p hp => (b2.2 p fun hq => hp (cq p hq)).trans (o1 p hp)
  have hA2 := hA.of_onlyChanges hAC o2
  have hP2 := Mat.Holds.of_onlyChanges hP1 cpq b2.2
  refine (C36_trmm_left_in_place (A.block k k (n - k) (n - k)) .upper d (C.block k 0 (n - k) m) h2 (fun i j => a (k + i) (k + j)) _
    (fun i j hi hj hij => hA2 _ _ (by simp only [MatV.block] at hi; omega)
      (by simp only [MatV.block] at hj; omega) (inD hij)) hP2 rfl rfl up
    (fun p hp hq => hAC p (aD (by omega) p hp) (cp p hq))).mono fun _ h3 b3 => ?_
  have o3 : OnlyChanges C.Cell h h3 := fun p hp => (b3.2 p fun hq => hp (cp p hq)).trans (o2 p hp)
  have keep := Mat.Holds.of_onlyChanges b2.1 cqp b3.2
  refine hb.unique (Mat.Becomes.rowParts hCr hCc hk keep b3.1 o3) fun i j hi hj => ?_
  have halves : mulMat A.cols (triOf .upper d a) c i j = ∑ l ∈ range k, triOf .upper d a i l * c l j +
      ∑ l ∈ range (n - k), triOf .upper d a i (k + l) * c (k + l) j := by
    unfold mulMat
    rw [show A.cols = k + (n - k) by omega, sum_range_add]
  rw [halves]
  by_cases hk' : i < k
  · simp only [hk', if_true, Nat.zero_add]
    refine congrArg₂ (· + ·) rfl (sum_congr rfl fun l _ => ?_)
    rw [triOf_stored _ _ _ (by omega) (by simp only [Triangle.region]; omega)]
  · have ek : k + (i - k) = i := by omega
    have sh : ∀ l, triOf .upper d a i (k + l) = triOf .upper d (fun i j => a (k + i) (k + j)) (i - k) l :=
      fun l => by rw [← triOf_shift, ek]
    simp only [hk', if_false, Nat.zero_add, sh]
    rw [sum_eq_zero (s := range k) fun l hl => by
      have := mem_range.1 hl
      rw [triOf_zero _ _ _ (by omega) (by simp only [Triangle.region]; omega), zero_mul], zero_add]
    rfl

/-- **C73** `triangular_matrix_right_product(A, lower_triangle, d, C)` in place in blocks. -/
theorem C73_trmm_right_in_place_lower_blocks [NonAssocSemiring α] (A : MatV α) (d : Diag) (C : Mat) (h : Heap α)
    (a c : Nat → Nat → α) (n m k : Nat) (hA : A.HoldsOn h (triRegion .lower d) a) (hC : C.Holds h c)
    (hr : A.rows = n) (hc : A.cols = n) (hCr : C.rows = m) (hCc : C.cols = n) (hu : C.Unique)
    (hAC : Apart (A.toMat.CellOn (triRegion .lower d)) C.Cell) (hk : k ≤ n) :
    Ends (trmmRightInPlace A .lower d C) h fun _ h1 => Ends (do
        trmmRightInPlace (A.block 0 0 k k) .lower d (C.block 0 0 m k)
        gemmUpdate (C.block 0 k m (n - k)).view (A.block k 0 (n - k) k) (C.block 0 0 m k).view (C.block 0 0 m k)
        trmmRightInPlace (A.block k k (n - k) (n - k)) .lower d (C.block 0 k m (n - k))) h
      fun _ h2 => h1 = h2 := by
  have inD : ∀ {s i j}, triRegion .lower d i j → triRegion .lower d (s + i) (s + j) := fun hij =>
    ⟨by have := hij.1; simp only [Triangle.region] at *; omega, fun hd e => hij.2 hd (by omega)⟩
  have inO : ∀ {i j}, i < (n - k) → j < k → triRegion .lower d (k + i) (0 + j) := fun hi hj =>
    ⟨by simp only [Triangle.region]; omega, fun _ => by omega⟩
  have cp : ∀ p, (C.block 0 k m (n - k)).Cell p → C.Cell p := fun p => Mat.block_cell (by omega) (by omega)
  have cq : ∀ p, (C.block 0 0 m k).Cell p → C.Cell p := fun p => Mat.block_cell (by omega) (by omega)
  have cpq : Apart (C.block 0 k m (n - k)).Cell (C.block 0 0 m k).Cell := by
    rintro p ⟨i, j, hi, hj, _, e⟩ ⟨i', j', hi', hj', _, e'⟩
    simp only [Mat.block] at hi hj hi' hj' e e'
    have := hu _ _ _ _ (by omega) (by omega) trivial (by omega) (by omega) trivial (e.trans e'.symm)
    omega
  have cqp : Apart (C.block 0 0 m k).Cell (C.block 0 k m (n - k)).Cell := fun p hp hq => cpq p hq hp
  have up : (C.block 0 k m (n - k)).Unique := hu.block (by omega) (by omega)
  have uq : (C.block 0 0 m k).Unique := hu.block (by omega) (by omega)
  have aD : ∀ {s r}, s + r ≤ n → ∀ p, (A.block s s r r).toMat.CellOn (triRegion .lower d) p →
      A.toMat.CellOn (triRegion .lower d) p := by
    rintro s r hs p ⟨i, j, hi, hj, hij, e⟩
    simp only [MatV.block] at hi hj e
    exact ⟨s + i, s + j, by omega, by omega, inD hij, e⟩
  have aO : ∀ p, (A.block k 0 (n - k) k).toMat.Cell p → A.toMat.CellOn (triRegion .lower d) p := by
    rintro p ⟨i, j, hi, hj, _, e⟩
    simp only [MatV.block] at hi hj e
    exact ⟨k + i, 0 + j, by omega, by omega, inO hi hj, e⟩
  have hP : (C.block 0 k m (n - k)).Holds h (fun i j => c (0 + i) (k + j)) := fun i j hi hj _ =>
    hC _ _ (by simp only [Mat.block] at hi; omega) (by simp only [Mat.block] at hj; omega) trivial
  have hQ : (C.block 0 0 m k).Holds h (fun i j => c (0 + i) (0 + j)) := fun i j hi hj _ =>
    hC _ _ (by simp only [Mat.block] at hi; omega) (by simp only [Mat.block] at hj; omega) trivial
  refine (C36_trmm_right_in_place A .lower d C h a c hA hC (by omega) (by omega) hu hAC).mono fun _ g hb => ?_
  rw [ends_bind]
  refine (C36_trmm_right_in_place (A.block 0 0 k k) .lower d (C.block 0 0 m k) h (fun i j => a (0 + i) (0 + j)) _
    (fun i j hi hj hij => hA _ _ (by simp only [MatV.block] at hi; omega)
      (by simp only [MatV.block] at hj; omega) (inD hij)) hQ rfl rfl uq
    (fun p hp hq => hAC p (aD (by omega) p hp) (cq p hq))).mono fun _ h1 b1 => ?_
  have o1 : OnlyChanges C.Cell h h1 := fun p hp => b1.2 p fun hq => hp (cq p hq)
  have hA1 := hA.of_onlyChanges hAC o1
  have hP1 := Mat.Holds.of_onlyChanges hP cpq b1.2
  rw [ends_bind]
  refine (C31_gemm_update _ _ (C.block 0 0 m k).view (C.block 0 0 m k) h1 (fun i j => c (0 + i) (k + j)) (fun i j => a (k + i) (0 + j)) _
    hP1.viewHolds (fun i j hi hj _ => hA1 _ _ ?_ ?_ (inO hi hj)) (Mat.Holds.viewHolds b1.1)
    (Mat.Holds.alloc b1.1) rfl rfl rfl rfl rfl uq cpq (fun p hp hq => hAC p (aO p hp) (cq p hq)) uq.aligned).mono fun _ h2 b2 => ?_
  · simp only [MatV.block] at hi
    omega
  · simp only [MatV.block] at hj
    omega
  have o2 : OnlyChanges C.Cell h h2 := fun p hp => (b2.2 p fun hq => hp (cq p hq)).trans (o1 p hp)
  have hA2 := hA.of_onlyChanges hAC o2
  have hP2 := Mat.Holds.of_onlyChanges hP1 cpq b2.2
  refine (C36_trmm_right_in_place (A.block k k (n - k) (n - k)) .lower d (C.block 0 k m (n - k)) h2 (fun i j => a (k + i) (k + j)) _
    (fun i j hi hj hij => hA2 _ _ (by simp only [MatV.block] at hi; omega)
      (by simp only [MatV.block] at hj; omega) (inD hij)) hP2 rfl rfl up
    (fun p hp hq => hAC p (aD (by omega) p hp) (cp p hq))).mono fun _ h3 b3 => ?_
  have o3 : OnlyChanges C.Cell h h3 := fun p hp => (b3.2 p fun hq => hp (cp p hq)).trans (o2 p hp)
  have keep := Mat.Holds.of_onlyChanges b2.1 cqp b3.2
  refine hb.unique (Mat.Becomes.colParts hCr hCc hk keep b3.1 o3) fun i j hi hj => ?_
  have halves : mulMat C.cols c (triOf .lower d a) i j = ∑ l ∈ range k, c i l * triOf .lower d a l j +
      ∑ l ∈ range (n - k), c i (k + l) * triOf .lower d a (k + l) j := by
    unfold mulMat
    rw [show C.cols = k + (n - k) by omega, sum_range_add]
  rw [halves]
  by_cases hk' : j < k
  · simp only [hk', if_true, Nat.zero_add]
    refine congrArg₂ (· + ·) rfl (sum_congr rfl fun l _ => ?_)
    rw [triOf_stored _ _ _ (by omega) (by simp only [Triangle.region]; omega)]
  · have ek : k + (j - k) = j := by omega
    have sh : ∀ l, triOf .lower d a (k + l) j = triOf .lower d (fun i j => a (k + i) (k + j)) l (j - k) :=
      fun l => by rw [← triOf_shift, ek]
    simp only [hk', if_false, Nat.zero_add, sh]
    rw [sum_eq_zero (s := range k) fun l hl => by
      have := mem_range.1 hl
      rw [triOf_zero _ _ _ (by omega) (by simp only [Triangle.region]; omega), mul_zero], zero_add]
    rfl

/-- **C73** `triangular_matrix_right_product(A, upper_triangle, d, C)` in place in blocks. -/
theorem C73_trmm_right_in_place_upper_blocks [NonAssocSemiring α] (A : MatV α) (d : Diag) (C : Mat) (h : Heap α)
    (a c : Nat → Nat → α) (n m k : Nat) (hA : A.HoldsOn h (triRegion .upper d) a) (hC : C.Holds h c)
    (hr : A.rows = n) (hc : A.cols = n) (hCr : C.rows = m) (hCc : C.cols = n) (hu : C.Unique)
    (hAC : Apart (A.toMat.CellOn (triRegion .upper d)) C.Cell) (hk : k ≤ n) :
    Ends (trmmRightInPlace A .upper d C) h fun _ h1 => Ends (do
        trmmRightInPlace (A.block k k (n - k) (n - k)) .upper d (C.block 0 k m (n - k))
        gemmUpdate (C.block 0 0 m k).view (A.block 0 k k (n - k)) (C.block 0 k m (n - k)).view (C.block 0 k m (n - k))
        trmmRightInPlace (A.block 0 0 k k) .upper d (C.block 0 0 m k)) h
      fun _ h2 => h1 = h2 := by
  have inD : ∀ {s i j}, triRegion .upper d i j → triRegion .upper d (s + i) (s + j) := fun hij =>
    ⟨by have := hij.1; simp only [Triangle.region] at *; omega, fun hd e => hij.2 hd (by omega)⟩
  have inO : ∀ {i j}, i < k → j < (n - k) → triRegion .upper d (0 + i) (k + j) := fun hi hj =>
    ⟨by simp only [Triangle.region]; omega, fun _ => by omega⟩
  have cp : ∀ p, (C.block 0 0 m k).Cell p → C.Cell p := fun p => Mat.block_cell (by omega) (by omega)
  have cq : ∀ p, (C.block 0 k m (n - k)).Cell p → C.Cell p := fun p => Mat.block_cell (by omega) (by omega)
  have cpq : Apart (C.block 0 0 m k).Cell (C.block 0 k m (n - k)).Cell := by
    rintro p ⟨i, j, hi, hj, _, e⟩ ⟨i', j', hi', hj', _, e'⟩
    simp only [Mat.block] at hi hj hi' hj' e e'
    have := hu _ _ _ _ (by omega) (by omega) trivial (by omega) (by omega) trivial (e.trans e'.symm)
    omega
  have cqp : Apart (C.block 0 k m (n - k)).Cell (C.block 0 0 m k).Cell := fun p hp hq => cpq p hq hp
  have up : (C.block 0 0 m k).Unique := hu.block (by omega) (by omega)
  have uq : (C.block 0 k m (n - k)).Unique := hu.block (by omega) (by omega)
  have aD : ∀ {s r}, s + r ≤ n → ∀ p, (A.block s s r r).toMat.CellOn (triRegion .upper d) p →
      A.toMat.CellOn (triRegion .upper d) p := by
    rintro s r hs p ⟨i, j, hi, hj, hij, e⟩
    simp only [MatV.block] at hi hj e
    exact ⟨s + i, s + j, by omega, by omega, inD hij, e⟩
  have aO : ∀ p, (A.block 0 k k (n - k)).toMat.Cell p → A.toMat.CellOn (triRegion .upper d) p := by
    rintro p ⟨i, j, hi, hj, _, e⟩
    simp only [MatV.block] at hi hj e
    exact ⟨0 + i, k + j, by omega, by omega, inO hi hj, e⟩
  have hP : (C.block 0 0 m k).Holds h (fun i j => c (0 + i) (0 + j)) := fun i j hi hj _ =>
    hC _ _ (by simp only [Mat.block] at hi; omega) (by simp only [Mat.block] at hj; omega) trivial
  have hQ : (C.block 0 k m (n - k)).Holds h (fun i j => c (0 + i) (k + j)) := fun i j hi hj _ =>
    hC _ _ (by simp only [Mat.block] at hi; omega) (by simp only [Mat.block] at hj; omega) trivial
  refine (C36_trmm_right_in_place A .upper d C h a c hA hC (by omega) (by omega) hu hAC).mono fun _ g hb => ?_
  rw [ends_bind]
  refine (C36_trmm_right_in_place (A.block k k (n - k) (n - k)) .upper d (C.block 0 k m (n - k)) h (fun i j => a (k + i) (k + j)) _
    (fun i j hi hj hij => hA _ _ (by simp only [MatV.block] at hi; omega)
      (by simp only [MatV.block] at hj; omega) (inD hij)) hQ rfl rfl uq
    (fun p hp hq => hAC p (aD (by omega) p hp) (cq p hq))).mono fun _ h1 b1 => ?_
  have o1 : OnlyChanges C.Cell h h1 := fun p hp => b1.2 p fun hq => hp (cq p hq)
  have hA1 := hA.of_onlyChanges hAC o1
  have hP1 := Mat.Holds.of_onlyChanges hP cpq b1.2
  rw [ends_bind]
  refine (C31_gemm_update _ _ (C.block 0 k m (n - k)).view (C.block 0 k m (n - k)) h1 (fun i j => c (0 + i) (0 + j)) (fun i j => a (0 + i) (k + j)) _
    hP1.viewHolds (fun i j hi hj _ => hA1 _ _ ?_ ?_ (inO hi hj)) (Mat.Holds.viewHolds b1.1)
    (Mat.Holds.alloc b1.1) rfl rfl rfl rfl rfl uq cpq (fun p hp hq => hAC p (aO p hp) (cq p hq)) uq.aligned).mono fun _ h2 b2 => ?_
  · simp only [MatV.block] at hi
    omega
  · simp only [MatV.block] at hj
    omega
  have o2 : OnlyChanges C.Cell h h2 := fun p hp => (b2.2 p fun hq => hp (cq p hq)).trans (o1 p hp)
  have hA2 := hA.of_onlyChanges hAC o2
  have hP2 := Mat.Holds.of_onlyChanges hP1 cpq b2.2
  refine (C36_trmm_right_in_place (A.block 0 0 k k) .upper d (C.block 0 0 m k) h2 (fun i j => a (0 + i) (0 + j)) _
    (fun i j hi hj hij => hA2 _ _ (by simp only [MatV.block] at hi; omega)
      (by simp only [MatV.block] at hj; omega) (inD hij)) hP2 rfl rfl up
    (fun p hp hq => hAC p (aD (by omega) p hp) (cp p hq))).mono fun _ h3 b3 => ?_
  have o3 : OnlyChanges C.Cell h h3 := fun p hp => (b3.2 p fun hq => hp (cp p hq)).trans (o2 p hp)
  have keep := Mat.Holds.of_onlyChanges b2.1 cqp b3.2
  refine hb.unique (Mat.Becomes.colParts hCr hCc hk b3.1 keep o3) fun i j hi hj => ?_
  have halves : mulMat C.cols c (triOf .upper d a) i j = ∑ l ∈ range k, c i l * triOf .upper d a l j +
      ∑ l ∈ range (n - k), c i (k + l) * triOf .upper d a (k + l) j := by
    unfold mulMat
    rw [show C.cols = k + (n - k) by omega, sum_range_add]
  rw [halves]
  by_cases hk' : j < k
  · simp only [hk', if_true, Nat.zero_add]
    rw [sum_eq_zero (s := range (n - k)) fun l _ => by
      rw [triOf_zero _ _ _ (by omega) (by simp only [Triangle.region]; omega), mul_zero], add_zero]
    rfl
  · have ek : k + (j - k) = j := by omega
    have sh : ∀ l, triOf .upper d a (k + l) j = triOf .upper d (fun i j => a (k + i) (k + j)) l (j - k) :=
      fun l => by rw [← triOf_shift, ek]
    simp only [hk', if_false, Nat.zero_add, sh]
    rw [add_comm]
    refine congrArg₂ (· + ·) ?_ (sum_congr rfl fun l hl => ?_)
    · rfl
    · have : l < k := mem_range.1 hl
      rw [triOf_stored .upper d a (i := l) (j := j) (by omega) (by simp only [Triangle.region]; omega)]
      simp only [ek]

example (d : Diag) : Ends (trmmLeftInPlace (A.view : MatV ℤ) .lower d T) (heap ℤ) fun _ h1 => Ends (do
    trmmLeftInPlace ((A.view : MatV ℤ).block 2 2 1 1) .lower d (T.block 2 0 1 2)
    gemmUpdate ((A.view : MatV ℤ).block 2 0 1 2) (T.block 0 0 2 2).view (T.block 2 0 1 2).view (T.block 2 0 1 2)
    trmmLeftInPlace ((A.view : MatV ℤ).block 0 0 2 2) .lower d (T.block 0 0 2 2)) (heap ℤ) fun _ h2 => h1 = h2 :=
  C73_trmm_left_in_place_lower_blocks _ _ _ _ _ _ 3 2 2 (mholdsV bA) (mholds bT) rfl rfl rfl rfl (by view_facts)
    (by view_facts) (by decide)

example (d : Diag) : Ends (trmmLeftInPlace (A.view : MatV ℤ) .upper d T) (heap ℤ) fun _ h1 => Ends (do
    trmmLeftInPlace ((A.view : MatV ℤ).block 0 0 2 2) .upper d (T.block 0 0 2 2)
    gemmUpdate ((A.view : MatV ℤ).block 0 2 2 1) (T.block 2 0 1 2).view (T.block 0 0 2 2).view (T.block 0 0 2 2)
    trmmLeftInPlace ((A.view : MatV ℤ).block 2 2 1 1) .upper d (T.block 2 0 1 2)) (heap ℤ) fun _ h2 => h1 = h2 :=
  C73_trmm_left_in_place_upper_blocks _ _ _ _ _ _ 3 2 2 (mholdsV bA) (mholds bT) rfl rfl rfl rfl (by view_facts)
    (by view_facts) (by decide)

example (d : Diag) : Ends (trmmRightInPlace (A.view : MatV ℤ) .lower d W) (heap ℤ) fun _ h1 => Ends (do
    trmmRightInPlace ((A.view : MatV ℤ).block 0 0 2 2) .lower d (W.block 0 0 2 2)
    gemmUpdate (W.block 0 2 2 1).view ((A.view : MatV ℤ).block 2 0 1 2) (W.block 0 0 2 2).view (W.block 0 0 2 2)
    trmmRightInPlace ((A.view : MatV ℤ).block 2 2 1 1) .lower d (W.block 0 2 2 1)) (heap ℤ) fun _ h2 => h1 = h2 :=
  C73_trmm_right_in_place_lower_blocks _ _ _ _ _ _ 3 2 2 (mholdsV bA) (mholds bW) rfl rfl rfl rfl (by view_facts)
    (by view_facts) (by decide)

example (d : Diag) : Ends (trmmRightInPlace (A.view : MatV ℤ) .upper d W) (heap ℤ) fun _ h1 => Ends (do
    trmmRightInPlace ((A.view : MatV ℤ).block 2 2 1 1) .upper d (W.block 0 2 2 1)
    gemmUpdate (W.block 0 0 2 2).view ((A.view : MatV ℤ).block 0 2 2 1) (W.block 0 2 2 1).view (W.block 0 2 2 1)
    trmmRightInPlace ((A.view : MatV ℤ).block 0 0 2 2) .upper d (W.block 0 0 2 2)) (heap ℤ) fun _ h2 => h1 = h2 :=
  C73_trmm_right_in_place_upper_blocks _ _ _ _ _ _ 3 2 2 (mholdsV bA) (mholds bW) rfl rfl rfl rfl (by view_facts)
    (by view_facts) (by decide)

end StdBLAS

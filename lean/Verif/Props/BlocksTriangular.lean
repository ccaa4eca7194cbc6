import Verif.Props.BlocksSolveRight
import Verif.Props.Blas3Products

/-!
# Triangular matrix products in 2 × 2 blocks (C73)
-/

namespace StdBLAS
open Finset Witness
variable {α : Type}

/-- **C73** `triangular_matrix_product(A, lower_triangle, d, B, C)` in blocks. -/
theorem C73_trmm_left_lower_blocks [NonAssocSemiring α] (A : MatV α) (d : Diag) (B : MatV α) (C : Mat) (h : Heap α)
    (a b : Nat → Nat → α) (n m k : Nat) (hA : A.HoldsOn h (triRegion .lower d) a) (hB : B.Holds h b) (hC : C.Alloc h)
    (hr : A.rows = n) (hc : A.cols = n) (hBr : B.rows = n) (hBc : B.cols = m) (hCr : C.rows = n) (hCc : C.cols = m)
    (hu : C.Unique) (hAC : Apart (A.toMat.CellOn (triRegion .lower d)) C.Cell) (hBC : Apart B.toMat.Cell C.Cell)
    (hk : k ≤ n) :
    Ends (trmmLeft A .lower d B C) h fun _ h1 => Ends (do
        trmmLeft (A.block 0 0 k k) .lower d (B.block 0 0 k m) (C.block 0 0 k m)
        trmmLeft (A.block k k (n - k) (n - k)) .lower d (B.block k 0 (n - k) m) (C.block k 0 (n - k) m)
        gemmUpdate (A.block k 0 (n - k) k) (B.block 0 0 k m) (C.block k 0 (n - k) m).view (C.block k 0 (n - k) m)) h
      fun _ h2 => h1 = h2 := by
  have inD : ∀ {s i j}, triRegion .lower d i j → triRegion .lower d (s + i) (s + j) := fun hij =>
    ⟨by have := hij.1; simp only [Triangle.region] at *; omega, fun hd e => hij.2 hd (by omega)⟩
  have inO : ∀ {i j}, i < (n - k) → j < k → triRegion .lower d (k + i) (0 + j) := fun hi hj =>
    ⟨by simp only [Triangle.region]; omega, fun _ => by omega⟩
  have cp : ∀ p, (C.block 0 0 k m).Cell p → C.Cell p := fun p => Mat.block_cell (by omega) (by omega)
  have cq : ∀ p, (C.block k 0 (n - k) m).Cell p → C.Cell p := fun p => Mat.block_cell (by omega) (by omega)
  have cpq : Apart (C.block 0 0 k m).Cell (C.block k 0 (n - k) m).Cell := by
    rintro p ⟨i, j, hi, hj, _, e⟩ ⟨i', j', hi', hj', _, e'⟩
    simp only [Mat.block] at hi hj hi' hj' e e'
    have := hu _ _ _ _ (by omega) (by omega) trivial (by omega) (by omega) trivial (e.trans e'.symm)
    omega
  have cqp : Apart (C.block k 0 (n - k) m).Cell (C.block 0 0 k m).Cell := fun p hp hq => cpq p hq hp
  have up : (C.block 0 0 k m).Unique := hu.block (by omega) (by omega)
  have uq : (C.block k 0 (n - k) m).Unique := hu.block (by omega) (by omega)
  have bp : ∀ p, (B.block 0 0 k m).toMat.Cell p → B.toMat.Cell p := by
    rintro p ⟨i, j, hi, hj, _, e⟩
    simp only [MatV.block] at hi hj e
    exact ⟨_, _, by omega, by omega, trivial, e⟩
  have bq : ∀ p, (B.block k 0 (n - k) m).toMat.Cell p → B.toMat.Cell p := by
    rintro p ⟨i, j, hi, hj, _, e⟩
    simp only [MatV.block] at hi hj e
    exact ⟨_, _, by omega, by omega, trivial, e⟩
  have aD : ∀ {s r}, s + r ≤ n → ∀ p, (A.block s s r r).toMat.CellOn (triRegion .lower d) p →
      A.toMat.CellOn (triRegion .lower d) p := by
    rintro s r hs p ⟨i, j, hi, hj, hij, e⟩
    simp only [MatV.block] at hi hj e
    exact ⟨s + i, s + j, by omega, by omega, inD hij, e⟩
  have aO : ∀ p, (A.block k 0 (n - k) k).toMat.Cell p → A.toMat.CellOn (triRegion .lower d) p := by
    rintro p ⟨i, j, hi, hj, _, e⟩
    simp only [MatV.block] at hi hj e
    exact ⟨k + i, 0 + j, by omega, by omega, inO hi hj, e⟩
  refine (C35_trmm_left A .lower d B C h a b hA hB hC (by omega) (by omega) (by omega) (by omega) hu hAC hBC).mono
    fun _ g hb => ?_
  rw [ends_bind]
  refine (C35_trmm_left (A.block 0 0 k k) .lower d (B.block 0 0 k m) (C.block 0 0 k m) h
    (fun i j => a (0 + i) (0 + j)) (fun i j => b (0 + i) (0 + j))
    (fun i j hi hj hij => hA _ _ (by simp only [MatV.block] at hi; omega)
      (by simp only [MatV.block] at hj; omega) (inD hij)) (hB.block (by omega) (by omega))
    (hC.block (by omega) (by omega)) rfl rfl rfl rfl up (fun p hp hq => hAC p (aD (by omega) p hp) (cp p hq))
    (fun p hp hq => hBC p (bp p hp) (cp p hq))).mono fun _ h1 b1 => ?_
  have o1 : OnlyChanges C.Cell h h1 := fun p hp => b1.2 p fun hq => hp (cp p hq)
  have hA1 := hA.of_onlyChanges hAC o1
  rw [ends_bind]
  refine (C35_trmm_left (A.block k k (n - k) (n - k)) .lower d (B.block k 0 (n - k) m) (C.block k 0 (n - k) m) h1
    (fun i j => a (k + i) (k + j)) (fun i j => b (k + i) (0 + j))
    (fun i j hi hj hij => hA1 _ _ (by simp only [MatV.block] at hi; omega)
      (by simp only [MatV.block] at hj; omega) (inD hij))
    ((hB.block (by omega) (by omega)).of_onlyChanges (fun p hp hq => hBC p (bq p hp) hq) o1)
    ((hC.block (by omega) (by omega)).of_onlyChanges cqp b1.2) rfl rfl rfl rfl uq
    (fun p hp hq => hAC p (aD (by omega) p hp) (cq p hq))
    (fun p hp hq => hBC p (bq p hp) (cq p hq))).mono fun _ h2 b2 => ?_
  have o2 : OnlyChanges C.Cell h h2 := fun p hp => (b2.2 p fun hq => hp (cq p hq)).trans (o1 p hp)
  have hA2 := hA.of_onlyChanges hAC o2
  refine (C31_gemm_update (A.block k 0 (n - k) k) (B.block 0 0 k m) (C.block k 0 (n - k) m).view (C.block k 0 (n - k) m) h2
    (fun i j => a (k + i) (0 + j)) (fun i j => b (0 + i) (0 + j)) _ (fun i j hi hj _ => hA2 _ _ ?_ ?_ (inO hi hj))
    ((hB.block (by omega) (by omega)).of_onlyChanges (fun p hp hq => hBC p (bp p hp) hq) o2) (Mat.Holds.viewHolds b2.1)
    (Mat.Holds.alloc b2.1) rfl rfl rfl rfl rfl uq
    (fun p hp hq => hAC p (aO p hp) (cq p hq)) (fun p hp hq => hBC p (bp p hp) (cq p hq)) uq.aligned).mono
    fun _ h3 b3 => ?_
  · simp only [MatV.block] at hi
    omega
  · simp only [MatV.block] at hj
    omega
  have o3 : OnlyChanges C.Cell h h3 := fun p hp => (b3.2 p fun hq => hp (cq p hq)).trans (o2 p hp)
  have keep := Mat.Holds.of_onlyChanges (Mat.Holds.of_onlyChanges b1.1 cpq b2.2) cpq b3.2
  refine hb.unique (Mat.Becomes.rowParts hCr hCc hk keep b3.1 o3) fun i j hi hj => ?_
  have halves : mulMat A.cols (triOf .lower d a) b i j = ∑ l ∈ range k, triOf .lower d a i l * b l j +
      ∑ l ∈ range (n - k), triOf .lower d a i (k + l) * b (k + l) j := by
    unfold mulMat
    rw [show A.cols = k + (n - k) by omega, sum_range_add]
  rw [halves]
  by_cases hk' : i < k
  · simp only [hk', if_true, Nat.zero_add]
    rw [sum_eq_zero (s := range (n - k)) fun l _ => by
      rw [triOf_zero _ _ _ (by omega) (by simp only [Triangle.region]; omega), zero_mul], add_zero]
    rfl
  · have ek : k + (i - k) = i := by omega
    have sh : ∀ l, triOf .lower d a i (k + l) = triOf .lower d (fun i j => a (k + i) (k + j)) (i - k) l :=
      fun l => by rw [← triOf_shift, ek]
    simp only [hk', if_false, Nat.zero_add, sh]
    rw [add_comm]
    refine congrArg₂ (· + ·) ?_ (sum_congr rfl fun l hl => ?_)
    · rfl
    · have : l < k := mem_range.1 hl
      rw [triOf_stored .lower d a (i := i) (j := l) (by omega) (by simp only [Triangle.region]; omega)]
      simp only [ek]

example (d : Diag) : Ends (trmmLeft (A.view : MatV ℤ) .lower d B.view C) (heap ℤ) fun _ h1 => Ends (do
    trmmLeft ((A.view : MatV ℤ).block 0 0 2 2) .lower d ((B.view : MatV ℤ).block 0 0 2 3) (C.block 0 0 2 3)
    trmmLeft ((A.view : MatV ℤ).block 2 2 1 1) .lower d ((B.view : MatV ℤ).block 2 0 1 3) (C.block 2 0 1 3)
    gemmUpdate ((A.view : MatV ℤ).block 2 0 1 2) ((B.view : MatV ℤ).block 0 0 2 3) (C.block 2 0 1 3).view (C.block 2 0 1 3)) (heap ℤ) fun _ h2 => h1 = h2 :=
  C73_trmm_left_lower_blocks _ _ _ _ _ _ _ 3 3 2 (mholdsV bA) (mholdsV bB) (malloc bC) rfl rfl rfl rfl rfl rfl
    (by view_facts) (by view_facts) (by view_facts) (by decide)

/-- **C73** `triangular_matrix_product(A, upper_triangle, d, B, C)` in blocks. -/
theorem C73_trmm_left_upper_blocks [NonAssocSemiring α] (A : MatV α) (d : Diag) (B : MatV α) (C : Mat) (h : Heap α)
    (a b : Nat → Nat → α) (n m k : Nat) (hA : A.HoldsOn h (triRegion .upper d) a) (hB : B.Holds h b) (hC : C.Alloc h)
    (hr : A.rows = n) (hc : A.cols = n) (hBr : B.rows = n) (hBc : B.cols = m) (hCr : C.rows = n) (hCc : C.cols = m)
    (hu : C.Unique) (hAC : Apart (A.toMat.CellOn (triRegion .upper d)) C.Cell) (hBC : Apart B.toMat.Cell C.Cell)
    (hk : k ≤ n) :
    Ends (trmmLeft A .upper d B C) h fun _ h1 => Ends (do
        trmmLeft (A.block k k (n - k) (n - k)) .upper d (B.block k 0 (n - k) m) (C.block k 0 (n - k) m)
        trmmLeft (A.block 0 0 k k) .upper d (B.block 0 0 k m) (C.block 0 0 k m)
        gemmUpdate (A.block 0 k k (n - k)) (B.block k 0 (n - k) m) (C.block 0 0 k m).view (C.block 0 0 k m)) h
      fun _ h2 => h1 = h2 := by
  have inD : ∀ {s i j}, triRegion .upper d i j → triRegion .upper d (s + i) (s + j) := fun hij =>
    ⟨by have := hij.1; simp only [Triangle.region] at *; omega, fun hd e => hij.2 hd (by omega)⟩
  have inO : ∀ {i j}, i < k → j < (n - k) → triRegion .upper d (0 + i) (k + j) := fun hi hj =>
    ⟨by simp only [Triangle.region]; omega, fun _ => by omega⟩
  have cp : ∀ p, (C.block k 0 (n - k) m).Cell p → C.Cell p := fun p => Mat.block_cell (by omega) (by omega)
  have cq : ∀ p, (C.block 0 0 k m).Cell p → C.Cell p := fun p => Mat.block_cell (by omega) (by omega)
  have cpq : Apart (C.block k 0 (n - k) m).Cell (C.block 0 0 k m).Cell := by
    rintro p ⟨i, j, hi, hj, _, e⟩ ⟨i', j', hi', hj', _, e'⟩
    simp only [Mat.block] at hi hj hi' hj' e e'
    have := hu _ _ _ _ (by omega) (by omega) trivial (by omega) (by omega) trivial (e.trans e'.symm)
    omega
  have cqp : Apart (C.block 0 0 k m).Cell (C.block k 0 (n - k) m).Cell := fun p hp hq => cpq p hq hp
  have up : (C.block k 0 (n - k) m).Unique := hu.block (by omega) (by omega)
  have uq : (C.block 0 0 k m).Unique := hu.block (by omega) (by omega)
  have bp : ∀ p, (B.block k 0 (n - k) m).toMat.Cell p → B.toMat.Cell p := by
    rintro p ⟨i, j, hi, hj, _, e⟩
    simp only [MatV.block] at hi hj e
    exact ⟨_, _, by omega, by omega, trivial, e⟩
  have bq : ∀ p, (B.block 0 0 k m).toMat.Cell p → B.toMat.Cell p := by
    rintro p ⟨i, j, hi, hj, _, e⟩
    simp only [MatV.block] at hi hj e
    exact ⟨_, _, by omega, by omega, trivial, e⟩
  have aD : ∀ {s r}, s + r ≤ n → ∀ p, (A.block s s r r).toMat.CellOn (triRegion .upper d) p →
      A.toMat.CellOn (triRegion .upper d) p := by
    rintro s r hs p ⟨i, j, hi, hj, hij, e⟩
    simp only [MatV.block] at hi hj e
    exact ⟨s + i, s + j, by omega, by omega, inD hij, e⟩
  have aO : ∀ p, (A.block 0 k k (n - k)).toMat.Cell p → A.toMat.CellOn (triRegion .upper d) p := by
    rintro p ⟨i, j, hi, hj, _, e⟩
    simp only [MatV.block] at hi hj e
    exact ⟨0 + i, k + j, by omega, by omega, inO hi hj, e⟩
  refine (C35_trmm_left A .upper d B C h a b hA hB hC (by omega) (by omega) (by omega) (by omega) hu hAC hBC).mono
    fun _ g hb => ?_
  rw [ends_bind]
  refine (C35_trmm_left (A.block k k (n - k) (n - k)) .upper d (B.block k 0 (n - k) m) (C.block k 0 (n - k) m) h
    (fun i j => a (k + i) (k + j)) (fun i j => b (k + i) (0 + j))
    (fun i j hi hj hij => hA _ _ (by simp only [MatV.block] at hi; omega)
      (by simp only [MatV.block] at hj; omega) (inD hij)) (hB.block (by omega) (by omega))
    (hC.block (by omega) (by omega)) rfl rfl rfl rfl up (fun p hp hq => hAC p (aD (by omega) p hp) (cp p hq))
    (fun p hp hq => hBC p (bp p hp) (cp p hq))).mono fun _ h1 b1 => ?_
  have o1 : OnlyChanges C.Cell h h1 := fun p hp => b1.2 p fun hq => hp (cp p hq)
  have hA1 := hA.of_onlyChanges hAC o1
  rw [ends_bind]
  refine (C35_trmm_left (A.block 0 0 k k) .upper d (B.block 0 0 k m) (C.block 0 0 k m) h1
    (fun i j => a (0 + i) (0 + j)) (fun i j => b (0 + i) (0 + j))
    (fun i j hi hj hij => hA1 _ _ (by simp only [MatV.block] at hi; omega)
      (by simp only [MatV.block] at hj; omega) (inD hij))
    ((hB.block (by omega) (by omega)).of_onlyChanges (fun p hp hq => hBC p (bq p hp) hq) o1)
    ((hC.block (by omega) (by omega)).of_onlyChanges cqp b1.2) rfl rfl rfl rfl uq
    (fun p hp hq => hAC p (aD (by omega) p hp) (cq p hq))
    (fun p hp hq => hBC p (bq p hp) (cq p hq))).mono fun _ h2 b2 => ?_
  have o2 : OnlyChanges C.Cell h h2 := fun p hp => (b2.2 p fun hq => hp (cq p hq)).trans (o1 p hp)
  have hA2 := hA.of_onlyChanges hAC o2
  refine (C31_gemm_update (A.block 0 k k (n - k)) (B.block k 0 (n - k) m) (C.block 0 0 k m).view (C.block 0 0 k m) h2
    (fun i j => a (0 + i) (k + j)) (fun i j => b (k + i) (0 + j)) _ (fun i j hi hj _ => hA2 _ _ ?_ ?_ (inO hi hj))
    ((hB.block (by omega) (by omega)).of_onlyChanges (fun p hp hq => hBC p (bp p hp) hq) o2) (Mat.Holds.viewHolds b2.1)
    (Mat.Holds.alloc b2.1) rfl rfl rfl rfl rfl uq
    (fun p hp hq => hAC p (aO p hp) (cq p hq)) (fun p hp hq => hBC p (bp p hp) (cq p hq)) uq.aligned).mono
    fun _ h3 b3 => ?_
  · simp only [MatV.block] at hi
    omega
  · simp only [MatV.block] at hj
    omega
  have o3 : OnlyChanges C.Cell h h3 := fun p hp => (b3.2 p fun hq => hp (cq p hq)).trans (o2 p hp)
  have keep := Mat.Holds.of_onlyChanges (Mat.Holds.of_onlyChanges b1.1 cpq b2.2) cpq b3.2
  refine hb.unique (Mat.Becomes.rowParts hCr hCc hk b3.1 keep o3) fun i j hi hj => ?_
  have halves : mulMat A.cols (triOf .upper d a) b i j = ∑ l ∈ range k, triOf .upper d a i l * b l j +
      ∑ l ∈ range (n - k), triOf .upper d a i (k + l) * b (k + l) j := by
    unfold mulMat
    rw [show A.cols = k + (n - k) by omega, sum_range_add]
  rw [halves]
  by_cases hk' : i < k
  · simp only [hk', if_true, Nat.zero_add]
    refine congrArg₂ (· + ·) rfl (sum_congr rfl fun l _ => ?_)
    rw [triOf_stored _ _ _ (by omega) (by simp only [Triangle.region]; omega)]
  · have ek : k + (i - k) = i := by omega
    have sh : ∀ l, triOf .upper d a i (k + l) = triOf .upper d (fun i j => a (k + i) (k + j)) (i - k) l :=
      fun l => by rw [← triOf_shift, ek]
    simp only [hk', if_false, Nat.zero_add, sh]
    rw [sum_eq_zero (s := range k) fun l hl => by
      have := mem_range.1 hl
      rw [triOf_zero _ _ _ (by omega) (by simp only [Triangle.region]; omega), zero_mul], zero_add]
    rfl

example (d : Diag) : Ends (trmmLeft (A.view : MatV ℤ) .upper d B.view C) (heap ℤ) fun _ h1 => Ends (do
    trmmLeft ((A.view : MatV ℤ).block 2 2 1 1) .upper d ((B.view : MatV ℤ).block 2 0 1 3) (C.block 2 0 1 3)
    trmmLeft ((A.view : MatV ℤ).block 0 0 2 2) .upper d ((B.view : MatV ℤ).block 0 0 2 3) (C.block 0 0 2 3)
    gemmUpdate ((A.view : MatV ℤ).block 0 2 2 1) ((B.view : MatV ℤ).block 2 0 1 3) (C.block 0 0 2 3).view (C.block 0 0 2 3)) (heap ℤ) fun _ h2 => h1 = h2 :=
  C73_trmm_left_upper_blocks _ _ _ _ _ _ _ 3 3 2 (mholdsV bA) (mholdsV bB) (malloc bC) rfl rfl rfl rfl rfl rfl
    (by view_facts) (by view_facts) (by view_facts) (by decide)

/-- **C73** `triangular_matrix_product(B, A, lower_triangle, d, C)` in blocks. -/
theorem C73_trmm_right_lower_blocks [NonAssocSemiring α] (A : MatV α) (d : Diag) (B : MatV α) (C : Mat) (h : Heap α)
    (a b : Nat → Nat → α) (n m k : Nat) (hA : A.HoldsOn h (triRegion .lower d) a) (hB : B.Holds h b) (hC : C.Alloc h)
    (hr : A.rows = n) (hc : A.cols = n) (hBr : B.rows = m) (hBc : B.cols = n) (hCr : C.rows = m) (hCc : C.cols = n)
    (hu : C.Unique) (hAC : Apart (A.toMat.CellOn (triRegion .lower d)) C.Cell) (hBC : Apart B.toMat.Cell C.Cell)
    (hk : k ≤ n) :
    Ends (trmmRight B A .lower d C) h fun _ h1 => Ends (do
        trmmRight (B.block 0 k m (n - k)) (A.block k k (n - k) (n - k)) .lower d (C.block 0 k m (n - k))
        trmmRight (B.block 0 0 m k) (A.block 0 0 k k) .lower d (C.block 0 0 m k)
        gemmUpdate (B.block 0 k m (n - k)) (A.block k 0 (n - k) k) (C.block 0 0 m k).view (C.block 0 0 m k)) h
      fun _ h2 => h1 = h2 := by
  have inD : ∀ {s i j}, triRegion .lower d i j → triRegion .lower d (s + i) (s + j) := fun hij =>
    ⟨by have := hij.1; simp only [Triangle.region] at *; omega, fun hd e => hij.2 hd (by omega)⟩
  have inO : ∀ {i j}, i < (n - k) → j < k → triRegion .lower d (k + i) (0 + j) := fun hi hj =>
    ⟨by simp only [Triangle.region]; omega, fun _ => by omega⟩
  have cp : ∀ p, (C.block 0 k m (n - k)).Cell p → C.Cell p := fun p => Mat.block_cell (by omega) (by omega)
  have cq : ∀ p, (C.block 0 0 m k).Cell p → C.Cell p := fun p => Mat.block_cell (by omega) (by omega)
  have cpq : Apart (C.block 0 k m (n - k)).Cell (C.block 0 0 m k).Cell := by
    rintro p ⟨i, j, hi, hj, _, e⟩ ⟨i', j', hi', hj', _, e'⟩
    simp only [Mat.block] at hi hj hi' hj' e e'
    have := hu _ _ _ _ (by omega) (by omega) trivial (by omega) (by omega) trivial (e.trans e'.symm)
    omega
  have cqp : Apart (C.block 0 0 m k).Cell (C.block 0 k m (n - k)).Cell := fun p hp hq => cpq p hq hp
  have up : (C.block 0 k m (n - k)).Unique := hu.block (by omega) (by omega)
  have uq : (C.block 0 0 m k).Unique := hu.block (by omega) (by omega)
  have bp : ∀ p, (B.block 0 k m (n - k)).toMat.Cell p → B.toMat.Cell p := by
    rintro p ⟨i, j, hi, hj, _, e⟩
    simp only [MatV.block] at hi hj e
    exact ⟨_, _, by omega, by omega, trivial, e⟩
  have bq : ∀ p, (B.block 0 0 m k).toMat.Cell p → B.toMat.Cell p := by
    rintro p ⟨i, j, hi, hj, _, e⟩
    simp only [MatV.block] at hi hj e
    exact ⟨_, _, by omega, by omega, trivial, e⟩
  have aD : ∀ {s r}, s + r ≤ n → ∀ p, (A.block s s r r).toMat.CellOn (triRegion .lower d) p →
      A.toMat.CellOn (triRegion .lower d) p := by
    rintro s r hs p ⟨i, j, hi, hj, hij, e⟩
    simp only [MatV.block] at hi hj e
    exact ⟨s + i, s + j, by omega, by omega, inD hij, e⟩
  have aO : ∀ p, (A.block k 0 (n - k) k).toMat.Cell p → A.toMat.CellOn (triRegion .lower d) p := by
    rintro p ⟨i, j, hi, hj, _, e⟩
    simp only [MatV.block] at hi hj e
    exact ⟨k + i, 0 + j, by omega, by omega, inO hi hj, e⟩
  refine (C35_trmm_right B A .lower d C h a b hA hB hC (by omega) (by omega) (by omega) (by omega) hu hAC hBC).mono
    fun _ g hb => ?_
  rw [ends_bind]
  refine (C35_trmm_right (B.block 0 k m (n - k)) (A.block k k (n - k) (n - k)) .lower d (C.block 0 k m (n - k)) h
    (fun i j => a (k + i) (k + j)) (fun i j => b (0 + i) (k + j))
    (fun i j hi hj hij => hA _ _ (by simp only [MatV.block] at hi; omega)
      (by simp only [MatV.block] at hj; omega) (inD hij)) (hB.block (by omega) (by omega))
    (hC.block (by omega) (by omega)) rfl rfl rfl rfl up (fun p hp hq => hAC p (aD (by omega) p hp) (cp p hq))
    (fun p hp hq => hBC p (bp p hp) (cp p hq))).mono fun _ h1 b1 => ?_
  have o1 : OnlyChanges C.Cell h h1 := fun p hp => b1.2 p fun hq => hp (cp p hq)
  have hA1 := hA.of_onlyChanges hAC o1
  rw [ends_bind]
  refine (C35_trmm_right (B.block 0 0 m k) (A.block 0 0 k k) .lower d (C.block 0 0 m k) h1
    (fun i j => a (0 + i) (0 + j)) (fun i j => b (0 + i) (0 + j))
    (fun i j hi hj hij => hA1 _ _ (by simp only [MatV.block] at hi; omega)
      (by simp only [MatV.block] at hj; omega) (inD hij))
    ((hB.block (by omega) (by omega)).of_onlyChanges (fun p hp hq => hBC p (bq p hp) hq) o1)
    ((hC.block (by omega) (by omega)).of_onlyChanges cqp b1.2) rfl rfl rfl rfl uq
    (fun p hp hq => hAC p (aD (by omega) p hp) (cq p hq))
    (fun p hp hq => hBC p (bq p hp) (cq p hq))).mono fun _ h2 b2 => ?_
  have o2 : OnlyChanges C.Cell h h2 := fun p hp => (b2.2 p fun hq => hp (cq p hq)).trans (o1 p hp)
  have hA2 := hA.of_onlyChanges hAC o2
  refine (C31_gemm_update (B.block 0 k m (n - k)) (A.block k 0 (n - k) k) (C.block 0 0 m k).view (C.block 0 0 m k) h2
    (fun i j => b (0 + i) (k + j)) (fun i j => a (k + i) (0 + j)) _ ((hB.block (by omega) (by omega)).of_onlyChanges (fun p hp hq => hBC p (bp p hp) hq) o2)
    (fun i j hi hj _ => hA2 _ _ ?_ ?_ (inO hi hj)) (Mat.Holds.viewHolds b2.1)
    (Mat.Holds.alloc b2.1) rfl rfl rfl rfl rfl uq
    (fun p hp hq => hBC p (bp p hp) (cq p hq)) (fun p hp hq => hAC p (aO p hp) (cq p hq)) uq.aligned).mono
    fun _ h3 b3 => ?_
  · simp only [MatV.block] at hi
    omega
  · simp only [MatV.block] at hj
    omega
  have o3 : OnlyChanges C.Cell h h3 := fun p hp => (b3.2 p fun hq => hp (cq p hq)).trans (o2 p hp)
  have keep := Mat.Holds.of_onlyChanges (Mat.Holds.of_onlyChanges b1.1 cpq b2.2) cpq b3.2
  refine hb.unique (Mat.Becomes.colParts hCr hCc hk b3.1 keep o3) fun i j hi hj => ?_
  have halves : mulMat B.cols b (triOf .lower d a) i j = ∑ l ∈ range k, b i l * triOf .lower d a l j +
      ∑ l ∈ range (n - k), b i (k + l) * triOf .lower d a (k + l) j := by
    unfold mulMat
    rw [show B.cols = k + (n - k) by omega, sum_range_add]
  rw [halves]
  by_cases hk' : j < k
  · simp only [hk', if_true, Nat.zero_add]
    refine congrArg₂ (· + ·) rfl (sum_congr rfl fun l _ => ?_)
    rw [triOf_stored _ _ _ (by omega) (by simp only [Triangle.region]; omega)]
  · have ek : k + (j - k) = j := by omega
    have sh : ∀ l, triOf .lower d a (k + l) j = triOf .lower d (fun i j => a (k + i) (k + j)) l (j - k) :=
      fun l => by rw [← triOf_shift, ek]
    simp only [hk', if_false, Nat.zero_add, sh]
    rw [sum_eq_zero (s := range k) fun l hl => by
      have := mem_range.1 hl
      rw [triOf_zero _ _ _ (by omega) (by simp only [Triangle.region]; omega), mul_zero], zero_add]
    rfl

example (d : Diag) : Ends (trmmRight B.view (A.view : MatV ℤ) .lower d C) (heap ℤ) fun _ h1 => Ends (do
    trmmRight ((B.view : MatV ℤ).block 0 2 3 1) ((A.view : MatV ℤ).block 2 2 1 1) .lower d (C.block 0 2 3 1)
    trmmRight ((B.view : MatV ℤ).block 0 0 3 2) ((A.view : MatV ℤ).block 0 0 2 2) .lower d (C.block 0 0 3 2)
    gemmUpdate ((B.view : MatV ℤ).block 0 2 3 1) ((A.view : MatV ℤ).block 2 0 1 2) (C.block 0 0 3 2).view (C.block 0 0 3 2)) (heap ℤ) fun _ h2 => h1 = h2 :=
  C73_trmm_right_lower_blocks _ _ _ _ _ _ _ 3 3 2 (mholdsV bA) (mholdsV bB) (malloc bC) rfl rfl rfl rfl rfl rfl
    (by view_facts) (by view_facts) (by view_facts) (by decide)

/-- **C73** `triangular_matrix_product(B, A, upper_triangle, d, C)` in blocks. -/
theorem C73_trmm_right_upper_blocks [NonAssocSemiring α] (A : MatV α) (d : Diag) (B : MatV α) (C : Mat) (h : Heap α)
    (a b : Nat → Nat → α) (n m k : Nat) (hA : A.HoldsOn h (triRegion .upper d) a) (hB : B.Holds h b) (hC : C.Alloc h)
    (hr : A.rows = n) (hc : A.cols = n) (hBr : B.rows = m) (hBc : B.cols = n) (hCr : C.rows = m) (hCc : C.cols = n)
    (hu : C.Unique) (hAC : Apart (A.toMat.CellOn (triRegion .upper d)) C.Cell) (hBC : Apart B.toMat.Cell C.Cell)
    (hk : k ≤ n) :
    Ends (trmmRight B A .upper d C) h fun _ h1 => Ends (do
        trmmRight (B.block 0 0 m k) (A.block 0 0 k k) .upper d (C.block 0 0 m k)
        trmmRight (B.block 0 k m (n - k)) (A.block k k (n - k) (n - k)) .upper d (C.block 0 k m (n - k))
        gemmUpdate (B.block 0 0 m k) (A.block 0 k k (n - k)) (C.block 0 k m (n - k)).view (C.block 0 k m (n - k))) h
      fun _ h2 => h1 = h2 := by
  have inD : ∀ {s i j}, triRegion .upper d i j → triRegion .upper d (s + i) (s + j) := fun hij =>
    ⟨by have := hij.1; simp only [Triangle.region] at *; omega, fun hd e => hij.2 hd (by omega)⟩
  have inO : ∀ {i j}, i < k → j < (n - k) → triRegion .upper d (0 + i) (k + j) := fun hi hj =>
    ⟨by simp only [Triangle.region]; omega, fun _ => by omega⟩
  have cp : ∀ p, (C.block 0 0 m k).Cell p → C.Cell p := fun p => Mat.block_cell (by omega) (by omega)
  have cq : ∀ p, (C.block 0 k m (n - k)).Cell p → C.Cell p := fun p => Mat.block_cell (by omega) (by omega)
  have cpq : Apart (C.block 0 0 m k).Cell (C.block 0 k m (n - k)).Cell := by
    rintro p ⟨i, j, hi, hj, _, e⟩ ⟨i', j', hi', hj', _, e'⟩
    simp only [Mat.block] at hi hj hi' hj' e e'
    have := hu _ _ _ _ (by omega) (by omega) trivial (by omega) (by omega) trivial (e.trans e'.symm)
    omega
  have cqp : Apart (C.block 0 k m (n - k)).Cell (C.block 0 0 m k).Cell := fun p hp hq => cpq p hq hp
  have up : (C.block 0 0 m k).Unique := hu.block (by omega) (by omega)
  have uq : (C.block 0 k m (n - k)).Unique := hu.block (by omega) (by omega)
  have bp : ∀ p, (B.block 0 0 m k).toMat.Cell p → B.toMat.Cell p := by
    rintro p ⟨i, j, hi, hj, _, e⟩
    simp only [MatV.block] at hi hj e
    exact ⟨_, _, by omega, by omega, trivial, e⟩
  have bq : ∀ p, (B.block 0 k m (n - k)).toMat.Cell p → B.toMat.Cell p := by
    rintro p ⟨i, j, hi, hj, _, e⟩
    simp only [MatV.block] at hi hj e
    exact ⟨_, _, by omega, by omega, trivial, e⟩
  have aD : ∀ {s r}, s + r ≤ n → ∀ p, (A.block s s r r).toMat.CellOn (triRegion .upper d) p →
      A.toMat.CellOn (triRegion .upper d) p := by
    rintro s r hs p ⟨i, j, hi, hj, hij, e⟩
    simp only [MatV.block] at hi hj e
    exact ⟨s + i, s + j, by omega, by omega, inD hij, e⟩
  have aO : ∀ p, (A.block 0 k k (n - k)).toMat.Cell p → A.toMat.CellOn (triRegion .upper d) p := by
    rintro p ⟨i, j, hi, hj, _, e⟩
    simp only [MatV.block] at hi hj e
    exact ⟨0 + i, k + j, by omega, by omega, inO hi hj, e⟩
  refine (C35_trmm_right B A .upper d C h a b hA hB hC (by omega) (by omega) (by omega) (by omega) hu hAC hBC).mono
    fun _ g hb => ?_
  rw [ends_bind]
  refine (C35_trmm_right (B.block 0 0 m k) (A.block 0 0 k k) .upper d (C.block 0 0 m k) h
    (fun i j => a (0 + i) (0 + j)) (fun i j => b (0 + i) (0 + j))
    (fun i j hi hj hij => hA _ _ (by simp only [MatV.block] at hi; omega)
      (by simp only [MatV.block] at hj; omega) (inD hij)) (hB.block (by omega) (by omega))
    (hC.block (by omega) (by omega)) rfl rfl rfl rfl up (fun p hp hq => hAC p (aD (by omega) p hp) (cp p hq))
    (fun p hp hq => hBC p (bp p hp) (cp p hq))).mono fun _ h1 b1 => ?_
  have o1 : OnlyChanges C.Cell h h1 := fun p hp => b1.2 p fun hq => hp (cp p hq)
  have hA1 := hA.of_onlyChanges hAC o1
  rw [ends_bind]
  refine (C35_trmm_right (B.block 0 k m (n - k)) (A.block k k (n - k) (n - k)) .upper d (C.block 0 k m (n - k)) h1
    (fun i j => a (k + i) (k + j)) (fun i j => b (0 + i) (k + j))
    (fun i j hi hj hij => hA1 _ _ (by simp only [MatV.block] at hi; omega)
      (by simp only [MatV.block] at hj; omega) (inD hij))
    ((hB.block (by omega) (by omega)).of_onlyChanges (fun p hp hq => hBC p (bq p hp) hq) o1)
    ((hC.block (by omega) (by omega)).of_onlyChanges cqp b1.2) rfl rfl rfl rfl uq
    (fun p hp hq => hAC p (aD (by omega) p hp) (cq p hq))
    (fun p hp hq => hBC p (bq p hp) (cq p hq))).mono fun _ h2 b2 => ?_
  have o2 : OnlyChanges C.Cell h h2 := fun p hp => (b2.2 p fun hq => hp (cq p hq)).trans (o1 p hp)
  have hA2 := hA.of_onlyChanges hAC o2
  refine (C31_gemm_update (B.block 0 0 m k) (A.block 0 k k (n - k)) (C.block 0 k m (n - k)).view (C.block 0 k m (n - k)) h2
    (fun i j => b (0 + i) (0 + j)) (fun i j => a (0 + i) (k + j)) _ ((hB.block (by omega) (by omega)).of_onlyChanges (fun p hp hq => hBC p (bp p hp) hq) o2)
    (fun i j hi hj _ => hA2 _ _ ?_ ?_ (inO hi hj)) (Mat.Holds.viewHolds b2.1)
    (Mat.Holds.alloc b2.1) rfl rfl rfl rfl rfl uq
    (fun p hp hq => hBC p (bp p hp) (cq p hq)) (fun p hp hq => hAC p (aO p hp) (cq p hq)) uq.aligned).mono
    fun _ h3 b3 => ?_
  · simp only [MatV.block] at hi
    omega
  · simp only [MatV.block] at hj
    omega
  have o3 : OnlyChanges C.Cell h h3 := fun p hp => (b3.2 p fun hq => hp (cq p hq)).trans (o2 p hp)
  have keep := Mat.Holds.of_onlyChanges (Mat.Holds.of_onlyChanges b1.1 cpq b2.2) cpq b3.2
  refine hb.unique (Mat.Becomes.colParts hCr hCc hk keep b3.1 o3) fun i j hi hj => ?_
  have halves : mulMat B.cols b (triOf .upper d a) i j = ∑ l ∈ range k, b i l * triOf .upper d a l j +
      ∑ l ∈ range (n - k), b i (k + l) * triOf .upper d a (k + l) j := by
    unfold mulMat
    rw [show B.cols = k + (n - k) by omega, sum_range_add]
  rw [halves]
  by_cases hk' : j < k
  · simp only [hk', if_true, Nat.zero_add]
    rw [sum_eq_zero (s := range (n - k)) fun l _ => by
      rw [triOf_zero _ _ _ (by omega) (by simp only [Triangle.region]; omega), mul_zero], add_zero]
    rfl
  · have ek : k + (j - k) = j := by omega
    have sh : ∀ l, triOf .upper d a (k + l) j = triOf .upper d (fun i j => a (k + i) (k + j)) l (j - k) :=
      fun l => by rw [← triOf_shift, ek]
    simp only [hk', if_false, Nat.zero_add, sh]
    rw [add_comm]
    refine congrArg₂ (· + ·) ?_ (sum_congr rfl fun l hl => ?_)
    · rfl
    · have : l < k := mem_range.1 hl
      rw [triOf_stored .upper d a (i := l) (j := j) (by omega) (by simp only [Triangle.region]; omega)]
      simp only [ek]

example (d : Diag) : Ends (trmmRight B.view (A.view : MatV ℤ) .upper d C) (heap ℤ) fun _ h1 => Ends (do
    trmmRight ((B.view : MatV ℤ).block 0 0 3 2) ((A.view : MatV ℤ).block 0 0 2 2) .upper d (C.block 0 0 3 2)
    trmmRight ((B.view : MatV ℤ).block 0 2 3 1) ((A.view : MatV ℤ).block 2 2 1 1) .upper d (C.block 0 2 3 1)
    gemmUpdate ((B.view : MatV ℤ).block 0 0 3 2) ((A.view : MatV ℤ).block 0 2 2 1) (C.block 0 2 3 1).view (C.block 0 2 3 1)) (heap ℤ) fun _ h2 => h1 = h2 :=
  C73_trmm_right_upper_blocks _ _ _ _ _ _ _ 3 3 2 (mholdsV bA) (mholdsV bB) (malloc bC) rfl rfl rfl rfl rfl rfl
    (by view_facts) (by view_facts) (by view_facts) (by decide)

end StdBLAS

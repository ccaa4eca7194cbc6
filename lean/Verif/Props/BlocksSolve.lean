import Verif.Props.BlocksProducts
import Verif.Props.Blas3Solve

/-!
# Triangular solves with many right-hand sides in 2 × 2 blocks (C73)

Solve for one part of the unknowns, subtract what they contribute to the other equations (a matrix product),
solve these: the way that blocked solvers are written.
-/

namespace StdBLAS
open Finset Witness
variable {α : Type}

/-- A matrix whose first `k` rows and whose other rows have changed, in either order. -/
theorem Mat.Becomes.rowParts {X : Mat} {n m k : Nat} {h h1 : Heap α} {v1 v2 : Nat → Nat → α} (hr : X.rows = n)
    (hc : X.cols = m) (hk : k ≤ n) (b1 : (X.block 0 0 k m).Holds h1 v1)
    (b2 : (X.block k 0 (n - k) m).Holds h1 v2) (o : OnlyChanges X.Cell h h1) :
    X.Becomes h h1 fun i j => if i < k then v1 i j else v2 (i - k) j := by
  refine ⟨fun i j hi hj _ => ?_, o⟩
  by_cases hik : i < k
  · have := b1 i j hik (by simp only [Mat.block]; omega) trivial
    simp only [Mat.block, Nat.zero_add] at this
    simp only [hik, if_true, this]
  · have := b2 (i - k) j (by simp only [Mat.block]; omega) (by simp only [Mat.block]; omega) trivial
    simp only [Mat.block, Nat.zero_add, show k + (i - k) = i by omega] at this
    simp only [hik, if_false, this]

theorem Mat.Holds.of_onlyChanges {X : Mat} {h h' : Heap α} {f : Nat → Nat → α} {P : Nat → Prop}
    (hX : X.Holds h f) (hP : Apart X.Cell P) (hc : OnlyChanges P h h') : X.Holds h' f := fun i j hi hj hr => by
  rw [hc _ (hP _ ⟨i, j, hi, hj, hr, rfl⟩), hX i j hi hj hr]

/-- **C73** `triangular_matrix_matrix_left_solve(A, lower_triangle, d, B, X)` in blocks: the first `k` unknowns first. -/
theorem C73_trsm_left_lower_blocks [Field α] (A : MatV α) (d : Diag) (B : MatV α) (X : Mat) (h : Heap α)
    (a b : Nat → Nat → α) (n m k : Nat) (hA : A.HoldsOn h (triRegion .lower d) a) (hB : B.Holds h b) (hX : X.Alloc h)
    (hr : A.rows = n) (hc : A.cols = n) (hXr : X.rows = n) (hXc : X.cols = m) (hBr : B.rows = n) (hBc : B.cols = m)
    (hu : X.Unique) (hAX : Apart (A.toMat.CellOn (triRegion .lower d)) X.Cell) (hBX : B.toMat.Aligned X)
    (hnz : d = .explicit → ∀ i, i < n → a i i ≠ 0) (hk : k ≤ n) :
    Ends (trsmLeft A .lower d B X) h fun _ h1 => Ends (do
        trsmLeft (A.block 0 0 k k) .lower d (B.block 0 0 k m) (X.block 0 0 k m)
        gemmUpdate ((A.block k 0 (n - k) k).scaled (-1)) (X.block 0 0 k m).view (B.block k 0 (n - k) m)
          (X.block k 0 (n - k) m)
        trsmLeft (A.block k k (n - k) (n - k)) .lower d (X.block k 0 (n - k) m).view (X.block k 0 (n - k) m)) h
      fun _ h2 => h1 = h2 := by
  have inD : ∀ {s i j}, triRegion .lower d i j → triRegion .lower d (s + i) (s + j) := fun hij =>
    ⟨by have := hij.1; simp only [Triangle.region] at *; omega, fun hd e => hij.2 hd (by omega)⟩
  have inO : ∀ {i j}, i < (n - k) → j < k → triRegion .lower d (k + i) (0 + j) := fun hi hj =>
    ⟨by simp only [Triangle.region]; omega, fun _ => by omega⟩
  have xp : ∀ p, (X.block 0 0 k m).Cell p → X.Cell p := fun p => Mat.block_cell (by omega) (by omega)
  have xq : ∀ p, (X.block k 0 (n - k) m).Cell p → X.Cell p := fun p => Mat.block_cell (by omega) (by omega)
  have xpq : Apart (X.block 0 0 k m).Cell (X.block k 0 (n - k) m).Cell := by
    rintro p ⟨i, j, hi, hj, _, e⟩ ⟨i', j', hi', hj', _, e'⟩
    simp only [Mat.block] at hi hj hi' hj' e e'
    have := hu _ _ _ _ (by omega) (by omega) trivial (by omega) (by omega) trivial (e.trans e'.symm)
    omega
  have xqp : Apart (X.block k 0 (n - k) m).Cell (X.block 0 0 k m).Cell := fun p hp hq => xpq p hq hp
  have up : (X.block 0 0 k m).Unique := hu.block (by omega) (by omega)
  have uq : (X.block k 0 (n - k) m).Unique := hu.block (by omega) (by omega)
  have aD : ∀ {s r}, s + r ≤ n → ∀ p, (A.block s s r r).toMat.CellOn (triRegion .lower d) p →
      A.toMat.CellOn (triRegion .lower d) p := by
    rintro s r hs p ⟨i, j, hi, hj, hij, e⟩
    simp only [MatV.block] at hi hj e
    exact ⟨s + i, s + j, by omega, by omega, inD hij, e⟩
  have aO : ∀ p, ((A.block k 0 (n - k) k).scaled (-1)).toMat.Cell p → A.toMat.CellOn (triRegion .lower d) p := by
    rintro p ⟨i, j, hi, hj, _, e⟩
    simp only [MatV.block, MatV.scaled] at hi hj e
    exact ⟨k + i, 0 + j, by omega, by omega, inO hi hj, e⟩
  have div : ∀ s, d = .explicit → ∀ i, s + i < n → ∀ w : α, a (s + i) (s + i) * (w / a (s + i) (s + i)) = w ∧
      (a (s + i) (s + i) * w) / a (s + i) (s + i) = w := fun s hd i hi w => by
    have := hnz hd _ hi
    exact ⟨mul_div_cancel₀ w this, mul_div_cancel_left₀ w this⟩
  refine (C37_trsm_left A .lower d B X h a b hA hB hX (by omega) (by omega) (by omega) (by omega) hu hAX hBX
    (fun hd i hi w => by simpa only [Nat.zero_add] using div 0 hd i (by omega) w)).mono
    fun _ g ⟨x, hb, _, uniq⟩ => ?_
  rw [ends_bind]
  refine (C37_trsm_left (A.block 0 0 k k) .lower d (B.block 0 0 k m) (X.block 0 0 k m) h
    (fun i j => a (0 + i) (0 + j)) (fun i j => b (0 + i) (0 + j))
    (fun i j hi hj hij => hA _ _ (by simp only [MatV.block] at hi; omega)
      (by simp only [MatV.block] at hj; omega) (inD hij))
    (hB.block (by omega) (by omega)) (hX.block (by omega) (by omega)) rfl rfl rfl rfl up
    (fun p hp hq => hAX p (aD (by omega) p hp) (xp p hq)) ?_
    (fun hd i hi w => div 0 hd i (by simp only [MatV.block] at hi; omega) w)).mono
    fun _ h1 ⟨v1, b1, s1, _⟩ => ?_
  · intro i j i' j' hi hj hi' hj' e
    simp only [MatV.block, Mat.block] at hi hj hi' hj' e
    have := hBX _ _ _ _ (by omega) (by omega) (by omega) (by omega) e
    omega
  have o1 : OnlyChanges X.Cell h h1 := fun p hp => b1.2 p fun hq => hp (xp p hq)
  have hA1 := hA.of_onlyChanges hAX o1
  rw [ends_bind]
  refine (C31_gemm_update ((A.block k 0 (n - k) k).scaled (-1)) (X.block 0 0 k m).view (B.block k 0 (n - k) m)
    (X.block k 0 (n - k) m) h1 (fun i j => -1 * a (k + i) (0 + j)) v1 (fun i j => b (k + i) (0 + j)) ?_
    b1.1.asView ?_ ((hX.block (by omega) (by omega)).of_onlyChanges xqp b1.2) rfl rfl rfl rfl rfl uq
    (fun p hp hq => hAX p (aO p hp) (xq p hq)) xpq ?_).mono fun _ h2 b2 => ?_
  · intro i j hi hj _
    simp only [MatV.block, MatV.scaled] at hi hj
    obtain ⟨w, hw, e⟩ := hA1 (k + i) (0 + j) (by omega) (by omega) (inO hi hj)
    exact ⟨w, hw, by simp only [MatV.block, MatV.scaled, e]⟩
  · refine (hB.block (by omega) (by omega)).of_onlyChanges ?_ b1.2
    rintro p ⟨i, j, hi, hj, _, e⟩ ⟨i', j', hi', hj', _, e'⟩
    simp only [MatV.block, Mat.block] at hi hj hi' hj' e e'
    have := hBX _ _ _ _ (by omega) (by omega) (by omega) (by omega) (e.trans e'.symm)
    omega
  · intro i j i' j' hi hj hi' hj' e
    simp only [MatV.block, Mat.block] at hi hj hi' hj' e
    have := hBX _ _ _ _ (by omega) (by omega) (by omega) (by omega) e
    omega
  have o2 : OnlyChanges X.Cell h h2 := fun p hp => (b2.2 p fun hq => hp (xq p hq)).trans (o1 p hp)
  have hA2 := hA.of_onlyChanges hAX o2
  refine (C37_trsm_left (A.block k k (n - k) (n - k)) .lower d (X.block k 0 (n - k) m).view (X.block k 0 (n - k) m) h2
    (fun i j => a (k + i) (k + j)) _
    (fun i j hi hj hij => hA2 _ _ (by simp only [MatV.block] at hi; omega)
      (by simp only [MatV.block] at hj; omega) (inD hij))
    b2.1.asView (Mat.Holds.alloc b2.1) rfl rfl rfl rfl uq (fun p hp hq => hAX p (aD (by omega) p hp) (xq p hq))
    uq.aligned (fun hd i hi w => div k hd i (by simp only [MatV.block] at hi; omega) w)).mono
    fun _ h3 ⟨v2, b3, s2, _⟩ => ?_
  have o3 : OnlyChanges X.Cell h h3 := fun p hp => (b3.2 p fun hq => hp (xq p hq)).trans (o2 p hp)
  have keep : (X.block 0 0 k m).Holds h3 v1 :=
    Mat.Holds.of_onlyChanges (Mat.Holds.of_onlyChanges b1.1 xpq b2.2) xpq b3.2
  refine hb.unique (Mat.Becomes.rowParts hXr hXc hk keep b3.1 o3) fun i j hi hj =>
    (uniq (fun i j => if i < k then v1 i j else v2 (i - k) j) (fun i j hi hj => ?_) i j hi hj).symm
  rw [hc]
  refine (mulVec_halves hk _ _ i).trans ?_
  simp only [show ∀ l, ¬k + l < k from fun l => by omega, if_false, Nat.add_sub_cancel_left]
  have first : mulVec k (triOf .lower d a) (fun l => if l < k then v1 l j else v2 (l - k) j) i =
      ∑ l ∈ range k, triOf .lower d a i l * v1 l j :=
    sum_congr rfl fun l hl => by simp only [mem_range.1 hl, if_true]
  rw [first]
  by_cases hik : i < k
  · have e := s1 i j hik (by simp only [Mat.block]; omega)
    simp only [Nat.zero_add] at e
    rw [sum_eq_zero (s := range (n - k)) fun l _ => by
      rw [triOf_zero _ _ _ (by omega) (by simp only [Triangle.region]; omega), zero_mul], add_zero]
    exact e
  · have ek : k + (i - k) = i := by omega
    have e := s2 (i - k) j (by simp only [Mat.block]; omega) (by simp only [Mat.block]; omega)
    simp only [Nat.zero_add, ek] at e
    have s22 : ∀ l, triOf .lower d a i (k + l) = triOf .lower d (fun i j => a (k + i) (k + j)) (i - k) l :=
      fun l => by rw [← triOf_shift, ek]
    have s21 : ∑ l ∈ range k, triOf .lower d a i l * v1 l j = ∑ l ∈ range k, a i l * v1 l j :=
      sum_congr rfl fun l hl => by
        have := mem_range.1 hl
        rw [triOf_stored _ _ _ (by omega) (by simp only [Triangle.region]; omega)]
    simp only [s22]
    refine (congrArg₂ (· + ·) s21 e).trans ?_
    have neg : mulMat k (fun i' j => -1 * a (k + i') j) v1 (i - k) j = -∑ l ∈ range k, a i l * v1 l j := by
      unfold mulMat
      rw [← sum_neg_distrib]
      exact sum_congr rfl fun l _ => by beta_reduce; rw [ek]; ring
    refine (congrArg (fun z => ∑ l ∈ range k, a i l * v1 l j + (b i j + z)) neg).trans ?_
    ring

/-- **C73** The same for `upper_triangle`: the last unknowns first. -/
theorem C73_trsm_left_upper_blocks [Field α] (A : MatV α) (d : Diag) (B : MatV α) (X : Mat) (h : Heap α)
    (a b : Nat → Nat → α) (n m k : Nat) (hA : A.HoldsOn h (triRegion .upper d) a) (hB : B.Holds h b) (hX : X.Alloc h)
    (hr : A.rows = n) (hc : A.cols = n) (hXr : X.rows = n) (hXc : X.cols = m) (hBr : B.rows = n) (hBc : B.cols = m)
    (hu : X.Unique) (hAX : Apart (A.toMat.CellOn (triRegion .upper d)) X.Cell) (hBX : B.toMat.Aligned X)
    (hnz : d = .explicit → ∀ i, i < n → a i i ≠ 0) (hk : k ≤ n) :
    Ends (trsmLeft A .upper d B X) h fun _ h1 => Ends (do
        trsmLeft (A.block k k (n - k) (n - k)) .upper d (B.block k 0 (n - k) m) (X.block k 0 (n - k) m)
        gemmUpdate ((A.block 0 k k (n - k)).scaled (-1)) (X.block k 0 (n - k) m).view (B.block 0 0 k m)
          (X.block 0 0 k m)
        trsmLeft (A.block 0 0 k k) .upper d (X.block 0 0 k m).view (X.block 0 0 k m)) h
      fun _ h2 => h1 = h2 := by
  have inD : ∀ {s i j}, triRegion .upper d i j → triRegion .upper d (s + i) (s + j) := fun hij =>
    ⟨by have := hij.1; simp only [Triangle.region] at *; omega, fun hd e => hij.2 hd (by omega)⟩
  have inO : ∀ {i j}, i < k → j < (n - k) → triRegion .upper d (0 + i) (k + j) := fun hi hj =>
    ⟨by simp only [Triangle.region]; omega, fun _ => by omega⟩
  have xp : ∀ p, (X.block k 0 (n - k) m).Cell p → X.Cell p := fun p => Mat.block_cell (by omega) (by omega)
  have xq : ∀ p, (X.block 0 0 k m).Cell p → X.Cell p := fun p => Mat.block_cell (by omega) (by omega)
  have xpq : Apart (X.block k 0 (n - k) m).Cell (X.block 0 0 k m).Cell := by
    rintro p ⟨i, j, hi, hj, _, e⟩ ⟨i', j', hi', hj', _, e'⟩
    simp only [Mat.block] at hi hj hi' hj' e e'
    have := hu _ _ _ _ (by omega) (by omega) trivial (by omega) (by omega) trivial (e.trans e'.symm)
    omega
  have xqp : Apart (X.block 0 0 k m).Cell (X.block k 0 (n - k) m).Cell := fun p hp hq => xpq p hq hp
  have up : (X.block k 0 (n - k) m).Unique := hu.block (by omega) (by omega)
  have uq : (X.block 0 0 k m).Unique := hu.block (by omega) (by omega)
  have aD : ∀ {s r}, s + r ≤ n → ∀ p, (A.block s s r r).toMat.CellOn (triRegion .upper d) p →
      A.toMat.CellOn (triRegion .upper d) p := by
    rintro s r hs p ⟨i, j, hi, hj, hij, e⟩
    simp only [MatV.block] at hi hj e
    exact ⟨s + i, s + j, by omega, by omega, inD hij, e⟩
  have aO : ∀ p, ((A.block 0 k k (n - k)).scaled (-1)).toMat.Cell p → A.toMat.CellOn (triRegion .upper d) p := by
    rintro p ⟨i, j, hi, hj, _, e⟩
    simp only [MatV.block, MatV.scaled] at hi hj e
    exact ⟨0 + i, k + j, by omega, by omega, inO hi hj, e⟩
  have div : ∀ s, d = .explicit → ∀ i, s + i < n → ∀ w : α, a (s + i) (s + i) * (w / a (s + i) (s + i)) = w ∧
      (a (s + i) (s + i) * w) / a (s + i) (s + i) = w := fun s hd i hi w => by
    have := hnz hd _ hi
    exact ⟨mul_div_cancel₀ w this, mul_div_cancel_left₀ w this⟩
  refine (C37_trsm_left A .upper d B X h a b hA hB hX (by omega) (by omega) (by omega) (by omega) hu hAX hBX
    (fun hd i hi w => by simpa only [Nat.zero_add] using div 0 hd i (by omega) w)).mono
    fun _ g ⟨x, hb, _, uniq⟩ => ?_
  rw [ends_bind]
  refine (C37_trsm_left (A.block k k (n - k) (n - k)) .upper d (B.block k 0 (n - k) m) (X.block k 0 (n - k) m) h
    (fun i j => a (k + i) (k + j)) (fun i j => b (k + i) (0 + j))
    (fun i j hi hj hij => hA _ _ (by simp only [MatV.block] at hi; omega)
      (by simp only [MatV.block] at hj; omega) (inD hij))
    (hB.block (by omega) (by omega)) (hX.block (by omega) (by omega)) rfl rfl rfl rfl up
    (fun p hp hq => hAX p (aD (by omega) p hp) (xp p hq)) ?_
    (fun hd i hi w => div k hd i (by simp only [MatV.block] at hi; omega) w)).mono
    fun _ h1 ⟨v1, b1, s1, _⟩ => ?_
  · intro i j i' j' hi hj hi' hj' e
    simp only [MatV.block, Mat.block] at hi hj hi' hj' e
    have := hBX _ _ _ _ (by omega) (by omega) (by omega) (by omega) e
    omega
  have o1 : OnlyChanges X.Cell h h1 := fun p hp => b1.2 p fun hq => hp (xp p hq)
  have hA1 := hA.of_onlyChanges hAX o1
  rw [ends_bind]
  refine (C31_gemm_update ((A.block 0 k k (n - k)).scaled (-1)) (X.block k 0 (n - k) m).view (B.block 0 0 k m)
    (X.block 0 0 k m) h1 (fun i j => -1 * a (0 + i) (k + j)) v1 (fun i j => b (0 + i) (0 + j)) ?_
    b1.1.asView ?_ ((hX.block (by omega) (by omega)).of_onlyChanges xqp b1.2) rfl rfl rfl rfl rfl uq
    (fun p hp hq => hAX p (aO p hp) (xq p hq)) xpq ?_).mono fun _ h2 b2 => ?_
  · intro i j hi hj _
    simp only [MatV.block, MatV.scaled] at hi hj
    obtain ⟨w, hw, e⟩ := hA1 (0 + i) (k + j) (by omega) (by omega) (inO hi hj)
    exact ⟨w, hw, by simp only [MatV.block, MatV.scaled, e]⟩
  · refine (hB.block (by omega) (by omega)).of_onlyChanges ?_ b1.2
    rintro p ⟨i, j, hi, hj, _, e⟩ ⟨i', j', hi', hj', _, e'⟩
    simp only [MatV.block, Mat.block] at hi hj hi' hj' e e'
    have := hBX _ _ _ _ (by omega) (by omega) (by omega) (by omega) (e.trans e'.symm)
    omega
  · intro i j i' j' hi hj hi' hj' e
    simp only [MatV.block, Mat.block] at hi hj hi' hj' e
    have := hBX _ _ _ _ (by omega) (by omega) (by omega) (by omega) e
    omega
  have o2 : OnlyChanges X.Cell h h2 := fun p hp => (b2.2 p fun hq => hp (xq p hq)).trans (o1 p hp)
  have hA2 := hA.of_onlyChanges hAX o2
  refine (C37_trsm_left (A.block 0 0 k k) .upper d (X.block 0 0 k m).view (X.block 0 0 k m) h2
    (fun i j => a (0 + i) (0 + j)) _
    (fun i j hi hj hij => hA2 _ _ (by simp only [MatV.block] at hi; omega)
      (by simp only [MatV.block] at hj; omega) (inD hij))
    b2.1.asView (Mat.Holds.alloc b2.1) rfl rfl rfl rfl uq (fun p hp hq => hAX p (aD (by omega) p hp) (xq p hq))
    uq.aligned (fun hd i hi w => div 0 hd i (by simp only [MatV.block] at hi; omega) w)).mono
    fun _ h3 ⟨v2, b3, s2, _⟩ => ?_
  have o3 : OnlyChanges X.Cell h h3 := fun p hp => (b3.2 p fun hq => hp (xq p hq)).trans (o2 p hp)
  have keep : (X.block k 0 (n - k) m).Holds h3 v1 :=
    Mat.Holds.of_onlyChanges (Mat.Holds.of_onlyChanges b1.1 xpq b2.2) xpq b3.2
  refine hb.unique (Mat.Becomes.rowParts hXr hXc hk b3.1 keep o3) fun i j hi hj =>
    (uniq (fun i j => if i < k then v2 i j else v1 (i - k) j) (fun i j hi hj => ?_) i j hi hj).symm
  rw [hc]
  refine (mulVec_halves hk _ _ i).trans ?_
  simp only [show ∀ l, ¬k + l < k from fun l => by omega, if_false, Nat.add_sub_cancel_left]
  have first : mulVec k (triOf .upper d a) (fun l => if l < k then v2 l j else v1 (l - k) j) i =
      ∑ l ∈ range k, triOf .upper d a i l * v2 l j :=
    sum_congr rfl fun l hl => by simp only [mem_range.1 hl, if_true]
  rw [first]
  by_cases hik : i < k
  · have e := s2 i j hik (by simp only [Mat.block]; omega)
    simp only [Nat.zero_add] at e
    have s12 : ∑ l ∈ range (n - k), triOf .upper d a i (k + l) * v1 l j =
        ∑ l ∈ range (n - k), a i (k + l) * v1 l j :=
      sum_congr rfl fun l _ => by
        rw [triOf_stored _ _ _ (by omega) (by simp only [Triangle.region]; omega)]
    refine (congrArg₂ (· + ·) e s12).trans ?_
    have neg : mulMat (n - k) (fun i' j => -1 * a i' (k + j)) v1 i j =
        -∑ l ∈ range (n - k), a i (k + l) * v1 l j := by
      unfold mulMat
      rw [← sum_neg_distrib]
      exact sum_congr rfl fun l _ => by ring
    refine (congrArg (fun z => b i j + z + ∑ l ∈ range (n - k), a i (k + l) * v1 l j) neg).trans ?_
    ring
  · have ek : k + (i - k) = i := by omega
    have e := s1 (i - k) j (by simp only [Mat.block]; omega) (by simp only [Mat.block]; omega)
    simp only [Nat.zero_add, ek] at e
    have s22 : ∀ l, triOf .upper d a i (k + l) = triOf .upper d (fun i j => a (k + i) (k + j)) (i - k) l :=
      fun l => by rw [← triOf_shift, ek]
    simp only [s22]
    rw [sum_eq_zero (s := range k) fun l hl => by
      have := mem_range.1 hl
      rw [triOf_zero _ _ _ (by omega) (by simp only [Triangle.region]; omega), zero_mul], zero_add]
    exact e

example : Ends (trsmLeft (A.view : MatV ℚ) .lower .implicitUnit B.view C) (heap ℚ) fun _ h1 => Ends (do
    trsmLeft ((A.view : MatV ℚ).block 0 0 2 2) .lower .implicitUnit ((B.view : MatV ℚ).block 0 0 2 3)
      (C.block 0 0 2 3)
    gemmUpdate (((A.view : MatV ℚ).block 2 0 1 2).scaled (-1)) (C.block 0 0 2 3).view
      ((B.view : MatV ℚ).block 2 0 1 3) (C.block 2 0 1 3)
    trsmLeft ((A.view : MatV ℚ).block 2 2 1 1) .lower .implicitUnit (C.block 2 0 1 3).view (C.block 2 0 1 3))
    (heap ℚ) fun _ h2 => h1 = h2 :=
  C73_trsm_left_lower_blocks _ _ _ _ _ _ _ 3 3 2 (mholdsV bA) (mholdsV bB) (malloc bC) rfl rfl rfl rfl rfl rfl
    (by view_facts) (by view_facts) (by view_facts) (by simp) (by decide)

example : Ends (trsmLeft (A.view : MatV ℚ) .upper .implicitUnit B.view C) (heap ℚ) fun _ h1 => Ends (do
    trsmLeft ((A.view : MatV ℚ).block 1 1 2 2) .upper .implicitUnit ((B.view : MatV ℚ).block 1 0 2 3)
      (C.block 1 0 2 3)
    gemmUpdate (((A.view : MatV ℚ).block 0 1 1 2).scaled (-1)) (C.block 1 0 2 3).view
      ((B.view : MatV ℚ).block 0 0 1 3) (C.block 0 0 1 3)
    trsmLeft ((A.view : MatV ℚ).block 0 0 1 1) .upper .implicitUnit (C.block 0 0 1 3).view (C.block 0 0 1 3))
    (heap ℚ) fun _ h2 => h1 = h2 :=
  C73_trsm_left_upper_blocks _ _ _ _ _ _ _ 3 3 1 (mholdsV bA) (mholdsV bB) (malloc bC) rfl rfl rfl rfl rfl rfl
    (by view_facts) (by view_facts) (by view_facts) (by simp) (by decide)

end StdBLAS

import Verif.Props.BlocksMemory

/-!
# Symmetric, Hermitian and triangular products in 2 × 2 blocks (C73)

The parts are those that `submdspan` gives; the block that is not stored is the (conjugate) transposed view of
the one that is.  The sums come in another order than in one call, so the arithmetic is exact.
-/

namespace StdBLAS
open Finset Witness
variable {α : Type}

/-- A vector changed in two parts. -/
theorem Vec.Becomes.halves {Y : Vec} {n k : Nat} {h h1 h2 : Heap α} {v1 v2 : Nat → α} (hn : Y.ext = n)
    (hk : k ≤ n) (hu : Y.Unique) (b1 : (Y.slice 0 k).Becomes h h1 v1)
    (b2 : (Y.slice k (n - k)).Becomes h1 h2 v2) :
    Y.Becomes h h2 fun i => if i < k then v1 i else v2 (i - k) := by
  refine ⟨fun i hi => ?_, fun p hp => ?_⟩
  · by_cases hik : i < k
    · simp only [hik, if_true]
      rw [b2.2 _ ?_]
      · have := b1.1 i hik
        simp only [Vec.slice, Nat.zero_add] at this
        exact this
      · rintro ⟨j, hj, e⟩
        simp only [Vec.slice] at hj e
        have := hu _ _ (by omega) hi e
        omega
    · simp only [hik, if_false]
      have := b2.1 (i - k) (by simp only [Vec.slice]; omega)
      simp only [Vec.slice, show k + (i - k) = i by omega] at this
      exact this
  · rw [b2.2 p fun hq => hp (Vec.slice_cell (by omega) hq), b1.2 p fun hq => hp (Vec.slice_cell (by omega) hq)]

theorem Vec.slices_apart {Y : Vec} {n k : Nat} (hn : Y.ext = n) (hu : Y.Unique) :
    Apart (Y.slice k (n - k)).Cell (Y.slice 0 k).Cell ∨ n < k := by
  by_cases hk : k ≤ n
  · left
    rintro p ⟨i, hi, e⟩ ⟨j, hj, e'⟩
    simp only [Vec.slice] at hi hj e e'
    have := hu _ _ (by omega) (by omega) (e.trans e'.symm)
    omega
  · omega

/-- A sum over the columns in two parts. -/
theorem mulVec_halves [AddCommMonoid α] [Mul α] {n k : Nat} (hk : k ≤ n) (s : Nat → Nat → α) (f : Nat → α) (i : Nat) :
    mulVec n s f i = mulVec k s f i + ∑ j ∈ range (n - k), s i (k + j) * f (k + j) := by
  unfold mulVec
  conv_lhs => rw [show n = k + (n - k) by omega, sum_range_add]

/-- The product with a symmetric matrix in blocks; `A12` and `A21` stand for the blocks off the diagonal. -/
theorem symv_blocks [NonUnitalNonAssocSemiring α] (A A12 A21 : MatV α) (t : Triangle) (x : VecV α) (y : Vec)
    (h : Heap α) (a : Nat → Nat → α) (f : Nat → α) (n k : Nat) (hA : A.HoldsOn h t.region a) (hx : x.Holds h f)
    (hy : y.Alloc h) (hr : A.rows = n) (hc : A.cols = n) (he : y.ext = n) (hxe : n ≤ x.ext) (hu : y.Unique)
    (hAy : Apart (A.toMat.CellOn t.region) y.Cell) (hxy : Apart x.toVec.Cell y.Cell) (hk : k ≤ n)
    (r12 : A12.rows = k) (c12 : A12.cols = n - k) (r21 : A21.rows = n - k) (c21 : A21.cols = k)
    (h12 : A12.Holds h fun i j => symOf t a i (k + j)) (h21 : A21.Holds h fun i j => symOf t a (k + i) j)
    (i12 : ∀ p, A12.toMat.Cell p → A.toMat.CellOn t.region p)
    (i21 : ∀ p, A21.toMat.Cell p → A.toMat.CellOn t.region p) :
    Ends (symv A t x y) h fun _ h1 => Ends (do
        symv (A.block 0 0 k k) t (x.slice 0 k) (y.slice 0 k)
        gemvUpdate A12 (x.slice k (n - k)) (y.slice 0 k).view (y.slice 0 k)
        gemv A21 (x.slice 0 k) (y.slice k (n - k))
        symvUpdate (A.block k k (n - k) (n - k)) t (x.slice k (n - k)) (y.slice k (n - k)).view
          (y.slice k (n - k))) h
      fun _ h2 => h1 = h2 := by
  have in22 : ∀ {i j}, t.region (k + i) (k + j) ↔ t.region i j := by
    intro i j
    cases t <;> simp only [Triangle.region] <;> omega
  have y1 : ∀ p, (y.slice 0 k).Cell p → y.Cell p := fun p => Vec.slice_cell (by omega)
  have y2 : ∀ p, (y.slice k (n - k)).Cell p → y.Cell p := fun p => Vec.slice_cell (by omega)
  have x1 : ∀ p, (x.slice 0 k).toVec.Cell p → x.toVec.Cell p := by
    rintro p ⟨i, hi, e⟩
    simp only [VecV.slice] at hi e
    exact ⟨0 + i, by omega, e⟩
  have x2 : ∀ p, (x.slice k (n - k)).toVec.Cell p → x.toVec.Cell p := by
    rintro p ⟨i, hi, e⟩
    simp only [VecV.slice] at hi e
    exact ⟨k + i, by omega, e⟩
  have y21 : Apart (y.slice k (n - k)).Cell (y.slice 0 k).Cell :=
    (Vec.slices_apart he hu).resolve_right (by omega)
  have a11 : ∀ p, (A.block 0 0 k k).toMat.CellOn t.region p → A.toMat.CellOn t.region p := by
    rintro p ⟨i, j, hi, hj, hij, e⟩
    simp only [MatV.block] at hi hj e
    exact ⟨0 + i, 0 + j, by omega, by omega, by rwa [Nat.zero_add, Nat.zero_add], e⟩
  have a22 : ∀ p, (A.block k k (n - k) (n - k)).toMat.CellOn t.region p → A.toMat.CellOn t.region p := by
    rintro p ⟨i, j, hi, hj, hij, e⟩
    simp only [MatV.block] at hi hj e
    exact ⟨k + i, k + j, by omega, by omega, in22.2 hij, e⟩
  refine (C17_symv A t x y h a f hA hx hy (by omega) (by omega) (by omega) hu hAy hxy).mono fun _ g hb => ?_
  rw [ends_bind]
  refine (C17_symv (A.block 0 0 k k) t (x.slice 0 k) (y.slice 0 k) h a f
    (fun i j hi hj hij => by
      simp only [MatV.block] at hi hj
      have := hA i j (by omega) (by omega) hij
      simpa only [MatV.block, Nat.zero_add] using this)
    (by simpa only [Nat.zero_add] using hx.slice (k := 0) (m := k) (by omega)) (hy.slice (by omega)) rfl rfl le_rfl
    (hu.slice (by omega)) (fun p hp hq => hAy p (a11 p hp) (y1 p hq))
    (fun p hp hq => hxy p (x1 p hp) (y1 p hq))).mono fun _ h1 b1 => ?_
  have o1 : OnlyChanges y.Cell h h1 := fun p hp => b1.2 p fun hq => hp (y1 p hq)
  rw [ends_bind]
  refine (C16_gemv_update A12 (x.slice k (n - k)) (y.slice 0 k).view (y.slice 0 k) h1 _ (fun i => f (k + i)) _
    (h12.of_onlyChanges (fun p hp hq => hAy p (i12 p hp) hq) o1)
    ((hx.slice (by omega)).of_onlyChanges (fun p hp hq => hxy p (x2 p hp) hq) o1) b1.1.asView b1.1.alloc
    (by simp only [Vec.slice]; omega) (by simp only [VecV.slice]; omega) (by simp only [Vec.view, Vec.slice]; omega)
    (hu.slice (by omega)) (fun p hp hq => hAy p (i12 p hp) (y1 p hq))
    (fun p hp hq => hxy p (x2 p hp) (y1 p hq)) (fun i j hi hj e => hu.slice (by omega) i j hi hj e)).mono
    fun _ h2 b2 => ?_
  have o2 : OnlyChanges y.Cell h h2 := fun p hp => (b2.2 p fun hq => hp (y1 p hq)).trans (o1 p hp)
  have b12 := b1.trans b2
  rw [ends_bind]
  refine (C16_gemv A21 (x.slice 0 k) (y.slice k (n - k)) h2 _ f
    (h21.of_onlyChanges (fun p hp hq => hAy p (i21 p hp) hq) o2)
    (by
      have := (hx.slice (k := 0) (m := k) (by omega)).of_onlyChanges (fun p hp hq => hxy p (x1 p hp) hq) o2
      simpa only [Nat.zero_add] using this)
    ((hy.slice (by omega)).of_onlyChanges y21 b12.2)
    (by simp only [Vec.slice]; omega) (by simp only [VecV.slice]; omega) (hu.slice (by omega))
    (fun p hp hq => hAy p (i21 p hp) (y2 p hq)) (fun p hp hq => hxy p (x1 p hp) (y2 p hq))).mono fun _ h3 b3 => ?_
  have o3 : OnlyChanges y.Cell h h3 := fun p hp => (b3.2 p fun hq => hp (y2 p hq)).trans (o2 p hp)
  refine (C17_symv_update (A.block k k (n - k) (n - k)) t (x.slice k (n - k)) (y.slice k (n - k)).view
    (y.slice k (n - k)) h3 (fun i j => a (k + i) (k + j)) (fun i => f (k + i)) _
    (fun i j hi hj hij => by
      simp only [MatV.block] at hi hj
      exact hA.of_onlyChanges hAy o3 (k + i) (k + j) (by omega) (by omega) (in22.2 hij))
    ((hx.slice (by omega)).of_onlyChanges (fun p hp hq => hxy p (x2 p hp) hq) o3) b3.1.asView b3.1.alloc rfl rfl
    le_rfl le_rfl (hu.slice (by omega)) (fun p hp hq => hAy p (a22 p hp) (y2 p hq))
    (fun p hp hq => hxy p (x2 p hp) (y2 p hq)) (fun i j hi hj e => hu.slice (by omega) i j hi hj e)).mono
    fun _ h4 b4 => ?_
  refine hb.unique (Vec.Becomes.halves he hk hu b12 (b3.trans b4)) fun i hi => ?_
  rw [hc, mulVec_halves hk]
  by_cases hik : i < k
  · rw [if_pos hik, c12]
    rfl
  · rw [if_neg hik]
    have e : k + (i - k) = i := by omega
    have s22 : ∀ j, symOf t (fun i j => a (k + i) (k + j)) (i - k) j = symOf t a i (k + j) := fun j => by
      unfold symOf
      have := in22 (i := i - k) (j := j)
      rw [e] at this
      by_cases q : t.region (i - k) j
      · rw [if_pos q, if_pos (this.2 q)]
        simp only [e]
      · rw [if_neg q, if_neg fun r => q (this.1 r)]
        simp only [e]
    rw [c21, e]
    unfold mulVec
    simp only [s22]
    rfl

/-- The stored block below the diagonal, as it is and transposed. -/
theorem symOf_off {t : Triangle} (a : Nat → Nat → α) {k i j : Nat} :
    (t = .lower → i < k → symOf t a i (k + j) = a (k + j) i) ∧ (t = .lower → j < k → symOf t a (k + i) j = a (k + i) j) ∧
      (t = .upper → i < k → symOf t a i (k + j) = a i (k + j)) ∧
        (t = .upper → j < k → symOf t a (k + i) j = a j (k + i)) := by
  refine ⟨?_, ?_, ?_, ?_⟩ <;> rintro rfl q <;> unfold symOf
  · rw [if_neg (by simp only [Triangle.region]; omega)]
  · rw [if_pos (by simp only [Triangle.region]; omega)]
  · rw [if_pos (by simp only [Triangle.region]; omega)]
  · rw [if_neg (by simp only [Triangle.region]; omega)]

/-- **C73** `symmetric_matrix_vector_product(A, lower_triangle, x, y)` in blocks: the block above the diagonal is
the transposed view of the block below it. -/
theorem C73_symv_lower_blocks [NonUnitalNonAssocSemiring α] (A : MatV α) (x : VecV α) (y : Vec)
    (h : Heap α) (a : Nat → Nat → α) (f : Nat → α) (n k : Nat) (hA : A.HoldsOn h Triangle.lower.region a)
    (hx : x.Holds h f) (hy : y.Alloc h) (hr : A.rows = n) (hc : A.cols = n) (he : y.ext = n) (hxe : n ≤ x.ext)
    (hu : y.Unique) (hAy : Apart (A.toMat.CellOn Triangle.lower.region) y.Cell)
    (hxy : Apart x.toVec.Cell y.Cell) (hk : k ≤ n) :
    Ends (symv A .lower x y) h fun _ h1 => Ends (do
        symv (A.block 0 0 k k) .lower (x.slice 0 k) (y.slice 0 k)
        gemvUpdate (A.block k 0 (n - k) k).transposed (x.slice k (n - k)) (y.slice 0 k).view (y.slice 0 k)
        gemv (A.block k 0 (n - k) k) (x.slice 0 k) (y.slice k (n - k))
        symvUpdate (A.block k k (n - k) (n - k)) .lower (x.slice k (n - k)) (y.slice k (n - k)).view
          (y.slice k (n - k))) h
      fun _ h2 => h1 = h2 := by
  refine symv_blocks A _ _ .lower x y h a f n k hA hx hy hr hc he hxe hu hAy hxy hk rfl rfl rfl rfl ?_ ?_ ?_ ?_
  · intro i j hi hj _
    simp only [MatV.block, MatV.transposed, Mat.transposed] at hi hj
    obtain ⟨w, hw, e⟩ := hA (k + j) (0 + i) (by omega) (by omega) (by simp only [Triangle.region]; omega)
    exact ⟨w, hw, e.trans (by beta_reduce; rw [(symOf_off a).1 rfl hi, Nat.zero_add])⟩
  · intro i j hi hj _
    simp only [MatV.block] at hi hj
    obtain ⟨w, hw, e⟩ := hA (k + i) (0 + j) (by omega) (by omega) (by simp only [Triangle.region]; omega)
    exact ⟨w, hw, e.trans (by beta_reduce; rw [(symOf_off a).2.1 rfl hj, Nat.zero_add])⟩
  · rintro p ⟨i, j, hi, hj, _, e⟩
    simp only [MatV.block, MatV.transposed, Mat.transposed] at hi hj e
    exact ⟨k + j, 0 + i, by omega, by omega, by simp only [Triangle.region]; omega, e⟩
  · rintro p ⟨i, j, hi, hj, _, e⟩
    simp only [MatV.block] at hi hj e
    exact ⟨k + i, 0 + j, by omega, by omega, by simp only [Triangle.region]; omega, e⟩

/-- **C73** The same for `upper_triangle`. -/
theorem C73_symv_upper_blocks [NonUnitalNonAssocSemiring α] (A : MatV α) (x : VecV α) (y : Vec)
    (h : Heap α) (a : Nat → Nat → α) (f : Nat → α) (n k : Nat) (hA : A.HoldsOn h Triangle.upper.region a)
    (hx : x.Holds h f) (hy : y.Alloc h) (hr : A.rows = n) (hc : A.cols = n) (he : y.ext = n) (hxe : n ≤ x.ext)
    (hu : y.Unique) (hAy : Apart (A.toMat.CellOn Triangle.upper.region) y.Cell)
    (hxy : Apart x.toVec.Cell y.Cell) (hk : k ≤ n) :
    Ends (symv A .upper x y) h fun _ h1 => Ends (do
        symv (A.block 0 0 k k) .upper (x.slice 0 k) (y.slice 0 k)
        gemvUpdate (A.block 0 k k (n - k)) (x.slice k (n - k)) (y.slice 0 k).view (y.slice 0 k)
        gemv (A.block 0 k k (n - k)).transposed (x.slice 0 k) (y.slice k (n - k))
        symvUpdate (A.block k k (n - k) (n - k)) .upper (x.slice k (n - k)) (y.slice k (n - k)).view
          (y.slice k (n - k))) h
      fun _ h2 => h1 = h2 := by
  refine symv_blocks A _ _ .upper x y h a f n k hA hx hy hr hc he hxe hu hAy hxy hk rfl rfl rfl rfl ?_ ?_ ?_ ?_
  · intro i j hi hj _
    simp only [MatV.block] at hi hj
    obtain ⟨w, hw, e⟩ := hA (0 + i) (k + j) (by omega) (by omega) (by simp only [Triangle.region]; omega)
    exact ⟨w, hw, e.trans (by beta_reduce; rw [(symOf_off a).2.2.1 rfl hi, Nat.zero_add])⟩
  · intro i j hi hj _
    simp only [MatV.block, MatV.transposed, Mat.transposed] at hi hj
    obtain ⟨w, hw, e⟩ := hA (0 + j) (k + i) (by omega) (by omega) (by simp only [Triangle.region]; omega)
    exact ⟨w, hw, e.trans (by beta_reduce; rw [(symOf_off a).2.2.2 rfl hj, Nat.zero_add])⟩
  · rintro p ⟨i, j, hi, hj, _, e⟩
    simp only [MatV.block] at hi hj e
    exact ⟨0 + i, k + j, by omega, by omega, by simp only [Triangle.region]; omega, e⟩
  · rintro p ⟨i, j, hi, hj, _, e⟩
    simp only [MatV.block, MatV.transposed, Mat.transposed] at hi hj e
    exact ⟨0 + j, k + i, by omega, by omega, by simp only [Triangle.region]; omega, e⟩

example : Ends (symv (A.view : MatV ℤ) .lower x.view y) (heap ℤ) fun _ h1 => Ends (do
    symv ((A.view : MatV ℤ).block 0 0 2 2) .lower ((x.view : VecV ℤ).slice 0 2) (y.slice 0 2)
    gemvUpdate ((A.view : MatV ℤ).block 2 0 1 2).transposed ((x.view : VecV ℤ).slice 2 1) (y.slice 0 2).view
      (y.slice 0 2)
    gemv ((A.view : MatV ℤ).block 2 0 1 2) ((x.view : VecV ℤ).slice 0 2) (y.slice 2 1)
    symvUpdate ((A.view : MatV ℤ).block 2 2 1 1) .lower ((x.view : VecV ℤ).slice 2 1) (y.slice 2 1).view
      (y.slice 2 1)) (heap ℤ) fun _ h2 => h1 = h2 :=
  C73_symv_lower_blocks _ _ _ _ _ _ 3 2 (mholdsV bA) (holdsV bx) (alloc by_) rfl rfl rfl le_rfl (by view_facts)
    (by view_facts) (by view_facts) (by decide)

example : Ends (symv (A.view : MatV ℤ) .upper x.view y) (heap ℤ) fun _ h1 => Ends (do
    symv ((A.view : MatV ℤ).block 0 0 1 1) .upper ((x.view : VecV ℤ).slice 0 1) (y.slice 0 1)
    gemvUpdate ((A.view : MatV ℤ).block 0 1 1 2) ((x.view : VecV ℤ).slice 1 2) (y.slice 0 1).view
      (y.slice 0 1)
    gemv ((A.view : MatV ℤ).block 0 1 1 2).transposed ((x.view : VecV ℤ).slice 0 1) (y.slice 1 2)
    symvUpdate ((A.view : MatV ℤ).block 1 1 2 2) .upper ((x.view : VecV ℤ).slice 1 2) (y.slice 1 2).view
      (y.slice 1 2)) (heap ℤ) fun _ h2 => h1 = h2 :=
  C73_symv_upper_blocks _ _ _ _ _ _ 3 1 (mholdsV bA) (holdsV bx) (alloc by_) rfl rfl rfl le_rfl (by view_facts)
    (by view_facts) (by view_facts) (by decide)

/-! ## Hermitian -/

/-- The product with a Hermitian matrix in blocks; `A12` and `A21` stand for the blocks off the diagonal. -/
theorem hemv_blocks [NonUnitalNonAssocSemiring α] [ConjOps α] (A A12 A21 : MatV α) (t : Triangle) (x : VecV α) (y : Vec)
    (h : Heap α) (a : Nat → Nat → α) (f : Nat → α) (n k : Nat) (hA : A.HoldsOn h t.region a) (hx : x.Holds h f)
    (hy : y.Alloc h) (hr : A.rows = n) (hc : A.cols = n) (he : y.ext = n) (hxe : n ≤ x.ext) (hu : y.Unique)
    (hAy : Apart (A.toMat.CellOn t.region) y.Cell) (hxy : Apart x.toVec.Cell y.Cell) (hk : k ≤ n)
    (r12 : A12.rows = k) (c12 : A12.cols = n - k) (r21 : A21.rows = n - k) (c21 : A21.cols = k)
    (h12 : A12.Holds h fun i j => hermOf t a i (k + j)) (h21 : A21.Holds h fun i j => hermOf t a (k + i) j)
    (i12 : ∀ p, A12.toMat.Cell p → A.toMat.CellOn t.region p)
    (i21 : ∀ p, A21.toMat.Cell p → A.toMat.CellOn t.region p) :
    Ends (hemv A t x y) h fun _ h1 => Ends (do
        hemv (A.block 0 0 k k) t (x.slice 0 k) (y.slice 0 k)
        gemvUpdate A12 (x.slice k (n - k)) (y.slice 0 k).view (y.slice 0 k)
        gemv A21 (x.slice 0 k) (y.slice k (n - k))
        hemvUpdate (A.block k k (n - k) (n - k)) t (x.slice k (n - k)) (y.slice k (n - k)).view
          (y.slice k (n - k))) h
      fun _ h2 => h1 = h2 := by
  have in22 : ∀ {i j}, t.region (k + i) (k + j) ↔ t.region i j := by
    intro i j
    cases t <;> simp only [Triangle.region] <;> omega
  have y1 : ∀ p, (y.slice 0 k).Cell p → y.Cell p := fun p => Vec.slice_cell (by omega)
  have y2 : ∀ p, (y.slice k (n - k)).Cell p → y.Cell p := fun p => Vec.slice_cell (by omega)
  have x1 : ∀ p, (x.slice 0 k).toVec.Cell p → x.toVec.Cell p := by
    rintro p ⟨i, hi, e⟩
    simp only [VecV.slice] at hi e
    exact ⟨0 + i, by omega, e⟩
  have x2 : ∀ p, (x.slice k (n - k)).toVec.Cell p → x.toVec.Cell p := by
    rintro p ⟨i, hi, e⟩
    simp only [VecV.slice] at hi e
    exact ⟨k + i, by omega, e⟩
  have y21 : Apart (y.slice k (n - k)).Cell (y.slice 0 k).Cell :=
    (Vec.slices_apart he hu).resolve_right (by omega)
  have a11 : ∀ p, (A.block 0 0 k k).toMat.CellOn t.region p → A.toMat.CellOn t.region p := by
    rintro p ⟨i, j, hi, hj, hij, e⟩
    simp only [MatV.block] at hi hj e
    exact ⟨0 + i, 0 + j, by omega, by omega, by rwa [Nat.zero_add, Nat.zero_add], e⟩
  have a22 : ∀ p, (A.block k k (n - k) (n - k)).toMat.CellOn t.region p → A.toMat.CellOn t.region p := by
    rintro p ⟨i, j, hi, hj, hij, e⟩
    simp only [MatV.block] at hi hj e
    exact ⟨k + i, k + j, by omega, by omega, in22.2 hij, e⟩
  refine (C18_hemv A t x y h a f hA hx hy (by omega) (by omega) (by omega) hu hAy hxy).mono fun _ g hb => ?_
  rw [ends_bind]
  refine (C18_hemv (A.block 0 0 k k) t (x.slice 0 k) (y.slice 0 k) h a f
    (fun i j hi hj hij => by
      simp only [MatV.block] at hi hj
      have := hA i j (by omega) (by omega) hij
      simpa only [MatV.block, Nat.zero_add] using this)
    (by simpa only [Nat.zero_add] using hx.slice (k := 0) (m := k) (by omega)) (hy.slice (by omega)) rfl rfl le_rfl
    (hu.slice (by omega)) (fun p hp hq => hAy p (a11 p hp) (y1 p hq))
    (fun p hp hq => hxy p (x1 p hp) (y1 p hq))).mono fun _ h1 b1 => ?_
  have o1 : OnlyChanges y.Cell h h1 := fun p hp => b1.2 p fun hq => hp (y1 p hq)
  rw [ends_bind]
  refine (C16_gemv_update A12 (x.slice k (n - k)) (y.slice 0 k).view (y.slice 0 k) h1 _ (fun i => f (k + i)) _
    (h12.of_onlyChanges (fun p hp hq => hAy p (i12 p hp) hq) o1)
    ((hx.slice (by omega)).of_onlyChanges (fun p hp hq => hxy p (x2 p hp) hq) o1) b1.1.asView b1.1.alloc
    (by simp only [Vec.slice]; omega) (by simp only [VecV.slice]; omega) (by simp only [Vec.view, Vec.slice]; omega)
    (hu.slice (by omega)) (fun p hp hq => hAy p (i12 p hp) (y1 p hq))
    (fun p hp hq => hxy p (x2 p hp) (y1 p hq)) (fun i j hi hj e => hu.slice (by omega) i j hi hj e)).mono
    fun _ h2 b2 => ?_
  have o2 : OnlyChanges y.Cell h h2 := fun p hp => (b2.2 p fun hq => hp (y1 p hq)).trans (o1 p hp)
  have b12 := b1.trans b2
  rw [ends_bind]
  refine (C16_gemv A21 (x.slice 0 k) (y.slice k (n - k)) h2 _ f
    (h21.of_onlyChanges (fun p hp hq => hAy p (i21 p hp) hq) o2)
    (by
      have := (hx.slice (k := 0) (m := k) (by omega)).of_onlyChanges (fun p hp hq => hxy p (x1 p hp) hq) o2
      simpa only [Nat.zero_add] using this)
    ((hy.slice (by omega)).of_onlyChanges y21 b12.2)
    (by simp only [Vec.slice]; omega) (by simp only [VecV.slice]; omega) (hu.slice (by omega))
    (fun p hp hq => hAy p (i21 p hp) (y2 p hq)) (fun p hp hq => hxy p (x1 p hp) (y2 p hq))).mono fun _ h3 b3 => ?_
  have o3 : OnlyChanges y.Cell h h3 := fun p hp => (b3.2 p fun hq => hp (y2 p hq)).trans (o2 p hp)
  refine (C18_hemv_update (A.block k k (n - k) (n - k)) t (x.slice k (n - k)) (y.slice k (n - k)).view
    (y.slice k (n - k)) h3 (fun i j => a (k + i) (k + j)) (fun i => f (k + i)) _
    (fun i j hi hj hij => by
      simp only [MatV.block] at hi hj
      exact hA.of_onlyChanges hAy o3 (k + i) (k + j) (by omega) (by omega) (in22.2 hij))
    ((hx.slice (by omega)).of_onlyChanges (fun p hp hq => hxy p (x2 p hp) hq) o3) b3.1.asView b3.1.alloc rfl rfl
    le_rfl le_rfl (hu.slice (by omega)) (fun p hp hq => hAy p (a22 p hp) (y2 p hq))
    (fun p hp hq => hxy p (x2 p hp) (y2 p hq)) (fun i j hi hj e => hu.slice (by omega) i j hi hj e)).mono
    fun _ h4 b4 => ?_
  refine hb.unique (Vec.Becomes.halves he hk hu b12 (b3.trans b4)) fun i hi => ?_
  rw [hc, mulVec_halves hk]
  by_cases hik : i < k
  · rw [if_pos hik, c12]
    rfl
  · rw [if_neg hik]
    have e : k + (i - k) = i := by omega
    have s22 : ∀ j, hermOf t (fun i j => a (k + i) (k + j)) (i - k) j = hermOf t a i (k + j) := fun j => by
      unfold hermOf
      have := in22 (i := i - k) (j := j)
      rw [e] at this
      by_cases r : i - k = j
      · rw [if_pos r, if_pos (by omega)]
        simp only [e]
      have r' : ¬i = k + j := by omega
      rw [if_neg r, if_neg r']
      by_cases q : t.region (i - k) j
      · rw [if_pos q, if_pos (this.2 q)]
        simp only [e]
      · rw [if_neg q, if_neg fun r => q (this.1 r)]
        simp only [e]
    rw [c21, e]
    unfold mulVec
    simp only [s22]
    rfl

/-- The stored block off the diagonal, as it is and conjugate transposed. -/
theorem hermOf_off [ConjOps α] {t : Triangle} (a : Nat → Nat → α) {k i j : Nat} :
    (t = .lower → i < k → hermOf t a i (k + j) = ConjOps.conj (a (k + j) i)) ∧
      (t = .lower → j < k → hermOf t a (k + i) j = a (k + i) j) ∧
        (t = .upper → i < k → hermOf t a i (k + j) = a i (k + j)) ∧
          (t = .upper → j < k → hermOf t a (k + i) j = ConjOps.conj (a j (k + i))) := by
  refine ⟨?_, ?_, ?_, ?_⟩ <;> rintro rfl q <;> unfold hermOf <;> rw [if_neg (by omega)]
  · rw [if_neg (by simp only [Triangle.region]; omega)]
  · rw [if_pos (by simp only [Triangle.region]; omega)]
  · rw [if_pos (by simp only [Triangle.region]; omega)]
  · rw [if_neg (by simp only [Triangle.region]; omega)]

/-- **C73** `hermitian_matrix_vector_product(A, lower_triangle, x, y)` in blocks: the block above the diagonal is
the conjugate transposed view of the block below it. -/
theorem C73_hemv_lower_blocks [NonUnitalNonAssocSemiring α] [ConjOps α] (A : MatV α) (x : VecV α) (y : Vec)
    (h : Heap α) (a : Nat → Nat → α) (f : Nat → α) (n k : Nat) (hA : A.HoldsOn h Triangle.lower.region a)
    (hx : x.Holds h f) (hy : y.Alloc h) (hr : A.rows = n) (hc : A.cols = n) (he : y.ext = n) (hxe : n ≤ x.ext)
    (hu : y.Unique) (hAy : Apart (A.toMat.CellOn Triangle.lower.region) y.Cell)
    (hxy : Apart x.toVec.Cell y.Cell) (hk : k ≤ n) :
    Ends (hemv A .lower x y) h fun _ h1 => Ends (do
        hemv (A.block 0 0 k k) .lower (x.slice 0 k) (y.slice 0 k)
        gemvUpdate (A.block k 0 (n - k) k).conjugateTransposed (x.slice k (n - k)) (y.slice 0 k).view (y.slice 0 k)
        gemv (A.block k 0 (n - k) k) (x.slice 0 k) (y.slice k (n - k))
        hemvUpdate (A.block k k (n - k) (n - k)) .lower (x.slice k (n - k)) (y.slice k (n - k)).view
          (y.slice k (n - k))) h
      fun _ h2 => h1 = h2 := by
  refine hemv_blocks A _ _ .lower x y h a f n k hA hx hy hr hc he hxe hu hAy hxy hk rfl rfl rfl rfl ?_ ?_ ?_ ?_
  · intro i j hi hj _
    simp only [MatV.block, MatV.conjugateTransposed, MatV.conjugated, MatV.transposed, Mat.transposed] at hi hj
    obtain ⟨w, hw, e⟩ := hA (k + j) (0 + i) (by omega) (by omega) (by simp only [Triangle.region]; omega)
    exact ⟨w, hw, (congrArg ConjOps.conj e).trans (by beta_reduce; rw [(hermOf_off a).1 rfl hi, Nat.zero_add])⟩
  · intro i j hi hj _
    simp only [MatV.block] at hi hj
    obtain ⟨w, hw, e⟩ := hA (k + i) (0 + j) (by omega) (by omega) (by simp only [Triangle.region]; omega)
    exact ⟨w, hw, e.trans (by beta_reduce; rw [(hermOf_off a).2.1 rfl hj, Nat.zero_add])⟩
  · rintro p ⟨i, j, hi, hj, _, e⟩
    simp only [MatV.block, MatV.conjugateTransposed, MatV.conjugated, MatV.transposed, Mat.transposed] at hi hj e
    exact ⟨k + j, 0 + i, by omega, by omega, by simp only [Triangle.region]; omega, e⟩
  · rintro p ⟨i, j, hi, hj, _, e⟩
    simp only [MatV.block] at hi hj e
    exact ⟨k + i, 0 + j, by omega, by omega, by simp only [Triangle.region]; omega, e⟩

/-- **C73** The same for `upper_triangle`. -/
theorem C73_hemv_upper_blocks [NonUnitalNonAssocSemiring α] [ConjOps α] (A : MatV α) (x : VecV α) (y : Vec)
    (h : Heap α) (a : Nat → Nat → α) (f : Nat → α) (n k : Nat) (hA : A.HoldsOn h Triangle.upper.region a)
    (hx : x.Holds h f) (hy : y.Alloc h) (hr : A.rows = n) (hc : A.cols = n) (he : y.ext = n) (hxe : n ≤ x.ext)
    (hu : y.Unique) (hAy : Apart (A.toMat.CellOn Triangle.upper.region) y.Cell)
    (hxy : Apart x.toVec.Cell y.Cell) (hk : k ≤ n) :
    Ends (hemv A .upper x y) h fun _ h1 => Ends (do
        hemv (A.block 0 0 k k) .upper (x.slice 0 k) (y.slice 0 k)
        gemvUpdate (A.block 0 k k (n - k)) (x.slice k (n - k)) (y.slice 0 k).view (y.slice 0 k)
        gemv (A.block 0 k k (n - k)).conjugateTransposed (x.slice 0 k) (y.slice k (n - k))
        hemvUpdate (A.block k k (n - k) (n - k)) .upper (x.slice k (n - k)) (y.slice k (n - k)).view
          (y.slice k (n - k))) h
      fun _ h2 => h1 = h2 := by
  refine hemv_blocks A _ _ .upper x y h a f n k hA hx hy hr hc he hxe hu hAy hxy hk rfl rfl rfl rfl ?_ ?_ ?_ ?_
  · intro i j hi hj _
    simp only [MatV.block] at hi hj
    obtain ⟨w, hw, e⟩ := hA (0 + i) (k + j) (by omega) (by omega) (by simp only [Triangle.region]; omega)
    exact ⟨w, hw, e.trans (by beta_reduce; rw [(hermOf_off a).2.2.1 rfl hi, Nat.zero_add])⟩
  · intro i j hi hj _
    simp only [MatV.block, MatV.conjugateTransposed, MatV.conjugated, MatV.transposed, Mat.transposed] at hi hj
    obtain ⟨w, hw, e⟩ := hA (0 + j) (k + i) (by omega) (by omega) (by simp only [Triangle.region]; omega)
    exact ⟨w, hw, (congrArg ConjOps.conj e).trans (by beta_reduce; rw [(hermOf_off a).2.2.2 rfl hj, Nat.zero_add])⟩
  · rintro p ⟨i, j, hi, hj, _, e⟩
    simp only [MatV.block] at hi hj e
    exact ⟨0 + i, k + j, by omega, by omega, by simp only [Triangle.region]; omega, e⟩
  · rintro p ⟨i, j, hi, hj, _, e⟩
    simp only [MatV.block, MatV.conjugateTransposed, MatV.conjugated, MatV.transposed, Mat.transposed] at hi hj e
    exact ⟨0 + j, k + i, by omega, by omega, by simp only [Triangle.region]; omega, e⟩

example : Ends (hemv (A.view : MatV ℂ) .lower x.view y) (heap ℂ) fun _ h1 => Ends (do
    hemv ((A.view : MatV ℂ).block 0 0 2 2) .lower ((x.view : VecV ℂ).slice 0 2) (y.slice 0 2)
    gemvUpdate ((A.view : MatV ℂ).block 2 0 1 2).conjugateTransposed ((x.view : VecV ℂ).slice 2 1) (y.slice 0 2).view
      (y.slice 0 2)
    gemv ((A.view : MatV ℂ).block 2 0 1 2) ((x.view : VecV ℂ).slice 0 2) (y.slice 2 1)
    hemvUpdate ((A.view : MatV ℂ).block 2 2 1 1) .lower ((x.view : VecV ℂ).slice 2 1) (y.slice 2 1).view
      (y.slice 2 1)) (heap ℂ) fun _ h2 => h1 = h2 :=
  C73_hemv_lower_blocks _ _ _ _ _ _ 3 2 (mholdsV bA) (holdsV bx) (alloc by_) rfl rfl rfl le_rfl (by view_facts)
    (by view_facts) (by view_facts) (by decide)

example : Ends (hemv (A.view : MatV ℂ) .upper x.view y) (heap ℂ) fun _ h1 => Ends (do
    hemv ((A.view : MatV ℂ).block 0 0 1 1) .upper ((x.view : VecV ℂ).slice 0 1) (y.slice 0 1)
    gemvUpdate ((A.view : MatV ℂ).block 0 1 1 2) ((x.view : VecV ℂ).slice 1 2) (y.slice 0 1).view
      (y.slice 0 1)
    gemv ((A.view : MatV ℂ).block 0 1 1 2).conjugateTransposed ((x.view : VecV ℂ).slice 0 1) (y.slice 1 2)
    hemvUpdate ((A.view : MatV ℂ).block 1 1 2 2) .upper ((x.view : VecV ℂ).slice 1 2) (y.slice 1 2).view
      (y.slice 1 2)) (heap ℂ) fun _ h2 => h1 = h2 :=
  C73_hemv_upper_blocks _ _ _ _ _ _ 3 1 (mholdsV bA) (holdsV bx) (alloc by_) rfl rfl rfl le_rfl (by view_facts)
    (by view_facts) (by view_facts) (by decide)

/-! ## Triangular -/

theorem triOf_shift [Zero α] [One α] (t : Triangle) (d : Diag) (a : Nat → Nat → α) (k i j : Nat) :
    triOf t d a (k + i) (k + j) = triOf t d (fun i j => a (k + i) (k + j)) i j := by
  unfold triOf
  by_cases q : i = j
  · rw [if_pos q, if_pos (by omega)]
  · rw [if_neg q, if_neg (by omega)]
    by_cases r : t.region i j
    · rw [if_pos r, if_pos (by cases t <;> simp only [Triangle.region] at * <;> omega)]
    · rw [if_neg r, if_neg (by cases t <;> simp only [Triangle.region] at * <;> omega)]

theorem triOf_stored [Zero α] [One α] (t : Triangle) (d : Diag) (a : Nat → Nat → α) {i j : Nat} (q : i ≠ j)
    (r : t.region i j) : triOf t d a i j = a i j := by
  unfold triOf
  rw [if_neg q, if_pos r]

theorem triOf_zero [Zero α] [One α] (t : Triangle) (d : Diag) (a : Nat → Nat → α) {i j : Nat} (q : i ≠ j)
    (r : ¬t.region i j) : triOf t d a i j = 0 := by
  unfold triOf
  rw [if_neg q, if_neg r]

/-- **C73** `triangular_matrix_vector_product(A, lower_triangle, d, x, y)` in blocks. -/
theorem C73_trmv_lower_blocks [NonAssocSemiring α] (A : MatV α) (d : Diag) (x : VecV α) (y : Vec)
    (h : Heap α) (a : Nat → Nat → α) (f : Nat → α) (n k : Nat) (hA : A.HoldsOn h (triRegion .lower d) a)
    (hx : x.Holds h f) (hy : y.Alloc h) (hr : A.rows = n) (hc : A.cols = n) (he : y.ext = n) (hxe : n ≤ x.ext)
    (hu : y.Unique) (hAy : Apart (A.toMat.CellOn (triRegion .lower d)) y.Cell)
    (hxy : Apart x.toVec.Cell y.Cell) (hk : k ≤ n) :
    Ends (trmv A .lower d x y) h fun _ h1 => Ends (do
        trmv (A.block 0 0 k k) .lower d (x.slice 0 k) (y.slice 0 k)
        gemv (A.block k 0 (n - k) k) (x.slice 0 k) (y.slice k (n - k))
        trmvUpdate (A.block k k (n - k) (n - k)) .lower d (x.slice k (n - k)) (y.slice k (n - k)).view
          (y.slice k (n - k))) h
      fun _ h2 => h1 = h2 := by
  have in22 : ∀ {i j}, triRegion .lower d i j → triRegion .lower d (k + i) (k + j) := fun hij =>
    ⟨by have := hij.1; simp only [Triangle.region] at *; omega, fun hd e => hij.2 hd (by omega)⟩
  have y1 : ∀ p, (y.slice 0 k).Cell p → y.Cell p := fun p => Vec.slice_cell (by omega)
  have y2 : ∀ p, (y.slice k (n - k)).Cell p → y.Cell p := fun p => Vec.slice_cell (by omega)
  have x1 : ∀ p, (x.slice 0 k).toVec.Cell p → x.toVec.Cell p := by
    rintro p ⟨i, hi, e⟩
    simp only [VecV.slice] at hi e
    exact ⟨0 + i, by omega, e⟩
  have x2 : ∀ p, (x.slice k (n - k)).toVec.Cell p → x.toVec.Cell p := by
    rintro p ⟨i, hi, e⟩
    simp only [VecV.slice] at hi e
    exact ⟨k + i, by omega, e⟩
  have y21 : Apart (y.slice k (n - k)).Cell (y.slice 0 k).Cell :=
    (Vec.slices_apart he hu).resolve_right (by omega)
  have a11 : ∀ p, (A.block 0 0 k k).toMat.CellOn (triRegion .lower d) p → A.toMat.CellOn (triRegion .lower d) p := by
    rintro p ⟨i, j, hi, hj, hij, e⟩
    simp only [MatV.block] at hi hj e
    exact ⟨0 + i, 0 + j, by omega, by omega, by rwa [Nat.zero_add, Nat.zero_add], e⟩
  have a22 : ∀ p, (A.block k k (n - k) (n - k)).toMat.CellOn (triRegion .lower d) p →
      A.toMat.CellOn (triRegion .lower d) p := by
    rintro p ⟨i, j, hi, hj, hij, e⟩
    simp only [MatV.block] at hi hj e
    exact ⟨k + i, k + j, by omega, by omega, in22 hij, e⟩
  have off : ∀ i j, j < k → triRegion .lower d (k + i) (0 + j) := fun i j q =>
    ⟨by simp only [Triangle.region]; omega, fun _ => by omega⟩
  have aoff : ∀ p, (A.block k 0 (n - k) k).toMat.Cell p → A.toMat.CellOn (triRegion .lower d) p := by
    rintro p ⟨i, j, hi, hj, _, e⟩
    simp only [MatV.block] at hi hj e
    exact ⟨k + i, 0 + j, by omega, by omega, off i j (by omega), e⟩
  have hoff : (A.block k 0 (n - k) k).Holds h fun i j => a (k + i) (0 + j) := fun i j hi hj _ => by
    simp only [MatV.block] at hi hj
    exact hA (k + i) (0 + j) (by omega) (by omega) (off i j (by omega))
  refine (C19_trmv A .lower d x y h a f hA hx hy (by omega) (by omega) (by omega) hu hAy hxy).mono
    fun _ g hb => ?_
  rw [ends_bind]
  refine (C19_trmv (A.block 0 0 k k) .lower d (x.slice 0 k) (y.slice 0 k) h a f
    (fun i j hi hj hij => by
      simp only [MatV.block] at hi hj
      have := hA i j (by omega) (by omega) hij
      simpa only [MatV.block, Nat.zero_add] using this)
    (by simpa only [Nat.zero_add] using hx.slice (k := 0) (m := k) (by omega)) (hy.slice (by omega)) rfl rfl le_rfl
    (hu.slice (by omega)) (fun p hp hq => hAy p (a11 p hp) (y1 p hq))
    (fun p hp hq => hxy p (x1 p hp) (y1 p hq))).mono fun _ h1 b1 => ?_
  have o1 : OnlyChanges y.Cell h h1 := fun p hp => b1.2 p fun hq => hp (y1 p hq)
  rw [ends_bind]
  refine (C16_gemv (A.block k 0 (n - k) k) (x.slice 0 k) (y.slice k (n - k)) h1 _ f
    (hoff.of_onlyChanges (fun p hp hq => hAy p (aoff p hp) hq) o1)
    (by
      have := (hx.slice (k := 0) (m := k) (by omega)).of_onlyChanges (fun p hp hq => hxy p (x1 p hp) hq) o1
      simpa only [Nat.zero_add] using this)
    ((hy.slice (by omega)).of_onlyChanges y21 b1.2) rfl le_rfl (hu.slice (by omega))
    (fun p hp hq => hAy p (aoff p hp) (y2 p hq)) (fun p hp hq => hxy p (x1 p hp) (y2 p hq))).mono fun _ h3 b3 => ?_
  have o3 : OnlyChanges y.Cell h h3 := fun p hp => (b3.2 p fun hq => hp (y2 p hq)).trans (o1 p hp)
  refine (C19_trmv_update (A.block k k (n - k) (n - k)) .lower d (x.slice k (n - k)) (y.slice k (n - k)).view
    (y.slice k (n - k)) h3 (fun i j => a (k + i) (k + j)) (fun i => f (k + i)) _
    (fun i j hi hj hij => by
      simp only [MatV.block] at hi hj
      exact hA.of_onlyChanges hAy o3 (k + i) (k + j) (by omega) (by omega) (in22 hij))
    ((hx.slice (by omega)).of_onlyChanges (fun p hp hq => hxy p (x2 p hp) hq) o3) b3.1.asView b3.1.alloc rfl rfl
    le_rfl le_rfl (hu.slice (by omega)) (fun p hp hq => hAy p (a22 p hp) (y2 p hq))
    (fun p hp hq => hxy p (x2 p hp) (y2 p hq)) (fun i j hi hj e => hu.slice (by omega) i j hi hj e)).mono
    fun _ h4 b4 => ?_
  refine hb.unique (Vec.Becomes.halves he hk hu b1 (b3.trans b4)) fun i hi => ?_
  rw [hc, mulVec_halves hk]
  by_cases hik : i < k
  · rw [if_pos hik, sum_eq_zero fun j _ => ?_, add_zero]
    · rfl
    · rw [triOf_zero _ _ _ (by omega) (by simp only [Triangle.region]; omega), zero_mul]
  · rw [if_neg hik]
    have e : k + (i - k) = i := by omega
    have s22 : ∀ j, triOf .lower d (fun i j => a (k + i) (k + j)) (i - k) j = triOf .lower d a i (k + j) := fun j => by
      rw [← triOf_shift, e]
    refine congrArg₂ (· + ·) (sum_congr rfl fun j hj => ?_) ?_
    · have : j < k := mem_range.1 hj
      rw [triOf_stored _ _ _ (by omega) (by simp only [Triangle.region]; omega), e, Nat.zero_add]
    · exact sum_congr rfl fun j _ => by rw [s22]

/-- **C73** The same for `upper_triangle`. -/
theorem C73_trmv_upper_blocks [NonAssocSemiring α] (A : MatV α) (d : Diag) (x : VecV α) (y : Vec)
    (h : Heap α) (a : Nat → Nat → α) (f : Nat → α) (n k : Nat) (hA : A.HoldsOn h (triRegion .upper d) a)
    (hx : x.Holds h f) (hy : y.Alloc h) (hr : A.rows = n) (hc : A.cols = n) (he : y.ext = n) (hxe : n ≤ x.ext)
    (hu : y.Unique) (hAy : Apart (A.toMat.CellOn (triRegion .upper d)) y.Cell)
    (hxy : Apart x.toVec.Cell y.Cell) (hk : k ≤ n) :
    Ends (trmv A .upper d x y) h fun _ h1 => Ends (do
        trmv (A.block 0 0 k k) .upper d (x.slice 0 k) (y.slice 0 k)
        gemvUpdate (A.block 0 k k (n - k)) (x.slice k (n - k)) (y.slice 0 k).view (y.slice 0 k)
        trmv (A.block k k (n - k) (n - k)) .upper d (x.slice k (n - k)) (y.slice k (n - k))) h
      fun _ h2 => h1 = h2 := by
  have in22 : ∀ {i j}, triRegion .upper d i j → triRegion .upper d (k + i) (k + j) := fun hij =>
    ⟨by have := hij.1; simp only [Triangle.region] at *; omega, fun hd e => hij.2 hd (by omega)⟩
  have y1 : ∀ p, (y.slice 0 k).Cell p → y.Cell p := fun p => Vec.slice_cell (by omega)
  have y2 : ∀ p, (y.slice k (n - k)).Cell p → y.Cell p := fun p => Vec.slice_cell (by omega)
  have x1 : ∀ p, (x.slice 0 k).toVec.Cell p → x.toVec.Cell p := by
    rintro p ⟨i, hi, e⟩
    simp only [VecV.slice] at hi e
    exact ⟨0 + i, by omega, e⟩
  have x2 : ∀ p, (x.slice k (n - k)).toVec.Cell p → x.toVec.Cell p := by
    rintro p ⟨i, hi, e⟩
    simp only [VecV.slice] at hi e
    exact ⟨k + i, by omega, e⟩
  have y21 : Apart (y.slice k (n - k)).Cell (y.slice 0 k).Cell :=
    (Vec.slices_apart he hu).resolve_right (by omega)
  have a11 : ∀ p, (A.block 0 0 k k).toMat.CellOn (triRegion .upper d) p → A.toMat.CellOn (triRegion .upper d) p := by
    rintro p ⟨i, j, hi, hj, hij, e⟩
    simp only [MatV.block] at hi hj e
    exact ⟨0 + i, 0 + j, by omega, by omega, by rwa [Nat.zero_add, Nat.zero_add], e⟩
  have a22 : ∀ p, (A.block k k (n - k) (n - k)).toMat.CellOn (triRegion .upper d) p →
      A.toMat.CellOn (triRegion .upper d) p := by
    rintro p ⟨i, j, hi, hj, hij, e⟩
    simp only [MatV.block] at hi hj e
    exact ⟨k + i, k + j, by omega, by omega, in22 hij, e⟩
  have off : ∀ i j, i < k → triRegion .upper d (0 + i) (k + j) := fun i j q =>
    ⟨by simp only [Triangle.region]; omega, fun _ => by omega⟩
  have aoff : ∀ p, (A.block 0 k k (n - k)).toMat.Cell p → A.toMat.CellOn (triRegion .upper d) p := by
    rintro p ⟨i, j, hi, hj, _, e⟩
    simp only [MatV.block] at hi hj e
    exact ⟨0 + i, k + j, by omega, by omega, off i j (by omega), e⟩
  have hoff : (A.block 0 k k (n - k)).Holds h fun i j => a (0 + i) (k + j) := fun i j hi hj _ => by
    simp only [MatV.block] at hi hj
    exact hA (0 + i) (k + j) (by omega) (by omega) (off i j (by omega))
  refine (C19_trmv A .upper d x y h a f hA hx hy (by omega) (by omega) (by omega) hu hAy hxy).mono
    fun _ g hb => ?_
  rw [ends_bind]
  refine (C19_trmv (A.block 0 0 k k) .upper d (x.slice 0 k) (y.slice 0 k) h a f
    (fun i j hi hj hij => by
      simp only [MatV.block] at hi hj
      have := hA i j (by omega) (by omega) hij
      simpa only [MatV.block, Nat.zero_add] using this)
    (by simpa only [Nat.zero_add] using hx.slice (k := 0) (m := k) (by omega)) (hy.slice (by omega)) rfl rfl le_rfl
    (hu.slice (by omega)) (fun p hp hq => hAy p (a11 p hp) (y1 p hq))
    (fun p hp hq => hxy p (x1 p hp) (y1 p hq))).mono fun _ h1 b1 => ?_
  have o1 : OnlyChanges y.Cell h h1 := fun p hp => b1.2 p fun hq => hp (y1 p hq)
  rw [ends_bind]
  refine (C16_gemv_update (A.block 0 k k (n - k)) (x.slice k (n - k)) (y.slice 0 k).view (y.slice 0 k) h1 _
    (fun i => f (k + i)) _ (hoff.of_onlyChanges (fun p hp hq => hAy p (aoff p hp) hq) o1)
    ((hx.slice (by omega)).of_onlyChanges (fun p hp hq => hxy p (x2 p hp) hq) o1) b1.1.asView b1.1.alloc
    rfl le_rfl le_rfl (hu.slice (by omega)) (fun p hp hq => hAy p (aoff p hp) (y1 p hq))
    (fun p hp hq => hxy p (x2 p hp) (y1 p hq)) (fun i j hi hj e => hu.slice (by omega) i j hi hj e)).mono
    fun _ h2 b2 => ?_
  have o2 : OnlyChanges y.Cell h h2 := fun p hp => (b2.2 p fun hq => hp (y1 p hq)).trans (o1 p hp)
  have b12 := b1.trans b2
  refine (C19_trmv (A.block k k (n - k) (n - k)) .upper d (x.slice k (n - k)) (y.slice k (n - k)) h2
    (fun i j => a (k + i) (k + j)) (fun i => f (k + i))
    (fun i j hi hj hij => by
      simp only [MatV.block] at hi hj
      exact hA.of_onlyChanges hAy o2 (k + i) (k + j) (by omega) (by omega) (in22 hij))
    ((hx.slice (by omega)).of_onlyChanges (fun p hp hq => hxy p (x2 p hp) hq) o2)
    ((hy.slice (by omega)).of_onlyChanges y21 b12.2) rfl rfl
    le_rfl (hu.slice (by omega)) (fun p hp hq => hAy p (a22 p hp) (y2 p hq))
    (fun p hp hq => hxy p (x2 p hp) (y2 p hq))).mono fun _ h4 b4 => ?_
  refine hb.unique (Vec.Becomes.halves he hk hu b12 b4) fun i hi => ?_
  rw [hc, mulVec_halves hk]
  by_cases hik : i < k
  · rw [if_pos hik]
    refine congrArg₂ (· + ·) rfl (sum_congr rfl fun j hj => ?_)
    rw [triOf_stored _ _ _ (by omega) (by simp only [Triangle.region]; omega), Nat.zero_add]
  · rw [if_neg hik]
    have e : k + (i - k) = i := by omega
    have s22 : ∀ j, triOf .upper d (fun i j => a (k + i) (k + j)) (i - k) j = triOf .upper d a i (k + j) := fun j => by
      rw [← triOf_shift, e]
    have z : mulVec k (triOf .upper d a) f i = 0 := sum_eq_zero fun j hj => by
      have := mem_range.1 hj
      rw [triOf_zero _ _ _ (by omega) (by simp only [Triangle.region]; omega), zero_mul]
    rw [z, zero_add]
    exact sum_congr rfl fun j _ => by rw [s22]

example : Ends (trmv (A.view : MatV ℤ) .lower .explicit x.view y) (heap ℤ) fun _ h1 => Ends (do
    trmv ((A.view : MatV ℤ).block 0 0 2 2) .lower .explicit ((x.view : VecV ℤ).slice 0 2) (y.slice 0 2)
    gemv ((A.view : MatV ℤ).block 2 0 1 2) ((x.view : VecV ℤ).slice 0 2) (y.slice 2 1)
    trmvUpdate ((A.view : MatV ℤ).block 2 2 1 1) .lower .explicit ((x.view : VecV ℤ).slice 2 1)
      (y.slice 2 1).view (y.slice 2 1)) (heap ℤ) fun _ h2 => h1 = h2 :=
  C73_trmv_lower_blocks _ _ _ _ _ _ _ 3 2 (mholdsV bA) (holdsV bx) (alloc by_) rfl rfl rfl le_rfl (by view_facts)
    (by view_facts) (by view_facts) (by decide)

example : Ends (trmv (A.view : MatV ℤ) .upper .implicitUnit x.view y) (heap ℤ) fun _ h1 => Ends (do
    trmv ((A.view : MatV ℤ).block 0 0 1 1) .upper .implicitUnit ((x.view : VecV ℤ).slice 0 1) (y.slice 0 1)
    gemvUpdate ((A.view : MatV ℤ).block 0 1 1 2) ((x.view : VecV ℤ).slice 1 2) (y.slice 0 1).view (y.slice 0 1)
    trmv ((A.view : MatV ℤ).block 1 1 2 2) .upper .implicitUnit ((x.view : VecV ℤ).slice 1 2)
      (y.slice 1 2)) (heap ℤ) fun _ h2 => h1 = h2 :=
  C73_trmv_upper_blocks _ _ _ _ _ _ _ 3 1 (mholdsV bA) (holdsV bx) (alloc by_) rfl rfl rfl le_rfl (by view_facts)
    (by view_facts) (by view_facts) (by decide)

end StdBLAS

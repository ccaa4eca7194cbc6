import Verif.Props.BlocksStructured

/-!
# Rank-k updates in 2 × 2 blocks, Hermitian and with a factor (C73)
-/

namespace StdBLAS
open Finset Witness
variable {α : Type}

theorem conjugateTransposed_apart [ConjOps α] {A : MatV α} {P : Nat → Prop} (hA : Apart A.toMat.Cell P) :
    Apart A.conjugateTransposed.toMat.Cell P := transposed_apart hA

theorem MatV.Holds.scaledBy [Mul α] {A : MatV α} {h : Heap α} {a : Nat → Nat → α} (alpha : α) (hA : A.Holds h a) :
    (A.scaled alpha).Holds h fun i j => alpha * a i j := by
  intro i j hi hj _
  obtain ⟨v, hv, e⟩ := hA i j hi hj trivial
  exact ⟨v, hv, congrArg (alpha * ·) e⟩

/-- What a Hermitian rank-k update adds to: the real part of the diagonal. -/
def herkStart [ConjOps α] (c : Nat → Nat → α) (i j : Nat) : α := if i = j then ConjOps.re (c i i) else c i j

theorem herkStart_off [ConjOps α] {c : Nat → Nat → α} {i j : Nat} (e : i ≠ j) : herkStart c i j = c i j := if_neg e

theorem herkStart_eq [ConjOps α] {c c' : Nat → Nat → α} {i j i' j' : Nat} (q : i' = j' ↔ i = j)
    (e : c' i' j' = c i j) : herkStart c' i' j' = herkStart c i j := by
  unfold herkStart
  by_cases r : i = j
  · have r' := q.2 r
    subst r r'
    rw [if_pos rfl, if_pos rfl, e]
  · rw [if_neg r, if_neg fun s => r (q.1 s), e]

theorem herk_start [Add α] [Mul α] [ConjOps α] (A : MatV α) (C : Mat) (t : Triangle)
    (h : Heap α) (a c : Nat → Nat → α) (hA : A.Holds h a) (hC : C.HoldsOn h t.region c)
    (hsq : C.rows = C.cols) (hAe : C.rows ≤ A.rows) (hu : C.UniqueOn t.region)
    (hAC : Apart A.toMat.Cell (C.CellOn t.region)) :
    Ends (herk A C t) h fun _ h' => C.BecomesOn h h' t.region fun i j =>
      leftSum (herkStart c i j) A.cols fun k => a i k * ConjOps.conj (a j k) :=
  C54_herk A C t h a c hA hC hsq hAe hu hAC

theorem herkAlpha_start [Add α] [Mul α] [ConjOps α] (alpha : α) (A : MatV α) (C : Mat) (t : Triangle)
    (h : Heap α) (a c : Nat → Nat → α) (hA : A.Holds h a) (hC : C.HoldsOn h t.region c)
    (hsq : C.rows = C.cols) (hAe : C.rows ≤ A.rows) (hu : C.UniqueOn t.region)
    (hAC : Apart A.toMat.Cell (C.CellOn t.region)) :
    Ends (herkAlpha alpha A C t) h fun _ h' => C.BecomesOn h h' t.region fun i j =>
      leftSum (herkStart c i j) A.cols fun k => alpha * a i k * ConjOps.conj (a j k) :=
  C54_herk_alpha alpha A C t h a c hA hC hsq hAe hu hAC

/-- **C73** `hermitian_matrix_rank_k_update(A, C, lower_triangle)` by blocks of rows of `A`: two
smaller updates of the diagonal blocks and one `matrix_product` for the block between them. -/
theorem C73_herk_lower_blocks [Add α] [Mul α] [ConjOps α] (A : MatV α) (C : Mat) (h : Heap α)
    (a c : Nat → Nat → α) (k : Nat) (hA : A.Holds h a)
    (hC : C.HoldsOn h Triangle.lower.region c) (hsq : C.rows = C.cols) (hAe : C.rows = A.rows)
    (hu : C.UniqueOn Triangle.lower.region)
    (hAC : Apart A.toMat.Cell (C.CellOn Triangle.lower.region)) (hk : k ≤ C.rows) :
    Ends (herk A C .lower) h fun _ h1 => Ends (do
        herk (A.block 0 0 k A.cols) (C.block 0 0 k k) .lower
        gemmUpdate (A.block k 0 (C.rows - k) A.cols) (A.block 0 0 k A.cols).conjugateTransposed
          (C.block k 0 (C.rows - k) k).view (C.block k 0 (C.rows - k) k)
        herk (A.block k 0 (C.rows - k) A.cols) (C.block k k (C.rows - k) (C.rows - k)) .lower) h
      fun _ h2 => h1 = h2 := by
  have R11 : ∀ i j, i < k → j < k → Triangle.lower.region i j →
      Triangle.lower.region (0 + i) (0 + j) := fun i j _ _ hij => by
    rw [Nat.zero_add, Nat.zero_add]; exact hij
  have R12 : ∀ i j, i < C.rows - k → j < k → everywhere i j →
      Triangle.lower.region (k + i) (0 + j) := (fun i j hi hj _ => show 0 + j ≤ k + i by omega)
  have R22 : ∀ i j, i < C.rows - k → j < C.rows - k → Triangle.lower.region i j →
      Triangle.lower.region (k + i) (k + j) := (fun i j _ _ hij => show k + j ≤ k + i from Nat.add_le_add_left hij _)
  refine (herk_start A C .lower h a c hA hC hsq hAe.le hu hAC).mono fun _ h1 hb1 => ?_
  rw [ends_bind]
  refine (herk_start (A.block 0 0 k A.cols) (C.block 0 0 k k) .lower h _ _
    (hA.block (by omega) (by omega)) (hC.part R11 (by omega) (by omega)) rfl le_rfl
    (hu.part R11 (by omega) (by omega))
    (Mat.part_apart (fun p hp => hAC p (MatV.block_cell (by omega) (by omega) hp)) R11 (by omega)
      (by omega))).mono fun _ h2 hb2 => ?_
  obtain ⟨hC2, o2⟩ := hb2.into hu hC R11 (by omega) (by omega)
  have hA2 : A.Holds h2 a := hA.of_onlyChanges hAC o2
  rw [ends_bind]
  have hC2' := hC2.part R12 (by omega) (by omega)
  refine (C54_gemm_update (A.block k 0 (C.rows - k) A.cols) (A.block 0 0 k A.cols).conjugateTransposed
    (C.block k 0 (C.rows - k) k).view (C.block k 0 (C.rows - k) k) h2 _ _ _ (hA2.block (by omega) (by omega))
    (hA2.block (by omega) (by omega)).conjugateTransposed hC2'.asView
    (fun i j hi hj hr => ⟨_, hC2' i j hi hj hr⟩) rfl rfl rfl le_rfl le_rfl
    (hu.part R12 (by omega) (by omega))
    (Mat.part_apart (fun p hp => hAC p (MatV.block_cell (by omega) (by omega) hp)) R12 (by omega)
      (by omega))
    (conjugateTransposed_apart (Mat.part_apart (fun p hp => hAC p (MatV.block_cell (by omega) (by omega) hp))
      R12 (by omega) (by omega)))
    fun i j p q hi hj hp hq e => hu.part R12 (by omega) (by omega) i j p q hi hj trivial hp hq
      trivial e).mono fun _ h3 hb3 => ?_
  obtain ⟨hC3, o3⟩ := Mat.BecomesOn.into hu hC2 R12 (by omega) (by omega) hb3
  have hA3 : A.Holds h3 a := hA2.of_onlyChanges hAC o3
  refine (herk_start (A.block k 0 (C.rows - k) A.cols) (C.block k k (C.rows - k) (C.rows - k)) .lower
    h3 _ _ (hA3.block (by omega) (by omega)) (hC3.part R22 (by omega) (by omega)) rfl le_rfl
    (hu.part R22 (by omega) (by omega))
    (Mat.part_apart (fun p hp => hAC p (MatV.block_cell (by omega) (by omega) hp)) R22 (by omega)
      (by omega))).mono fun _ h4 hb4 => ?_
  obtain ⟨hC4, o4⟩ := hb4.into hu hC3 R22 (by omega) (by omega)
  refine hb1.unique ⟨hC4, fun p hp => (o4 p hp).trans ((o3 p hp).trans (o2 p hp))⟩
    fun i j hi hj hij => ?_
  change j ≤ i at hij
  have hR : ∀ o, o ≤ j → Triangle.lower.region (i - o) (j - o) := fun o _ =>
    show j - o ≤ i - o by omega
  unfold withBlock
  by_cases h1 : j < k
  · by_cases h2 : i < k
    · rw [if_neg (by omega), if_neg (by omega), if_pos ⟨by omega, by omega, hR 0 (by omega)⟩]
      simp only [Nat.zero_add, Nat.sub_zero, MatV.block]
    · rw [if_neg (by omega), if_pos ⟨by omega, by omega, trivial⟩, herkStart_off (by omega)]
      beta_reduce
      rw [if_neg (by omega)]
      simp only [Nat.zero_add, Nat.sub_zero, MatV.block,
        show k + (i - k) = i by omega]
  · rw [if_pos ⟨by omega, by omega, hR k (by omega)⟩]
    simp only [MatV.block, show k + (i - k) = i by omega, show k + (j - k) = j by omega]
    congr 1
    · refine (herkStart_eq (by omega) ?_).symm
      rw [if_neg (by omega), if_neg (by omega), show k + (i - k) = i by omega, show k + (j - k) = j by omega]
    · simp only [Nat.zero_add]

example : Ends (herk (T.view : MatV Term) C .lower) (heap Term) fun _ h1 => Ends (do
      herk ((T.view : MatV Term).block 0 0 1 2) (C.block 0 0 1 1) .lower
      gemmUpdate ((T.view : MatV Term).block 1 0 2 2) ((T.view : MatV Term).block 0 0 1 2).conjugateTransposed
        (C.block 1 0 2 1).view (C.block 1 0 2 1)
      herk ((T.view : MatV Term).block 1 0 2 2) (C.block 1 1 2 2) .lower)
    (heap Term) fun _ h2 => h1 = h2 :=
  C73_herk_lower_blocks _ _ _ _ _ 1 (mholdsV bT) (mholds bC) rfl rfl (by view_facts) (by view_facts)
    (by decide)


/-- **C73** `hermitian_matrix_rank_k_update(A, C, upper_triangle)` by blocks of rows of `A`: two
smaller updates of the diagonal blocks and one `matrix_product` for the block between them. -/
theorem C73_herk_upper_blocks [Add α] [Mul α] [ConjOps α] (A : MatV α) (C : Mat) (h : Heap α)
    (a c : Nat → Nat → α) (k : Nat) (hA : A.Holds h a)
    (hC : C.HoldsOn h Triangle.upper.region c) (hsq : C.rows = C.cols) (hAe : C.rows = A.rows)
    (hu : C.UniqueOn Triangle.upper.region)
    (hAC : Apart A.toMat.Cell (C.CellOn Triangle.upper.region)) (hk : k ≤ C.rows) :
    Ends (herk A C .upper) h fun _ h1 => Ends (do
        herk (A.block 0 0 k A.cols) (C.block 0 0 k k) .upper
        gemmUpdate (A.block 0 0 k A.cols) (A.block k 0 (C.rows - k) A.cols).conjugateTransposed
          (C.block 0 k k (C.rows - k)).view (C.block 0 k k (C.rows - k))
        herk (A.block k 0 (C.rows - k) A.cols) (C.block k k (C.rows - k) (C.rows - k)) .upper) h
      fun _ h2 => h1 = h2 := by
  have R11 : ∀ i j, i < k → j < k → Triangle.upper.region i j →
      Triangle.upper.region (0 + i) (0 + j) := fun i j _ _ hij => by
    rw [Nat.zero_add, Nat.zero_add]; exact hij
  have R12 : ∀ i j, i < k → j < C.rows - k → everywhere i j →
      Triangle.upper.region (0 + i) (k + j) := (fun i j hi hj _ => show 0 + i ≤ k + j by omega)
  have R22 : ∀ i j, i < C.rows - k → j < C.rows - k → Triangle.upper.region i j →
      Triangle.upper.region (k + i) (k + j) := (fun i j _ _ hij => show k + i ≤ k + j from Nat.add_le_add_left hij _)
  refine (herk_start A C .upper h a c hA hC hsq hAe.le hu hAC).mono fun _ h1 hb1 => ?_
  rw [ends_bind]
  refine (herk_start (A.block 0 0 k A.cols) (C.block 0 0 k k) .upper h _ _
    (hA.block (by omega) (by omega)) (hC.part R11 (by omega) (by omega)) rfl le_rfl
    (hu.part R11 (by omega) (by omega))
    (Mat.part_apart (fun p hp => hAC p (MatV.block_cell (by omega) (by omega) hp)) R11 (by omega)
      (by omega))).mono fun _ h2 hb2 => ?_
  obtain ⟨hC2, o2⟩ := hb2.into hu hC R11 (by omega) (by omega)
  have hA2 : A.Holds h2 a := hA.of_onlyChanges hAC o2
  rw [ends_bind]
  have hC2' := hC2.part R12 (by omega) (by omega)
  refine (C54_gemm_update (A.block 0 0 k A.cols) (A.block k 0 (C.rows - k) A.cols).conjugateTransposed
    (C.block 0 k k (C.rows - k)).view (C.block 0 k k (C.rows - k)) h2 _ _ _ (hA2.block (by omega) (by omega))
    (hA2.block (by omega) (by omega)).conjugateTransposed hC2'.asView
    (fun i j hi hj hr => ⟨_, hC2' i j hi hj hr⟩) rfl rfl rfl le_rfl le_rfl
    (hu.part R12 (by omega) (by omega))
    (Mat.part_apart (fun p hp => hAC p (MatV.block_cell (by omega) (by omega) hp)) R12 (by omega)
      (by omega))
    (conjugateTransposed_apart (Mat.part_apart (fun p hp => hAC p (MatV.block_cell (by omega) (by omega) hp))
      R12 (by omega) (by omega)))
    fun i j p q hi hj hp hq e => hu.part R12 (by omega) (by omega) i j p q hi hj trivial hp hq
      trivial e).mono fun _ h3 hb3 => ?_
  obtain ⟨hC3, o3⟩ := Mat.BecomesOn.into hu hC2 R12 (by omega) (by omega) hb3
  have hA3 : A.Holds h3 a := hA2.of_onlyChanges hAC o3
  refine (herk_start (A.block k 0 (C.rows - k) A.cols) (C.block k k (C.rows - k) (C.rows - k)) .upper
    h3 _ _ (hA3.block (by omega) (by omega)) (hC3.part R22 (by omega) (by omega)) rfl le_rfl
    (hu.part R22 (by omega) (by omega))
    (Mat.part_apart (fun p hp => hAC p (MatV.block_cell (by omega) (by omega) hp)) R22 (by omega)
      (by omega))).mono fun _ h4 hb4 => ?_
  obtain ⟨hC4, o4⟩ := hb4.into hu hC3 R22 (by omega) (by omega)
  refine hb1.unique ⟨hC4, fun p hp => (o4 p hp).trans ((o3 p hp).trans (o2 p hp))⟩
    fun i j hi hj hij => ?_
  change i ≤ j at hij
  have hR : ∀ o, o ≤ i → Triangle.upper.region (i - o) (j - o) := fun o _ =>
    show i - o ≤ j - o by omega
  unfold withBlock
  by_cases h1 : i < k
  · by_cases h2 : j < k
    · rw [if_neg (by omega), if_neg (by omega), if_pos ⟨by omega, by omega, hR 0 (by omega)⟩]
      simp only [Nat.zero_add, Nat.sub_zero, MatV.block]
    · rw [if_neg (by omega), if_pos ⟨by omega, by omega, trivial⟩, herkStart_off (by omega)]
      beta_reduce
      rw [if_neg (by omega)]
      simp only [Nat.zero_add, Nat.sub_zero, MatV.block,
        show k + (j - k) = j by omega]
  · rw [if_pos ⟨by omega, by omega, hR k (by omega)⟩]
    simp only [MatV.block, show k + (i - k) = i by omega, show k + (j - k) = j by omega]
    congr 1
    · refine (herkStart_eq (by omega) ?_).symm
      rw [if_neg (by omega), if_neg (by omega), show k + (i - k) = i by omega, show k + (j - k) = j by omega]
    · simp only [Nat.zero_add]

example : Ends (herk (T.view : MatV Term) C .upper) (heap Term) fun _ h1 => Ends (do
      herk ((T.view : MatV Term).block 0 0 1 2) (C.block 0 0 1 1) .upper
      gemmUpdate ((T.view : MatV Term).block 0 0 1 2) ((T.view : MatV Term).block 1 0 2 2).conjugateTransposed
        (C.block 0 1 1 2).view (C.block 0 1 1 2)
      herk ((T.view : MatV Term).block 1 0 2 2) (C.block 1 1 2 2) .upper)
    (heap Term) fun _ h2 => h1 = h2 :=
  C73_herk_upper_blocks _ _ _ _ _ 1 (mholdsV bT) (mholds bC) rfl rfl (by view_facts) (by view_facts)
    (by decide)


/-- **C73** `symmetric_matrix_rank_k_update(alpha, A, C, lower_triangle)` by blocks of rows of `A`: two
smaller updates of the diagonal blocks and one `matrix_product` for the block between them. -/
theorem C73_syrk_alpha_lower_blocks [Add α] [Mul α] (alpha : α) (A : MatV α) (C : Mat) (h : Heap α)
    (a c : Nat → Nat → α) (k : Nat) (hA : A.Holds h a)
    (hC : C.HoldsOn h Triangle.lower.region c) (hsq : C.rows = C.cols) (hAe : C.rows = A.rows)
    (hu : C.UniqueOn Triangle.lower.region)
    (hAC : Apart A.toMat.Cell (C.CellOn Triangle.lower.region)) (hk : k ≤ C.rows) :
    Ends (syrkAlpha alpha A C .lower) h fun _ h1 => Ends (do
        syrkAlpha alpha (A.block 0 0 k A.cols) (C.block 0 0 k k) .lower
        gemmUpdate ((A.block k 0 (C.rows - k) A.cols).scaled alpha) (A.block 0 0 k A.cols).transposed
          (C.block k 0 (C.rows - k) k).view (C.block k 0 (C.rows - k) k)
        syrkAlpha alpha (A.block k 0 (C.rows - k) A.cols) (C.block k k (C.rows - k) (C.rows - k)) .lower) h
      fun _ h2 => h1 = h2 := by
  have R11 : ∀ i j, i < k → j < k → Triangle.lower.region i j →
      Triangle.lower.region (0 + i) (0 + j) := fun i j _ _ hij => by
    rw [Nat.zero_add, Nat.zero_add]; exact hij
  have R12 : ∀ i j, i < C.rows - k → j < k → everywhere i j →
      Triangle.lower.region (k + i) (0 + j) := (fun i j hi hj _ => show 0 + j ≤ k + i by omega)
  have R22 : ∀ i j, i < C.rows - k → j < C.rows - k → Triangle.lower.region i j →
      Triangle.lower.region (k + i) (k + j) := (fun i j _ _ hij => show k + j ≤ k + i from Nat.add_le_add_left hij _)
  refine (C54_syrk_alpha alpha A C .lower h a c hA hC hsq hAe.le hu hAC).mono fun _ h1 hb1 => ?_
  rw [ends_bind]
  refine (C54_syrk_alpha alpha (A.block 0 0 k A.cols) (C.block 0 0 k k) .lower h _ _
    (hA.block (by omega) (by omega)) (hC.part R11 (by omega) (by omega)) rfl le_rfl
    (hu.part R11 (by omega) (by omega))
    (Mat.part_apart (fun p hp => hAC p (MatV.block_cell (by omega) (by omega) hp)) R11 (by omega)
      (by omega))).mono fun _ h2 hb2 => ?_
  obtain ⟨hC2, o2⟩ := hb2.into hu hC R11 (by omega) (by omega)
  have hA2 : A.Holds h2 a := hA.of_onlyChanges hAC o2
  rw [ends_bind]
  have hC2' := hC2.part R12 (by omega) (by omega)
  refine (C54_gemm_update ((A.block k 0 (C.rows - k) A.cols).scaled alpha) (A.block 0 0 k A.cols).transposed
    (C.block k 0 (C.rows - k) k).view (C.block k 0 (C.rows - k) k) h2 _ _ _ ((hA2.block (by omega) (by omega)).scaledBy alpha)
    (hA2.block (by omega) (by omega)).transposed hC2'.asView
    (fun i j hi hj hr => ⟨_, hC2' i j hi hj hr⟩) rfl rfl rfl le_rfl le_rfl
    (hu.part R12 (by omega) (by omega))
    (Mat.part_apart (fun p hp => hAC p (MatV.block_cell (by omega) (by omega) hp)) R12 (by omega)
      (by omega))
    (transposed_apart (Mat.part_apart (fun p hp => hAC p (MatV.block_cell (by omega) (by omega) hp))
      R12 (by omega) (by omega)))
    fun i j p q hi hj hp hq e => hu.part R12 (by omega) (by omega) i j p q hi hj trivial hp hq
      trivial e).mono fun _ h3 hb3 => ?_
  obtain ⟨hC3, o3⟩ := Mat.BecomesOn.into hu hC2 R12 (by omega) (by omega) hb3
  have hA3 : A.Holds h3 a := hA2.of_onlyChanges hAC o3
  refine (C54_syrk_alpha alpha (A.block k 0 (C.rows - k) A.cols) (C.block k k (C.rows - k) (C.rows - k)) .lower
    h3 _ _ (hA3.block (by omega) (by omega)) (hC3.part R22 (by omega) (by omega)) rfl le_rfl
    (hu.part R22 (by omega) (by omega))
    (Mat.part_apart (fun p hp => hAC p (MatV.block_cell (by omega) (by omega) hp)) R22 (by omega)
      (by omega))).mono fun _ h4 hb4 => ?_
  obtain ⟨hC4, o4⟩ := hb4.into hu hC3 R22 (by omega) (by omega)
  refine hb1.unique ⟨hC4, fun p hp => (o4 p hp).trans ((o3 p hp).trans (o2 p hp))⟩
    fun i j hi hj hij => ?_
  change j ≤ i at hij
  have hR : ∀ o, o ≤ j → Triangle.lower.region (i - o) (j - o) := fun o _ =>
    show j - o ≤ i - o by omega
  unfold withBlock
  by_cases h1 : j < k
  · by_cases h2 : i < k
    · rw [if_neg (by omega), if_neg (by omega), if_pos ⟨by omega, by omega, hR 0 (by omega)⟩]
      simp only [Nat.zero_add, Nat.sub_zero, MatV.block]
    · rw [if_neg (by omega), if_pos ⟨by omega, by omega, trivial⟩]
      beta_reduce
      rw [if_neg (by omega)]
      simp only [Nat.zero_add, Nat.sub_zero, MatV.block, MatV.scaled,
        show k + (i - k) = i by omega]
  · rw [if_pos ⟨by omega, by omega, hR k (by omega)⟩]
    beta_reduce
    rw [if_neg (by omega), if_neg (by omega)]
    simp only [Nat.zero_add, MatV.block, show k + (i - k) = i by omega,
      show k + (j - k) = j by omega]

example : Ends (syrkAlpha (.int 5) (T.view : MatV Term) C .lower) (heap Term) fun _ h1 => Ends (do
      syrkAlpha (.int 5) ((T.view : MatV Term).block 0 0 1 2) (C.block 0 0 1 1) .lower
      gemmUpdate (((T.view : MatV Term).block 1 0 2 2).scaled (.int 5)) ((T.view : MatV Term).block 0 0 1 2).transposed
        (C.block 1 0 2 1).view (C.block 1 0 2 1)
      syrkAlpha (.int 5) ((T.view : MatV Term).block 1 0 2 2) (C.block 1 1 2 2) .lower)
    (heap Term) fun _ h2 => h1 = h2 :=
  C73_syrk_alpha_lower_blocks _ _ _ _ _ _ 1 (mholdsV bT) (mholds bC) rfl rfl (by view_facts) (by view_facts)
    (by decide)


/-- **C73** `symmetric_matrix_rank_k_update(alpha, A, C, upper_triangle)` by blocks of rows of `A`: two
smaller updates of the diagonal blocks and one `matrix_product` for the block between them. -/
theorem C73_syrk_alpha_upper_blocks [Add α] [Mul α] (alpha : α) (A : MatV α) (C : Mat) (h : Heap α)
    (a c : Nat → Nat → α) (k : Nat) (hA : A.Holds h a)
    (hC : C.HoldsOn h Triangle.upper.region c) (hsq : C.rows = C.cols) (hAe : C.rows = A.rows)
    (hu : C.UniqueOn Triangle.upper.region)
    (hAC : Apart A.toMat.Cell (C.CellOn Triangle.upper.region)) (hk : k ≤ C.rows) :
    Ends (syrkAlpha alpha A C .upper) h fun _ h1 => Ends (do
        syrkAlpha alpha (A.block 0 0 k A.cols) (C.block 0 0 k k) .upper
        gemmUpdate ((A.block 0 0 k A.cols).scaled alpha) (A.block k 0 (C.rows - k) A.cols).transposed
          (C.block 0 k k (C.rows - k)).view (C.block 0 k k (C.rows - k))
        syrkAlpha alpha (A.block k 0 (C.rows - k) A.cols) (C.block k k (C.rows - k) (C.rows - k)) .upper) h
      fun _ h2 => h1 = h2 := by
  have R11 : ∀ i j, i < k → j < k → Triangle.upper.region i j →
      Triangle.upper.region (0 + i) (0 + j) := fun i j _ _ hij => by
    rw [Nat.zero_add, Nat.zero_add]; exact hij
  have R12 : ∀ i j, i < k → j < C.rows - k → everywhere i j →
      Triangle.upper.region (0 + i) (k + j) := (fun i j hi hj _ => show 0 + i ≤ k + j by omega)
  have R22 : ∀ i j, i < C.rows - k → j < C.rows - k → Triangle.upper.region i j →
      Triangle.upper.region (k + i) (k + j) := (fun i j _ _ hij => show k + i ≤ k + j from Nat.add_le_add_left hij _)
  refine (C54_syrk_alpha alpha A C .upper h a c hA hC hsq hAe.le hu hAC).mono fun _ h1 hb1 => ?_
  rw [ends_bind]
  refine (C54_syrk_alpha alpha (A.block 0 0 k A.cols) (C.block 0 0 k k) .upper h _ _
    (hA.block (by omega) (by omega)) (hC.part R11 (by omega) (by omega)) rfl le_rfl
    (hu.part R11 (by omega) (by omega))
    (Mat.part_apart (fun p hp => hAC p (MatV.block_cell (by omega) (by omega) hp)) R11 (by omega)
      (by omega))).mono fun _ h2 hb2 => ?_
  obtain ⟨hC2, o2⟩ := hb2.into hu hC R11 (by omega) (by omega)
  have hA2 : A.Holds h2 a := hA.of_onlyChanges hAC o2
  rw [ends_bind]
  have hC2' := hC2.part R12 (by omega) (by omega)
  refine (C54_gemm_update ((A.block 0 0 k A.cols).scaled alpha) (A.block k 0 (C.rows - k) A.cols).transposed
    (C.block 0 k k (C.rows - k)).view (C.block 0 k k (C.rows - k)) h2 _ _ _ ((hA2.block (by omega) (by omega)).scaledBy alpha)
    (hA2.block (by omega) (by omega)).transposed hC2'.asView
    (fun i j hi hj hr => ⟨_, hC2' i j hi hj hr⟩) rfl rfl rfl le_rfl le_rfl
    (hu.part R12 (by omega) (by omega))
    (Mat.part_apart (fun p hp => hAC p (MatV.block_cell (by omega) (by omega) hp)) R12 (by omega)
      (by omega))
    (transposed_apart (Mat.part_apart (fun p hp => hAC p (MatV.block_cell (by omega) (by omega) hp))
      R12 (by omega) (by omega)))
    fun i j p q hi hj hp hq e => hu.part R12 (by omega) (by omega) i j p q hi hj trivial hp hq
      trivial e).mono fun _ h3 hb3 => ?_
  obtain ⟨hC3, o3⟩ := Mat.BecomesOn.into hu hC2 R12 (by omega) (by omega) hb3
  have hA3 : A.Holds h3 a := hA2.of_onlyChanges hAC o3
  refine (C54_syrk_alpha alpha (A.block k 0 (C.rows - k) A.cols) (C.block k k (C.rows - k) (C.rows - k)) .upper
    h3 _ _ (hA3.block (by omega) (by omega)) (hC3.part R22 (by omega) (by omega)) rfl le_rfl
    (hu.part R22 (by omega) (by omega))
    (Mat.part_apart (fun p hp => hAC p (MatV.block_cell (by omega) (by omega) hp)) R22 (by omega)
      (by omega))).mono fun _ h4 hb4 => ?_
  obtain ⟨hC4, o4⟩ := hb4.into hu hC3 R22 (by omega) (by omega)
  refine hb1.unique ⟨hC4, fun p hp => (o4 p hp).trans ((o3 p hp).trans (o2 p hp))⟩
    fun i j hi hj hij => ?_
  change i ≤ j at hij
  have hR : ∀ o, o ≤ i → Triangle.upper.region (i - o) (j - o) := fun o _ =>
    show i - o ≤ j - o by omega
  unfold withBlock
  by_cases h1 : i < k
  · by_cases h2 : j < k
    · rw [if_neg (by omega), if_neg (by omega), if_pos ⟨by omega, by omega, hR 0 (by omega)⟩]
      simp only [Nat.zero_add, Nat.sub_zero, MatV.block]
    · rw [if_neg (by omega), if_pos ⟨by omega, by omega, trivial⟩]
      beta_reduce
      rw [if_neg (by omega)]
      simp only [Nat.zero_add, Nat.sub_zero, MatV.block, MatV.scaled,
        show k + (j - k) = j by omega]
  · rw [if_pos ⟨by omega, by omega, hR k (by omega)⟩]
    beta_reduce
    rw [if_neg (by omega), if_neg (by omega)]
    simp only [Nat.zero_add, MatV.block, show k + (i - k) = i by omega,
      show k + (j - k) = j by omega]

example : Ends (syrkAlpha (.int 5) (T.view : MatV Term) C .upper) (heap Term) fun _ h1 => Ends (do
      syrkAlpha (.int 5) ((T.view : MatV Term).block 0 0 1 2) (C.block 0 0 1 1) .upper
      gemmUpdate (((T.view : MatV Term).block 0 0 1 2).scaled (.int 5)) ((T.view : MatV Term).block 1 0 2 2).transposed
        (C.block 0 1 1 2).view (C.block 0 1 1 2)
      syrkAlpha (.int 5) ((T.view : MatV Term).block 1 0 2 2) (C.block 1 1 2 2) .upper)
    (heap Term) fun _ h2 => h1 = h2 :=
  C73_syrk_alpha_upper_blocks _ _ _ _ _ _ 1 (mholdsV bT) (mholds bC) rfl rfl (by view_facts) (by view_facts)
    (by decide)


/-- **C73** `hermitian_matrix_rank_k_update(alpha, A, C, lower_triangle)` by blocks of rows of `A`: two
smaller updates of the diagonal blocks and one `matrix_product` for the block between them. -/
theorem C73_herk_alpha_lower_blocks [Add α] [Mul α] [ConjOps α] (alpha : α) (A : MatV α) (C : Mat) (h : Heap α)
    (a c : Nat → Nat → α) (k : Nat) (hA : A.Holds h a)
    (hC : C.HoldsOn h Triangle.lower.region c) (hsq : C.rows = C.cols) (hAe : C.rows = A.rows)
    (hu : C.UniqueOn Triangle.lower.region)
    (hAC : Apart A.toMat.Cell (C.CellOn Triangle.lower.region)) (hk : k ≤ C.rows) :
    Ends (herkAlpha alpha A C .lower) h fun _ h1 => Ends (do
        herkAlpha alpha (A.block 0 0 k A.cols) (C.block 0 0 k k) .lower
        gemmUpdate ((A.block k 0 (C.rows - k) A.cols).scaled alpha) (A.block 0 0 k A.cols).conjugateTransposed
          (C.block k 0 (C.rows - k) k).view (C.block k 0 (C.rows - k) k)
        herkAlpha alpha (A.block k 0 (C.rows - k) A.cols) (C.block k k (C.rows - k) (C.rows - k)) .lower) h
      fun _ h2 => h1 = h2 := by
  have R11 : ∀ i j, i < k → j < k → Triangle.lower.region i j →
      Triangle.lower.region (0 + i) (0 + j) := fun i j _ _ hij => by
    rw [Nat.zero_add, Nat.zero_add]; exact hij
  have R12 : ∀ i j, i < C.rows - k → j < k → everywhere i j →
      Triangle.lower.region (k + i) (0 + j) := (fun i j hi hj _ => show 0 + j ≤ k + i by omega)
  have R22 : ∀ i j, i < C.rows - k → j < C.rows - k → Triangle.lower.region i j →
      Triangle.lower.region (k + i) (k + j) := (fun i j _ _ hij => show k + j ≤ k + i from Nat.add_le_add_left hij _)
  refine (herkAlpha_start alpha A C .lower h a c hA hC hsq hAe.le hu hAC).mono fun _ h1 hb1 => ?_
  rw [ends_bind]
  refine (herkAlpha_start alpha (A.block 0 0 k A.cols) (C.block 0 0 k k) .lower h _ _
    (hA.block (by omega) (by omega)) (hC.part R11 (by omega) (by omega)) rfl le_rfl
    (hu.part R11 (by omega) (by omega))
    (Mat.part_apart (fun p hp => hAC p (MatV.block_cell (by omega) (by omega) hp)) R11 (by omega)
      (by omega))).mono fun _ h2 hb2 => ?_
  obtain ⟨hC2, o2⟩ := hb2.into hu hC R11 (by omega) (by omega)
  have hA2 : A.Holds h2 a := hA.of_onlyChanges hAC o2
  rw [ends_bind]
  have hC2' := hC2.part R12 (by omega) (by omega)
  refine (C54_gemm_update ((A.block k 0 (C.rows - k) A.cols).scaled alpha) (A.block 0 0 k A.cols).conjugateTransposed
    (C.block k 0 (C.rows - k) k).view (C.block k 0 (C.rows - k) k) h2 _ _ _ ((hA2.block (by omega) (by omega)).scaledBy alpha)
    (hA2.block (by omega) (by omega)).conjugateTransposed hC2'.asView
    (fun i j hi hj hr => ⟨_, hC2' i j hi hj hr⟩) rfl rfl rfl le_rfl le_rfl
    (hu.part R12 (by omega) (by omega))
    (Mat.part_apart (fun p hp => hAC p (MatV.block_cell (by omega) (by omega) hp)) R12 (by omega)
      (by omega))
    (conjugateTransposed_apart (Mat.part_apart (fun p hp => hAC p (MatV.block_cell (by omega) (by omega) hp))
      R12 (by omega) (by omega)))
    fun i j p q hi hj hp hq e => hu.part R12 (by omega) (by omega) i j p q hi hj trivial hp hq
      trivial e).mono fun _ h3 hb3 => ?_
  obtain ⟨hC3, o3⟩ := Mat.BecomesOn.into hu hC2 R12 (by omega) (by omega) hb3
  have hA3 : A.Holds h3 a := hA2.of_onlyChanges hAC o3
  refine (herkAlpha_start alpha (A.block k 0 (C.rows - k) A.cols) (C.block k k (C.rows - k) (C.rows - k)) .lower
    h3 _ _ (hA3.block (by omega) (by omega)) (hC3.part R22 (by omega) (by omega)) rfl le_rfl
    (hu.part R22 (by omega) (by omega))
    (Mat.part_apart (fun p hp => hAC p (MatV.block_cell (by omega) (by omega) hp)) R22 (by omega)
      (by omega))).mono fun _ h4 hb4 => ?_
  obtain ⟨hC4, o4⟩ := hb4.into hu hC3 R22 (by omega) (by omega)
  refine hb1.unique ⟨hC4, fun p hp => (o4 p hp).trans ((o3 p hp).trans (o2 p hp))⟩
    fun i j hi hj hij => ?_
  change j ≤ i at hij
  have hR : ∀ o, o ≤ j → Triangle.lower.region (i - o) (j - o) := fun o _ =>
    show j - o ≤ i - o by omega
  unfold withBlock
  by_cases h1 : j < k
  · by_cases h2 : i < k
    · rw [if_neg (by omega), if_neg (by omega), if_pos ⟨by omega, by omega, hR 0 (by omega)⟩]
      simp only [Nat.zero_add, Nat.sub_zero, MatV.block]
    · rw [if_neg (by omega), if_pos ⟨by omega, by omega, trivial⟩, herkStart_off (by omega)]
      beta_reduce
      rw [if_neg (by omega)]
      simp only [Nat.zero_add, Nat.sub_zero, MatV.block, MatV.scaled,
        show k + (i - k) = i by omega]
  · rw [if_pos ⟨by omega, by omega, hR k (by omega)⟩]
    simp only [MatV.block, show k + (i - k) = i by omega, show k + (j - k) = j by omega]
    congr 1
    · refine (herkStart_eq (by omega) ?_).symm
      rw [if_neg (by omega), if_neg (by omega), show k + (i - k) = i by omega, show k + (j - k) = j by omega]
    · simp only [Nat.zero_add]

example : Ends (herkAlpha (.int 5) (T.view : MatV Term) C .lower) (heap Term) fun _ h1 => Ends (do
      herkAlpha (.int 5) ((T.view : MatV Term).block 0 0 1 2) (C.block 0 0 1 1) .lower
      gemmUpdate (((T.view : MatV Term).block 1 0 2 2).scaled (.int 5)) ((T.view : MatV Term).block 0 0 1 2).conjugateTransposed
        (C.block 1 0 2 1).view (C.block 1 0 2 1)
      herkAlpha (.int 5) ((T.view : MatV Term).block 1 0 2 2) (C.block 1 1 2 2) .lower)
    (heap Term) fun _ h2 => h1 = h2 :=
  C73_herk_alpha_lower_blocks _ _ _ _ _ _ 1 (mholdsV bT) (mholds bC) rfl rfl (by view_facts) (by view_facts)
    (by decide)


/-- **C73** `hermitian_matrix_rank_k_update(alpha, A, C, upper_triangle)` by blocks of rows of `A`: two
smaller updates of the diagonal blocks and one `matrix_product` for the block between them. -/
theorem C73_herk_alpha_upper_blocks [Add α] [Mul α] [ConjOps α] (alpha : α) (A : MatV α) (C : Mat) (h : Heap α)
    (a c : Nat → Nat → α) (k : Nat) (hA : A.Holds h a)
    (hC : C.HoldsOn h Triangle.upper.region c) (hsq : C.rows = C.cols) (hAe : C.rows = A.rows)
    (hu : C.UniqueOn Triangle.upper.region)
    (hAC : Apart A.toMat.Cell (C.CellOn Triangle.upper.region)) (hk : k ≤ C.rows) :
    Ends (herkAlpha alpha A C .upper) h fun _ h1 => Ends (do
        herkAlpha alpha (A.block 0 0 k A.cols) (C.block 0 0 k k) .upper
        gemmUpdate ((A.block 0 0 k A.cols).scaled alpha) (A.block k 0 (C.rows - k) A.cols).conjugateTransposed
          (C.block 0 k k (C.rows - k)).view (C.block 0 k k (C.rows - k))
        herkAlpha alpha (A.block k 0 (C.rows - k) A.cols) (C.block k k (C.rows - k) (C.rows - k)) .upper) h
      fun _ h2 => h1 = h2 := by
  have R11 : ∀ i j, i < k → j < k → Triangle.upper.region i j →
      Triangle.upper.region (0 + i) (0 + j) := fun i j _ _ hij => by
    rw [Nat.zero_add, Nat.zero_add]; exact hij
  have R12 : ∀ i j, i < k → j < C.rows - k → everywhere i j →
      Triangle.upper.region (0 + i) (k + j) := (fun i j hi hj _ => show 0 + i ≤ k + j by omega)
  have R22 : ∀ i j, i < C.rows - k → j < C.rows - k → Triangle.upper.region i j →
      Triangle.upper.region (k + i) (k + j) := (fun i j _ _ hij => show k + i ≤ k + j from Nat.add_le_add_left hij _)
  refine (herkAlpha_start alpha A C .upper h a c hA hC hsq hAe.le hu hAC).mono fun _ h1 hb1 => ?_
  rw [ends_bind]
  refine (herkAlpha_start alpha (A.block 0 0 k A.cols) (C.block 0 0 k k) .upper h _ _
    (hA.block (by omega) (by omega)) (hC.part R11 (by omega) (by omega)) rfl le_rfl
    (hu.part R11 (by omega) (by omega))
    (Mat.part_apart (fun p hp => hAC p (MatV.block_cell (by omega) (by omega) hp)) R11 (by omega)
      (by omega))).mono fun _ h2 hb2 => ?_
  obtain ⟨hC2, o2⟩ := hb2.into hu hC R11 (by omega) (by omega)
  have hA2 : A.Holds h2 a := hA.of_onlyChanges hAC o2
  rw [ends_bind]
  have hC2' := hC2.part R12 (by omega) (by omega)
  refine (C54_gemm_update ((A.block 0 0 k A.cols).scaled alpha) (A.block k 0 (C.rows - k) A.cols).conjugateTransposed
    (C.block 0 k k (C.rows - k)).view (C.block 0 k k (C.rows - k)) h2 _ _ _ ((hA2.block (by omega) (by omega)).scaledBy alpha)
    (hA2.block (by omega) (by omega)).conjugateTransposed hC2'.asView
    (fun i j hi hj hr => ⟨_, hC2' i j hi hj hr⟩) rfl rfl rfl le_rfl le_rfl
    (hu.part R12 (by omega) (by omega))
    (Mat.part_apart (fun p hp => hAC p (MatV.block_cell (by omega) (by omega) hp)) R12 (by omega)
      (by omega))
    (conjugateTransposed_apart (Mat.part_apart (fun p hp => hAC p (MatV.block_cell (by omega) (by omega) hp))
      R12 (by omega) (by omega)))
    fun i j p q hi hj hp hq e => hu.part R12 (by omega) (by omega) i j p q hi hj trivial hp hq
      trivial e).mono fun _ h3 hb3 => ?_
  obtain ⟨hC3, o3⟩ := Mat.BecomesOn.into hu hC2 R12 (by omega) (by omega) hb3
  have hA3 : A.Holds h3 a := hA2.of_onlyChanges hAC o3
  refine (herkAlpha_start alpha (A.block k 0 (C.rows - k) A.cols) (C.block k k (C.rows - k) (C.rows - k)) .upper
    h3 _ _ (hA3.block (by omega) (by omega)) (hC3.part R22 (by omega) (by omega)) rfl le_rfl
    (hu.part R22 (by omega) (by omega))
    (Mat.part_apart (fun p hp => hAC p (MatV.block_cell (by omega) (by omega) hp)) R22 (by omega)
      (by omega))).mono fun _ h4 hb4 => ?_
  obtain ⟨hC4, o4⟩ := hb4.into hu hC3 R22 (by omega) (by omega)
  refine hb1.unique ⟨hC4, fun p hp => (o4 p hp).trans ((o3 p hp).trans (o2 p hp))⟩
    fun i j hi hj hij => ?_
  change i ≤ j at hij
  have hR : ∀ o, o ≤ i → Triangle.upper.region (i - o) (j - o) := fun o _ =>
    show i - o ≤ j - o by omega
  unfold withBlock
  by_cases h1 : i < k
  · by_cases h2 : j < k
    · rw [if_neg (by omega), if_neg (by omega), if_pos ⟨by omega, by omega, hR 0 (by omega)⟩]
      simp only [Nat.zero_add, Nat.sub_zero, MatV.block]
    · rw [if_neg (by omega), if_pos ⟨by omega, by omega, trivial⟩, herkStart_off (by omega)]
      beta_reduce
      rw [if_neg (by omega)]
      simp only [Nat.zero_add, Nat.sub_zero, MatV.block, MatV.scaled,
        show k + (j - k) = j by omega]
  · rw [if_pos ⟨by omega, by omega, hR k (by omega)⟩]
    simp only [MatV.block, show k + (i - k) = i by omega, show k + (j - k) = j by omega]
    congr 1
    · refine (herkStart_eq (by omega) ?_).symm
      rw [if_neg (by omega), if_neg (by omega), show k + (i - k) = i by omega, show k + (j - k) = j by omega]
    · simp only [Nat.zero_add]

example : Ends (herkAlpha (.int 5) (T.view : MatV Term) C .upper) (heap Term) fun _ h1 => Ends (do
      herkAlpha (.int 5) ((T.view : MatV Term).block 0 0 1 2) (C.block 0 0 1 1) .upper
      gemmUpdate (((T.view : MatV Term).block 0 0 1 2).scaled (.int 5)) ((T.view : MatV Term).block 1 0 2 2).conjugateTransposed
        (C.block 0 1 1 2).view (C.block 0 1 1 2)
      herkAlpha (.int 5) ((T.view : MatV Term).block 1 0 2 2) (C.block 1 1 2 2) .upper)
    (heap Term) fun _ h2 => h1 = h2 :=
  C73_herk_alpha_upper_blocks _ _ _ _ _ _ 1 (mholdsV bT) (mholds bC) rfl rfl (by view_facts) (by view_facts)
    (by decide)


end StdBLAS

import Verif.Props.BlocksMemory
import Verif.Props.EvaluationOrder
import Verif.Props.RankUpdates
import Verif.Props.Levels

/-!
# Property C73, third part: structured products and rank-k updates

Left-side products cut along the columns of the output are cut along their outermost loop (equality
of programs).  Right-side products cut along the rows, and rank-k updates cut along the columns of
`A`, access memory in another order: same memory afterwards if the arguments do not overlap.
-/

namespace StdBLAS
open Finset Witness
variable {α : Type}

/-! ## Left-side products by blocks of columns -/

/-- **C73** `symmetric_matrix_product(A, t, B, C)` by blocks of columns of `B` and `C` -/
theorem C73_symm_left_columns [Add α] [Mul α] [Zero α] (A : MatV α) (t : Triangle) (B : MatV α)
    (C : Mat) (k : Nat) (hk : k ≤ C.cols) (hB : C.cols ≤ B.cols) (hBr : A.cols ≤ B.rows) :
    symmLeft A t B C = (do
      symmLeft A t (B.block 0 0 B.rows k) (C.block 0 0 C.rows k)
      symmLeft A t (B.block 0 k B.rows (C.cols - k)) (C.block 0 k C.rows (C.cols - k))) := by
  have hC' : 0 + C.rows ≤ C.rows := by omega
  have hB' : 0 + B.rows ≤ B.rows := by omega
  cases t
  all_goals
    refine forUp_split' hk (fun j hj => forUp_congr fun i _ hi => ?_) fun j hj =>
      forUp_congr fun i _ hi => ?_
    · rw [Mat.block_set (show i < C.rows from hi) hj hC' (by omega), Nat.zero_add, Nat.zero_add]
      refine congrArg _ (funext fun _ => forUp_congr fun l _ hl => congrArg _ (funext fun a => ?_))
      rw [MatV.block_get (by omega) hj hB' (by omega), Nat.zero_add, Nat.zero_add]
      simp only [Mat.block_addTo (show i < C.rows from hi) hj hC' (by omega : 0 + k ≤ C.cols),
        Nat.zero_add]
    · rw [Mat.block_set (show i < C.rows from hi) hj hC' (by omega), Nat.zero_add]
      refine congrArg _ (funext fun _ => forUp_congr fun l _ hl => congrArg _ (funext fun a => ?_))
      rw [MatV.block_get (by omega) hj hB' (by omega), Nat.zero_add]
      simp only [Mat.block_addTo (show i < C.rows from hi) hj hC'
        (by omega : k + (C.cols - k) ≤ C.cols), Nat.zero_add]

example (t : Triangle) : (symmLeft (A.view : MatV Term) t B.view C : Prog Term Unit) = (do
    symmLeft (A.view : MatV Term) t ((B.view : MatV Term).block 0 0 3 1) (C.block 0 0 3 1)
    symmLeft (A.view : MatV Term) t ((B.view : MatV Term).block 0 1 3 2) (C.block 0 1 3 2)) :=
  C73_symm_left_columns _ _ _ _ 1 (by decide) le_rfl le_rfl

/-- **C73** `hermitian_matrix_product(A, t, B, C)` by blocks of columns of `B` and `C` -/
theorem C73_hemm_left_columns [Add α] [Mul α] [Zero α] [ConjOps α] (A : MatV α) (t : Triangle)
    (B : MatV α) (C : Mat) (k : Nat) (hk : k ≤ C.cols) (hB : C.cols ≤ B.cols)
    (hsq : A.rows = A.cols) (hCr : C.rows ≤ A.rows) (hBr : A.cols ≤ B.rows) :
    hemmLeft A t B C = (do
      hemmLeft A t (B.block 0 0 B.rows k) (C.block 0 0 C.rows k)
      hemmLeft A t (B.block 0 k B.rows (C.cols - k)) (C.block 0 k C.rows (C.cols - k))) := by
  have hC' : 0 + C.rows ≤ C.rows := by omega
  have hB' : 0 + B.rows ≤ B.rows := by omega
  have hk1 : 0 + k ≤ C.cols := by omega
  have hk2 : k + (C.cols - k) ≤ C.cols := by omega
  cases t
  all_goals
    refine forUp_split' hk (fun j hj => forUp_congr fun i _ hi => ?_) fun j hj =>
      forUp_congr fun i _ hi => ?_
    · have hi : i < C.rows := hi
      rw [Mat.block_set hi hj hC' hk1, Nat.zero_add, Nat.zero_add,
        MatV.block_get (by omega : i < B.rows) hj hB' (by omega), Nat.zero_add, Nat.zero_add]
      simp only [Mat.block_addTo hi hj hC' hk1, Nat.zero_add]
      refine congrArg _ (funext fun _ => ?_)
      refine congr (congrArg _ (forUp_congr fun l _ hl => ?_)) (funext fun _ =>
        congrArg _ (funext fun _ => congrArg _ (funext fun _ => congrArg _ (funext fun _ =>
          forUp_congr fun l _ hl => ?_))))
      all_goals
        rw [MatV.block_get (by omega : l < B.rows) hj hB' (by omega), Nat.zero_add, Nat.zero_add]
    · have hi : i < C.rows := hi
      rw [Mat.block_set hi hj hC' hk2, Nat.zero_add,
        MatV.block_get (by omega : i < B.rows) hj hB' (by omega), Nat.zero_add]
      simp only [Mat.block_addTo hi hj hC' hk2, Nat.zero_add]
      refine congrArg _ (funext fun _ => ?_)
      refine congr (congrArg _ (forUp_congr fun l _ hl => ?_)) (funext fun _ =>
        congrArg _ (funext fun _ => congrArg _ (funext fun _ => congrArg _ (funext fun _ =>
          forUp_congr fun l _ hl => ?_))))
      all_goals
        rw [MatV.block_get (by omega : l < B.rows) hj hB' (by omega), Nat.zero_add]

example (t : Triangle) : (hemmLeft (A.view : MatV ℂ) t B.view C : Prog ℂ Unit) = (do
    hemmLeft (A.view : MatV ℂ) t ((B.view : MatV ℂ).block 0 0 3 1) (C.block 0 0 3 1)
    hemmLeft (A.view : MatV ℂ) t ((B.view : MatV ℂ).block 0 1 3 2) (C.block 0 1 3 2)) :=
  C73_hemm_left_columns _ _ _ _ 1 (by decide) le_rfl rfl le_rfl le_rfl

/-- **C73** `triangular_matrix_product(A, t, d, B, C)` by blocks of columns of `B` and `C` -/
theorem C73_trmm_left_columns [Add α] [Mul α] [Zero α] (A : MatV α) (t : Triangle) (d : Diag)
    (B : MatV α) (C : Mat) (k : Nat) (hk : k ≤ C.cols) (hB : C.cols ≤ B.cols)
    (hBr : C.rows ≤ B.rows) :
    trmmLeft A t d B C = (do
      trmmLeft A t d (B.block 0 0 B.rows k) (C.block 0 0 C.rows k)
      trmmLeft A t d (B.block 0 k B.rows (C.cols - k)) (C.block 0 k C.rows (C.cols - k))) := by
  have hC' : 0 + C.rows ≤ C.rows := by omega
  have hB' : 0 + B.rows ≤ B.rows := by omega
  have hk1 : 0 + k ≤ C.cols := by omega
  have hk2 : k + (C.cols - k) ≤ C.cols := by omega
  cases t
  all_goals
    refine forUp_split' hk (fun j hj => forUp_congr fun i _ hi => ?_) fun j hj =>
      forUp_congr fun i _ hi => ?_
    · have hi : i < C.rows := hi
      rw [Mat.block_set hi hj hC' hk1, Nat.zero_add, Nat.zero_add,
        MatV.block_get (by omega : i < B.rows) hj hB' (by omega), Nat.zero_add, Nat.zero_add]
      simp only [Mat.block_addTo hi hj hC' hk1, Nat.zero_add]
      refine congrArg _ (funext fun _ => ?_)
      refine congr (congrArg _ (forUp_congr fun l _ hl => ?_)) rfl
      have hl' : l < B.rows := by
        try change l < C.rows at hl
        try split_ifs at hl <;> omega
        try omega
      rw [MatV.block_get hl' hj hB' (by omega), Nat.zero_add, Nat.zero_add]
    · have hi : i < C.rows := hi
      rw [Mat.block_set hi hj hC' hk2, Nat.zero_add,
        MatV.block_get (by omega : i < B.rows) hj hB' (by omega), Nat.zero_add]
      simp only [Mat.block_addTo hi hj hC' hk2, Nat.zero_add]
      refine congrArg _ (funext fun _ => ?_)
      refine congr (congrArg _ (forUp_congr fun l _ hl => ?_)) rfl
      have hl' : l < B.rows := by
        try change l < C.rows at hl
        try split_ifs at hl <;> omega
        try omega
      rw [MatV.block_get hl' hj hB' (by omega), Nat.zero_add]

example (t : Triangle) (d : Diag) : (trmmLeft (A.view : MatV Term) t d B.view C : Prog Term Unit) =
    (do
      trmmLeft (A.view : MatV Term) t d ((B.view : MatV Term).block 0 0 3 1) (C.block 0 0 3 1)
      trmmLeft (A.view : MatV Term) t d ((B.view : MatV Term).block 0 1 3 2) (C.block 0 1 3 2)) :=
  C73_trmm_left_columns _ _ _ _ _ 1 (by decide) le_rfl le_rfl

/-- **C73** `triangular_matrix_left_product(A, t, d, C)` by blocks of columns -/
theorem C73_trmm_left_in_place_columns [Add α] [Mul α] (A : MatV α) (t : Triangle) (d : Diag)
    (C : Mat) (k : Nat) (hk : k ≤ C.cols) :
    trmmLeftInPlace A t d C = (do
      trmmLeftInPlace A t d (C.block 0 0 C.rows k)
      trmmLeftInPlace A t d (C.block 0 k C.rows (C.cols - k))) := by
  have hC' : 0 + C.rows ≤ C.rows := by omega
  have hk1 : 0 + k ≤ C.cols := by omega
  have hk2 : k + (C.cols - k) ≤ C.cols := by omega
  cases t with
  | upper =>
    refine forUp_split' hk (fun j hj => forUp_congr fun l _ hl => ?_) fun j hj =>
      forUp_congr fun l _ hl => ?_
    · have hl : l < C.rows := hl
      simp only [Mat.block_set hl hj hC' hk1, Mat.block_get hl hj hC' hk1, Nat.zero_add]
      refine congr (congrArg _ (forUp_congr fun i _ hi => ?_)) rfl
      simp only [Mat.block_addTo (by omega : i < C.rows) hj hC' hk1, Nat.zero_add]
    · have hl : l < C.rows := hl
      simp only [Mat.block_set hl hj hC' hk2, Mat.block_get hl hj hC' hk2, Nat.zero_add]
      refine congr (congrArg _ (forUp_congr fun i _ hi => ?_)) rfl
      simp only [Mat.block_addTo (by omega : i < C.rows) hj hC' hk2, Nat.zero_add]
  | lower =>
    refine forUp_split' hk (fun j hj => forEach_congr fun l hl => ?_) fun j hj =>
      forEach_congr fun l hl => ?_
    · rw [List.mem_reverse, List.mem_range] at hl
      have hl : l < C.rows := hl
      simp only [Mat.block_set hl hj hC' hk1, Mat.block_get hl hj hC' hk1, Nat.zero_add]
      refine congr (congrArg _ (forUp_congr fun i _ hi => ?_)) rfl
      simp only [Mat.block_addTo (show i < C.rows from hi) hj hC' hk1, Nat.zero_add]
    · rw [List.mem_reverse, List.mem_range] at hl
      have hl : l < C.rows := hl
      simp only [Mat.block_set hl hj hC' hk2, Mat.block_get hl hj hC' hk2, Nat.zero_add]
      refine congr (congrArg _ (forUp_congr fun i _ hi => ?_)) rfl
      simp only [Mat.block_addTo (show i < C.rows from hi) hj hC' hk2, Nat.zero_add]

example (t : Triangle) (d : Diag) : (trmmLeftInPlace (A.view : MatV Term) t d C : Prog Term Unit) =
    (do
      trmmLeftInPlace (A.view : MatV Term) t d (C.block 0 0 3 1)
      trmmLeftInPlace (A.view : MatV Term) t d (C.block 0 1 3 2)) :=
  C73_trmm_left_in_place_columns _ _ _ _ 1 (by decide)

/-! ## Right-side products by blocks of rows -/

theorem Mat.Becomes.of_row_blocks {C : Mat} {h : Heap α} {F : Nat → Nat → α} {k : Nat}
    {p1 p2 : Prog α Unit} (hk : k ≤ C.rows) (hu : C.Unique)
    (H1 : Ends p1 h fun _ h' => (C.block 0 0 k C.cols).Becomes h h' F)
    (H2 : ∀ h2, OnlyChanges C.Cell h h2 →
      (∀ i j, i < C.rows - k → j < C.cols → h2 (C.addr (k + i) j) = h (C.addr (k + i) j)) →
      Ends p2 h2 fun _ h' =>
        (C.block k 0 (C.rows - k) C.cols).Becomes h2 h' fun i j => F (k + i) j) :
    Ends (p1 >>= fun _ => p2) h fun _ h' => C.Becomes h h' F := by
  rw [ends_bind]
  refine H1.mono fun _ h2 hb2 => ?_
  have hd : Apart (C.block k 0 (C.rows - k) C.cols).Cell (C.block 0 0 k C.cols).Cell := by
    rintro p ⟨i, j, hi, hj, _, e⟩ ⟨i', j', hi', hj', _, e'⟩
    simp only [Mat.block] at hi hj hi' hj' e e'
    have := hu _ _ _ _ (by omega) (by omega) trivial (by omega) (by omega) trivial
      (e.trans e'.symm)
    omega
  have o2 : OnlyChanges C.Cell h h2 := fun p hp => hb2.2 p fun hq =>
    hp (Mat.block_cell (by omega) (by omega) hq)
  refine (H2 h2 o2 fun i j hi hj => ?_).mono fun _ h3 hb3 => ?_
  · exact hb2.2 _ (hd _ ⟨i, j, hi, hj, trivial, by simp only [Mat.block, Nat.zero_add]⟩)
  refine ⟨fun i j hi hj _ => ?_, fun p hp => (hb3.2 p fun hq =>
    hp (Mat.block_cell (by omega) (by omega) hq)).trans (o2 p hp)⟩
  by_cases hik : i < k
  · have e := hb2.1 i j hik hj trivial
    simp only [Mat.block, Nat.zero_add] at e
    rw [hb3.2 _ fun hq => hd _ hq ⟨i, j, hik, hj, trivial, by simp only [Mat.block, Nat.zero_add]⟩,
      e]
  · have e := hb3.1 (i - k) j (by simp only [Mat.block]; omega) hj trivial
    simp only [Mat.block, Nat.zero_add, show k + (i - k) = i by omega] at e
    exact e

theorem Mat.Alloc.row_block {C : Mat} {h h2 : Heap α} {k : Nat} (hC : C.Alloc h)
    (hs : ∀ i j, i < C.rows - k → j < C.cols → h2 (C.addr (k + i) j) = h (C.addr (k + i) j)) :
    (C.block k 0 (C.rows - k) C.cols).Alloc h2 := by
  intro i j hi hj _
  simp only [Mat.block] at hi hj
  obtain ⟨v, hv⟩ := hC (k + i) j (by omega) hj trivial
  exact ⟨v, by simp only [Mat.block, Nat.zero_add]; rw [hs i j hi hj, hv]⟩

theorem Mat.block_holds {C : Mat} {h : Heap α} {c : Nat → Nat → α} (hC : C.Holds h c)
    {i0 j0 r n : Nat} (hr : i0 + r ≤ C.rows) (hc : j0 + n ≤ C.cols) :
    (C.block i0 j0 r n).Holds h fun i j => c (i0 + i) (j0 + j) :=
  fun i j hi hj _ => hC (i0 + i) (j0 + j) (by simp only [Mat.block] at hi; omega)
    (by simp only [Mat.block] at hj; omega) trivial

/-- **C73** `symmetric_matrix_product(B, A, t, C)` by blocks of rows of `B` and `C` -/
theorem C73_symm_right_rows [Add α] [Mul α] [Zero α] (B A : MatV α) (t : Triangle)
    (C : Mat) (h : Heap α) (a b : Nat → Nat → α) (k : Nat) (hA : A.HoldsOn h t.region a)
    (hB : B.Holds h b) (hC : C.Alloc h) (hsq : A.rows = A.cols) (hr : C.rows = B.rows)
    (hi : B.cols = A.rows) (hc : C.cols = A.cols) (hu : C.Unique)
    (hAC : Apart (A.toMat.CellOn t.region) C.Cell) (hBC : Apart B.toMat.Cell C.Cell)
    (hk : k ≤ C.rows) :
    Ends (symmRight B A t C) h fun _ h1 => Ends (do
        symmRight (B.block 0 0 k B.cols) A t (C.block 0 0 k C.cols)
        symmRight (B.block k 0 (C.rows - k) B.cols) A t (C.block k 0 (C.rows - k) C.cols)) h
      fun _ h2 => h1 = h2 := by
  refine (C54_symm_right A t B C h a b hA hB hC hsq hr hi hc hu hAC hBC).mono fun _ h1 hb1 => ?_
  refine (Mat.Becomes.of_row_blocks hk hu ?_ fun h2 o2 hs => ?_).mono fun _ h2 hb2 =>
    hb1.unique hb2 fun _ _ _ _ => rfl
  · refine (C54_symm_right A t (B.block 0 0 k B.cols) (C.block 0 0 k C.cols) h a _ hA
      (hB.block (by omega) (by omega)) (hC.block (by omega) (by omega)) hsq rfl hi hc
      (hu.block (by omega) (by omega))
      (fun p hp hq => hAC p hp (Mat.block_cell (by omega) (by omega) hq))
      (fun p hp hq => hBC p (MatV.block_cell (by omega) (by omega) hp)
        (Mat.block_cell (by omega) (by omega) hq))).mono fun _ h' hb => ?_
    simpa only [Nat.zero_add] using hb
  · have hA2 : A.HoldsOn h2 t.region a := hA.of_onlyChanges hAC o2
    have hB2 : B.Holds h2 b := hB.of_onlyChanges hBC o2
    refine (C54_symm_right A t (B.block k 0 (C.rows - k) B.cols) (C.block k 0 (C.rows - k) C.cols)
      h2 a _ hA2 (hB2.block (by omega) (by omega)) (hC.row_block hs) hsq rfl hi hc
      (hu.block (by omega) (by omega))
      (fun p hp hq => hAC p hp (Mat.block_cell (by omega) (by omega) hq))
      (fun p hp hq => hBC p (MatV.block_cell (by omega) (by omega) hp)
        (Mat.block_cell (by omega) (by omega) hq))).mono fun _ h' hb => ?_
    simpa only [Nat.zero_add] using hb

example (t : Triangle) : Ends (symmRight (B.view : MatV Term) A.view t C) (heap Term)
    fun _ h1 => Ends (do
      symmRight ((B.view : MatV Term).block 0 0 1 3) A.view t (C.block 0 0 1 3)
      symmRight ((B.view : MatV Term).block 1 0 2 3) A.view t (C.block 1 0 2 3))
    (heap Term) fun _ h2 => h1 = h2 :=
  C73_symm_right_rows _ _ _ _ _ _ _ 1 (mholdsV bA) (mholdsV bB) (malloc bC) rfl rfl rfl rfl
    (by view_facts) (by view_facts) (by view_facts) (by decide)

/-- **C73** `hermitian_matrix_product(B, A, t, C)` by blocks of rows of `B` and `C` -/
theorem C73_hemm_right_rows [Add α] [Mul α] [Zero α] [ConjOps α] (B A : MatV α) (t : Triangle)
    (C : Mat) (h : Heap α) (a b : Nat → Nat → α) (k : Nat) (hA : A.HoldsOn h t.region a)
    (hB : B.Holds h b) (hC : C.Alloc h) (hsq : A.rows = A.cols) (hr : C.rows = B.rows)
    (hi : B.cols = A.rows) (hc : C.cols = A.cols) (hu : C.Unique)
    (hAC : Apart (A.toMat.CellOn t.region) C.Cell) (hBC : Apart B.toMat.Cell C.Cell)
    (hk : k ≤ C.rows) :
    Ends (hemmRight B A t C) h fun _ h1 => Ends (do
        hemmRight (B.block 0 0 k B.cols) A t (C.block 0 0 k C.cols)
        hemmRight (B.block k 0 (C.rows - k) B.cols) A t (C.block k 0 (C.rows - k) C.cols)) h
      fun _ h2 => h1 = h2 := by
  refine (C54_hemm_right A t B C h a b hA hB hC hsq hr hi hc hu hAC hBC).mono fun _ h1 hb1 => ?_
  refine (Mat.Becomes.of_row_blocks hk hu ?_ fun h2 o2 hs => ?_).mono fun _ h2 hb2 =>
    hb1.unique hb2 fun _ _ _ _ => rfl
  · refine (C54_hemm_right A t (B.block 0 0 k B.cols) (C.block 0 0 k C.cols) h a _ hA
      (hB.block (by omega) (by omega)) (hC.block (by omega) (by omega)) hsq rfl hi hc
      (hu.block (by omega) (by omega))
      (fun p hp hq => hAC p hp (Mat.block_cell (by omega) (by omega) hq))
      (fun p hp hq => hBC p (MatV.block_cell (by omega) (by omega) hp)
        (Mat.block_cell (by omega) (by omega) hq))).mono fun _ h' hb => ?_
    simpa only [Nat.zero_add] using hb
  · have hA2 : A.HoldsOn h2 t.region a := hA.of_onlyChanges hAC o2
    have hB2 : B.Holds h2 b := hB.of_onlyChanges hBC o2
    refine (C54_hemm_right A t (B.block k 0 (C.rows - k) B.cols) (C.block k 0 (C.rows - k) C.cols)
      h2 a _ hA2 (hB2.block (by omega) (by omega)) (hC.row_block hs) hsq rfl hi hc
      (hu.block (by omega) (by omega))
      (fun p hp hq => hAC p hp (Mat.block_cell (by omega) (by omega) hq))
      (fun p hp hq => hBC p (MatV.block_cell (by omega) (by omega) hp)
        (Mat.block_cell (by omega) (by omega) hq))).mono fun _ h' hb => ?_
    simpa only [Nat.zero_add] using hb

example (t : Triangle) : Ends (hemmRight (B.view : MatV ℂ) A.view t C) (heap ℂ)
    fun _ h1 => Ends (do
      hemmRight ((B.view : MatV ℂ).block 0 0 1 3) A.view t (C.block 0 0 1 3)
      hemmRight ((B.view : MatV ℂ).block 1 0 2 3) A.view t (C.block 1 0 2 3))
    (heap ℂ) fun _ h2 => h1 = h2 :=
  C73_hemm_right_rows _ _ _ _ _ _ _ 1 (mholdsV bA) (mholdsV bB) (malloc bC) rfl rfl rfl rfl
    (by view_facts) (by view_facts) (by view_facts) (by decide)

/-- **C73** `triangular_matrix_product(B, A, t, d, C)` by blocks of rows of `B` and `C` -/
theorem C73_trmm_right_rows [Add α] [Mul α] [Zero α] (B A : MatV α) (t : Triangle) (d : Diag)
    (C : Mat) (h : Heap α) (a b : Nat → Nat → α) (k : Nat) (hA : A.HoldsOn h (triRegion t d) a)
    (hB : B.Holds h b) (hC : C.Alloc h) (hsq : A.rows = A.cols) (hr : C.rows = B.rows)
    (hi : B.cols = A.rows) (hc : C.cols = A.cols) (hu : C.Unique)
    (hAC : Apart (A.toMat.CellOn (triRegion t d)) C.Cell) (hBC : Apart B.toMat.Cell C.Cell)
    (hk : k ≤ C.rows) :
    Ends (trmmRight B A t d C) h fun _ h1 => Ends (do
        trmmRight (B.block 0 0 k B.cols) A t d (C.block 0 0 k C.cols)
        trmmRight (B.block k 0 (C.rows - k) B.cols) A t d (C.block k 0 (C.rows - k) C.cols)) h
      fun _ h2 => h1 = h2 := by
  refine (C54_trmm_right A t d B C h a b hA hB hC hsq hr hi hc hu hAC hBC).mono fun _ h1 hb1 => ?_
  refine (Mat.Becomes.of_row_blocks hk hu ?_ fun h2 o2 hs => ?_).mono fun _ h2 hb2 =>
    hb1.unique hb2 fun _ _ _ _ => rfl
  · refine (C54_trmm_right A t d (B.block 0 0 k B.cols) (C.block 0 0 k C.cols) h a _ hA
      (hB.block (by omega) (by omega)) (hC.block (by omega) (by omega)) hsq rfl hi hc
      (hu.block (by omega) (by omega))
      (fun p hp hq => hAC p hp (Mat.block_cell (by omega) (by omega) hq))
      (fun p hp hq => hBC p (MatV.block_cell (by omega) (by omega) hp)
        (Mat.block_cell (by omega) (by omega) hq))).mono fun _ h' hb => ?_
    simpa only [Nat.zero_add] using hb
  · have hA2 : A.HoldsOn h2 (triRegion t d) a := hA.of_onlyChanges hAC o2
    have hB2 : B.Holds h2 b := hB.of_onlyChanges hBC o2
    refine (C54_trmm_right A t d (B.block k 0 (C.rows - k) B.cols) (C.block k 0 (C.rows - k) C.cols)
      h2 a _ hA2 (hB2.block (by omega) (by omega)) (hC.row_block hs) hsq rfl hi hc
      (hu.block (by omega) (by omega))
      (fun p hp hq => hAC p hp (Mat.block_cell (by omega) (by omega) hq))
      (fun p hp hq => hBC p (MatV.block_cell (by omega) (by omega) hp)
        (Mat.block_cell (by omega) (by omega) hq))).mono fun _ h' hb => ?_
    simpa only [Nat.zero_add] using hb

example (t : Triangle) (d : Diag) : Ends (trmmRight (B.view : MatV Term) A.view t d C) (heap Term)
    fun _ h1 => Ends (do
      trmmRight ((B.view : MatV Term).block 0 0 1 3) A.view t d (C.block 0 0 1 3)
      trmmRight ((B.view : MatV Term).block 1 0 2 3) A.view t d (C.block 1 0 2 3))
    (heap Term) fun _ h2 => h1 = h2 :=
  C73_trmm_right_rows _ _ _ _ _ _ _ _ 1 (mholdsV bA) (mholdsV bB) (malloc bC) rfl rfl rfl rfl
    (by view_facts) (by view_facts) (by view_facts) (by decide)

/-- **C73** `triangular_matrix_right_product(A, t, d, C)` by blocks of rows -/
theorem C73_trmm_right_in_place_rows [Add α] [Mul α] (A : MatV α) (t : Triangle) (d : Diag)
    (C : Mat) (h : Heap α) (a c : Nat → Nat → α) (k : Nat) (hA : A.HoldsOn h (triRegion t d) a)
    (hC : C.Holds h c) (hsq : A.rows = A.cols) (hc : C.cols = A.cols) (hu : C.Unique)
    (hAC : Apart (A.toMat.CellOn (triRegion t d)) C.Cell) (hk : k ≤ C.rows) :
    Ends (trmmRightInPlace A t d C) h fun _ h1 => Ends (do
        trmmRightInPlace A t d (C.block 0 0 k C.cols)
        trmmRightInPlace A t d (C.block k 0 (C.rows - k) C.cols)) h
      fun _ h2 => h1 = h2 := by
  cases t
  all_goals
    refine (C54_trmm_right_in_place A _ d C h a c hA hC hsq hc hu hAC).mono fun _ h1 hb1 => ?_
    refine (Mat.Becomes.of_row_blocks hk hu ?_ fun h2 o2 hs => ?_).mono fun _ h2 hb2 =>
      hb1.unique hb2 fun _ _ _ _ => rfl
    · refine (C54_trmm_right_in_place A _ d (C.block 0 0 k C.cols) h a _ hA
        (Mat.block_holds hC (by omega) (by omega)) hsq hc (hu.block (by omega) (by omega))
        (fun p hp hq => hAC p hp (Mat.block_cell (by omega) (by omega) hq))).mono fun _ h' hb => ?_
      simpa only [Nat.zero_add] using hb
    · have hA2 : A.HoldsOn h2 _ a := hA.of_onlyChanges hAC o2
      refine (C54_trmm_right_in_place A _ d (C.block k 0 (C.rows - k) C.cols) h2 a
        (fun i j => c (k + i) j) hA2 (fun i j hi hj _ => ?_) hsq hc (hu.block (by omega) (by omega))
        (fun p hp hq => hAC p hp (Mat.block_cell (by omega) (by omega) hq))).mono fun _ h' hb => hb
      simp only [Mat.block, Nat.zero_add] at hi hj ⊢
      rw [hs i j hi hj, hC (k + i) j (by omega) hj trivial]

example (t : Triangle) (d : Diag) : Ends (trmmRightInPlace (A.view : MatV Term) t d C) (heap Term)
    fun _ h1 => Ends (do
      trmmRightInPlace (A.view : MatV Term) t d (C.block 0 0 1 3)
      trmmRightInPlace (A.view : MatV Term) t d (C.block 1 0 2 3))
    (heap Term) fun _ h2 => h1 = h2 :=
  C73_trmm_right_in_place_rows _ _ _ _ _ _ _ 1 (mholdsV bA) (mholds bC) rfl rfl
    (by view_facts) (by view_facts) (by decide)

/-! ## Rank-k updates by blocks of columns of `A` -/

theorem Mat.BecomesOn.unique {C : Mat} {R : Region} {h h1 h2 : Heap α} {f g : Nat → Nat → α}
    (H1 : C.BecomesOn h h1 R f) (H2 : C.BecomesOn h h2 R g)
    (e : ∀ i j, i < C.rows → j < C.cols → R i j → f i j = g i j) : h1 = h2 := by
  funext p
  by_cases hp : C.CellOn R p
  · obtain ⟨i, j, hi, hj, hr, rfl⟩ := hp
    rw [H1.1 i j hi hj hr, H2.1 i j hi hj hr, e i j hi hj hr]
  · rw [H1.2 p hp, H2.2 p hp]

theorem Mat.BecomesOn.trans {C : Mat} {R : Region} {h h1 h2 : Heap α} {f g : Nat → Nat → α}
    (H1 : C.BecomesOn h h1 R f) (H2 : C.BecomesOn h1 h2 R g) : C.BecomesOn h h2 R g :=
  ⟨H2.1, fun p hp => (H2.2 p hp).trans (H1.2 p hp)⟩

theorem leftSum_keeps [Add α] {P : α → Prop} {s : α} {n : Nat} {t : Nat → α} (hs : P s)
    (ht : ∀ r l, P r → P (r + t l)) : P (leftSum s n t) := by
  induction n with
  | zero => exact hs
  | succ n ih => exact ht _ n ih

/-- **C73** `symmetric_matrix_rank_k_update(A, C, t)` by blocks of columns of `A` -/
theorem C73_syrk_columns [Add α] [Mul α] (A : MatV α) (C : Mat)
    (t : Triangle) (h : Heap α) (a c : Nat → Nat → α) (k : Nat) (hA : A.Holds h a)
    (hC : C.HoldsOn h t.region c) (hsq : C.rows = C.cols) (hAe : C.rows ≤ A.rows)
    (hu : C.UniqueOn t.region) (hAC : Apart A.toMat.Cell (C.CellOn t.region))
    (hk : k ≤ A.cols) :
    Ends (syrk A C t) h fun _ h1 => Ends (do
        syrk (A.block 0 0 A.rows k) C t
        syrk (A.block 0 k A.rows (A.cols - k)) C t) h
      fun _ h2 => h1 = h2 := by
  refine (C54_syrk A C t h a c hA hC hsq hAe hu hAC).mono fun _ h1 hb1 => ?_
  rw [ends_bind]
  refine (C54_syrk (A.block 0 0 A.rows k) C t h _ c
    (hA.block (by omega) (by omega)) hC hsq hAe hu
    (fun p hp => hAC p (MatV.block_cell (by omega) (by omega) hp))).mono fun _ h2 hb2 => ?_
  have hA2 : A.Holds h2 a := hA.of_onlyChanges hAC hb2.2
  refine (C54_syrk (A.block 0 k A.rows (A.cols - k)) C t h2 _ _
    (hA2.block (by omega) (by omega)) hb2.1 hsq hAe hu
    (fun p hp => hAC p (MatV.block_cell (by omega) (by omega) hp))).mono fun _ h3 hb3 => ?_
  refine hb1.unique (hb2.trans hb3) fun i j _ _ _ => ?_
  conv_lhs => rw [show A.cols = k + (A.cols - k) by omega]
  rw [leftSum_add]
  simp only [MatV.block, Nat.zero_add]

example (t : Triangle) : Ends (syrk (T.view : MatV Term) C t) (heap Term)
    fun _ h1 => Ends (do
      syrk ((T.view : MatV Term).block 0 0 3 1) C t
      syrk ((T.view : MatV Term).block 0 1 3 1) C t)
    (heap Term) fun _ h2 => h1 = h2 :=
  C73_syrk_columns _ _ _ _ _ _ 1 (mholdsV bT) (mholds bC) rfl le_rfl
    (by view_facts) (by view_facts)
    (by decide)

/-- **C73** `symmetric_matrix_rank_k_update(alpha, A, C, t)` by blocks of columns of `A` -/
theorem C73_syrk_alpha_columns [Add α] [Mul α] (alpha : α) (A : MatV α) (C : Mat)
    (t : Triangle) (h : Heap α) (a c : Nat → Nat → α) (k : Nat) (hA : A.Holds h a)
    (hC : C.HoldsOn h t.region c) (hsq : C.rows = C.cols) (hAe : C.rows ≤ A.rows)
    (hu : C.UniqueOn t.region) (hAC : Apart A.toMat.Cell (C.CellOn t.region))
    (hk : k ≤ A.cols) :
    Ends (syrkAlpha alpha A C t) h fun _ h1 => Ends (do
        syrkAlpha alpha (A.block 0 0 A.rows k) C t
        syrkAlpha alpha (A.block 0 k A.rows (A.cols - k)) C t) h
      fun _ h2 => h1 = h2 := by
  refine (C54_syrk_alpha alpha A C t h a c hA hC hsq hAe hu hAC).mono fun _ h1 hb1 => ?_
  rw [ends_bind]
  refine (C54_syrk_alpha alpha (A.block 0 0 A.rows k) C t h _ c
    (hA.block (by omega) (by omega)) hC hsq hAe hu
    (fun p hp => hAC p (MatV.block_cell (by omega) (by omega) hp))).mono fun _ h2 hb2 => ?_
  have hA2 : A.Holds h2 a := hA.of_onlyChanges hAC hb2.2
  refine (C54_syrk_alpha alpha (A.block 0 k A.rows (A.cols - k)) C t h2 _ _
    (hA2.block (by omega) (by omega)) hb2.1 hsq hAe hu
    (fun p hp => hAC p (MatV.block_cell (by omega) (by omega) hp))).mono fun _ h3 hb3 => ?_
  refine hb1.unique (hb2.trans hb3) fun i j _ _ _ => ?_
  conv_lhs => rw [show A.cols = k + (A.cols - k) by omega]
  rw [leftSum_add]
  simp only [MatV.block, Nat.zero_add]

example (t : Triangle) : Ends (syrkAlpha (.int 5) (T.view : MatV Term) C t) (heap Term)
    fun _ h1 => Ends (do
      syrkAlpha (.int 5) ((T.view : MatV Term).block 0 0 3 1) C t
      syrkAlpha (.int 5) ((T.view : MatV Term).block 0 1 3 1) C t)
    (heap Term) fun _ h2 => h1 = h2 :=
  C73_syrk_alpha_columns _ _ _ _ _ _ _ 1 (mholdsV bT) (mholds bC) rfl le_rfl
    (by view_facts) (by view_facts)
    (by decide)

/-- **C73** `symmetric_matrix_rank_2k_update(A, B, C, t)` by blocks of columns of `A` and `B` -/
theorem C73_syr2k_columns [Add α] [Mul α] (A B : MatV α) (C : Mat)
    (t : Triangle) (h : Heap α) (a b c : Nat → Nat → α) (k : Nat) (hA : A.Holds h a) (hB : B.Holds h b)
    (hC : C.HoldsOn h t.region c) (hsq : C.rows = C.cols) (hAe : C.rows ≤ A.rows)
    (hBe : C.rows ≤ B.rows) (hAB : A.cols ≤ B.cols)
    (hu : C.UniqueOn t.region) (hAC : Apart A.toMat.Cell (C.CellOn t.region))
    (hBC : Apart B.toMat.Cell (C.CellOn t.region))
    (hk : k ≤ A.cols) :
    Ends (syr2k A B C t) h fun _ h1 => Ends (do
        syr2k (A.block 0 0 A.rows k) (B.block 0 0 B.rows k) C t
        syr2k (A.block 0 k A.rows (A.cols - k)) (B.block 0 k B.rows (A.cols - k)) C t) h
      fun _ h2 => h1 = h2 := by
  refine (C54_syr2k A B C t h a b c hA hB hC hsq hAe hBe hAB hu hAC hBC).mono fun _ h1 hb1 => ?_
  rw [ends_bind]
  refine (C54_syr2k (A.block 0 0 A.rows k) (B.block 0 0 B.rows k) C t h _ _ c
    (hA.block (by omega) (by omega)) (hB.block (by omega) (by omega)) hC hsq hAe hBe le_rfl hu
    (fun p hp => hAC p (MatV.block_cell (by omega) (by omega) hp))
    (fun p hp => hBC p (MatV.block_cell (by omega) (by omega) hp))).mono fun _ h2 hb2 => ?_
  have hA2 : A.Holds h2 a := hA.of_onlyChanges hAC hb2.2
  have hB2 : B.Holds h2 b := hB.of_onlyChanges hBC hb2.2
  refine (C54_syr2k (A.block 0 k A.rows (A.cols - k)) (B.block 0 k B.rows (A.cols - k)) C t h2 _ _ _
    (hA2.block (by omega) (by omega)) (hB2.block (by omega) (by omega)) hb2.1 hsq hAe hBe le_rfl hu
    (fun p hp => hAC p (MatV.block_cell (by omega) (by omega) hp))
    (fun p hp => hBC p (MatV.block_cell (by omega) (by omega) hp))).mono fun _ h3 hb3 => ?_
  refine hb1.unique (hb2.trans hb3) fun i j _ _ _ => ?_
  conv_lhs => rw [show A.cols = k + (A.cols - k) by omega]
  rw [leftSum_add]
  simp only [MatV.block, Nat.zero_add]

example (t : Triangle) : Ends (syr2k (T.view : MatV Term) A.view C t) (heap Term)
    fun _ h1 => Ends (do
      syr2k ((T.view : MatV Term).block 0 0 3 1) ((A.view : MatV Term).block 0 0 3 1) C t
      syr2k ((T.view : MatV Term).block 0 1 3 1) ((A.view : MatV Term).block 0 1 3 1) C t)
    (heap Term) fun _ h2 => h1 = h2 :=
  C73_syr2k_columns _ _ _ _ _ _ _ _ 1 (mholdsV bT) (mholdsV bA) (mholds bC) rfl le_rfl
    le_rfl (by decide) (by view_facts) (by view_facts) (by view_facts)
    (by decide)

/-- **C73** `hermitian_matrix_rank_k_update(A, C, t)` by blocks of columns
of `A`: for element types in which the diagonal stays real -/
theorem C73_herk_columns [Add α] [Mul α] [ConjOps α] (A : MatV α) (C : Mat)
    (t : Triangle) (h : Heap α) (a c : Nat → Nat → α) (k : Nat) (hA : A.Holds h a)
    (hC : C.HoldsOn h t.region c) (hsq : C.rows = C.cols) (hAe : C.rows ≤ A.rows)
    (hu : C.UniqueOn t.region) (hAC : Apart A.toMat.Cell (C.CellOn t.region))
    (hk : k ≤ A.cols)
    (hre : ∀ v : α, ConjOps.re (ConjOps.re v) = ConjOps.re v)
    (hreal : ∀ r v : α, ConjOps.re r = r → ConjOps.re (r + v * ConjOps.conj v) =
      r + v * ConjOps.conj v) :
    Ends (herk A C t) h fun _ h1 => Ends (do
        herk (A.block 0 0 A.rows k) C t
        herk (A.block 0 k A.rows (A.cols - k)) C t) h
      fun _ h2 => h1 = h2 := by
  refine (C54_herk A C t h a c hA hC hsq hAe hu hAC).mono fun _ h1 hb1 => ?_
  rw [ends_bind]
  refine (C54_herk (A.block 0 0 A.rows k) C t h _ c
    (hA.block (by omega) (by omega)) hC hsq hAe hu
    (fun p hp => hAC p (MatV.block_cell (by omega) (by omega) hp))).mono fun _ h2 hb2 => ?_
  have hA2 : A.Holds h2 a := hA.of_onlyChanges hAC hb2.2
  refine (C54_herk (A.block 0 k A.rows (A.cols - k)) C t h2 _ _
    (hA2.block (by omega) (by omega)) hb2.1 hsq hAe hu
    (fun p hp => hAC p (MatV.block_cell (by omega) (by omega) hp))).mono fun _ h3 hb3 => ?_
  refine hb1.unique (hb2.trans hb3) fun i j _ _ _ => ?_
  conv_lhs => rw [show A.cols = k + (A.cols - k) by omega]
  rw [leftSum_add]
  by_cases hij : i = j
  · subst hij
    simp only [if_true]
    rw [leftSum_keeps (P := fun v => ConjOps.re v = v) (hre _) fun r l hr => hreal _ _ hr]
    simp only [MatV.block, Nat.zero_add]
  · simp only [if_neg hij, MatV.block, Nat.zero_add]

example (t : Triangle) : Ends (herk (T.view : MatV ℂ) C t) (heap ℂ)
    fun _ h1 => Ends (do
      herk ((T.view : MatV ℂ).block 0 0 3 1) C t
      herk ((T.view : MatV ℂ).block 0 1 3 1) C t)
    (heap ℂ) fun _ h2 => h1 = h2 :=
  C73_herk_columns _ _ _ _ _ _ 1 (mholdsV bT) (mholds bC) rfl le_rfl
    (by view_facts) (by view_facts)
    (by decide)
    (fun v => by simp [re_complex])
    (fun r v hr => by
      rw [re_complex] at hr ⊢
      refine Complex.ext rfl ?_
      have := congrArg Complex.im hr
      simp [conj_complex] at this ⊢
      rw [← this]; ring)

/-- **C73** `hermitian_matrix_rank_k_update(alpha, A, C, t)` by blocks of columns
of `A`: for element types in which the diagonal stays real -/
theorem C73_herk_alpha_columns [Add α] [Mul α] [ConjOps α] (alpha : α) (A : MatV α) (C : Mat)
    (t : Triangle) (h : Heap α) (a c : Nat → Nat → α) (k : Nat) (hA : A.Holds h a)
    (hC : C.HoldsOn h t.region c) (hsq : C.rows = C.cols) (hAe : C.rows ≤ A.rows)
    (hu : C.UniqueOn t.region) (hAC : Apart A.toMat.Cell (C.CellOn t.region))
    (hk : k ≤ A.cols)
    (hre : ∀ v : α, ConjOps.re (ConjOps.re v) = ConjOps.re v)
    (hreal : ∀ r v : α, ConjOps.re r = r → ConjOps.re (r + alpha * v * ConjOps.conj v) =
      r + alpha * v * ConjOps.conj v) :
    Ends (herkAlpha alpha A C t) h fun _ h1 => Ends (do
        herkAlpha alpha (A.block 0 0 A.rows k) C t
        herkAlpha alpha (A.block 0 k A.rows (A.cols - k)) C t) h
      fun _ h2 => h1 = h2 := by
  refine (C54_herk_alpha alpha A C t h a c hA hC hsq hAe hu hAC).mono fun _ h1 hb1 => ?_
  rw [ends_bind]
  refine (C54_herk_alpha alpha (A.block 0 0 A.rows k) C t h _ c
    (hA.block (by omega) (by omega)) hC hsq hAe hu
    (fun p hp => hAC p (MatV.block_cell (by omega) (by omega) hp))).mono fun _ h2 hb2 => ?_
  have hA2 : A.Holds h2 a := hA.of_onlyChanges hAC hb2.2
  refine (C54_herk_alpha alpha (A.block 0 k A.rows (A.cols - k)) C t h2 _ _
    (hA2.block (by omega) (by omega)) hb2.1 hsq hAe hu
    (fun p hp => hAC p (MatV.block_cell (by omega) (by omega) hp))).mono fun _ h3 hb3 => ?_
  refine hb1.unique (hb2.trans hb3) fun i j _ _ _ => ?_
  conv_lhs => rw [show A.cols = k + (A.cols - k) by omega]
  rw [leftSum_add]
  by_cases hij : i = j
  · subst hij
    simp only [if_true]
    rw [leftSum_keeps (P := fun v => ConjOps.re v = v) (hre _) fun r l hr => hreal _ _ hr]
    simp only [MatV.block, Nat.zero_add]
  · simp only [if_neg hij, MatV.block, Nat.zero_add]

example (t : Triangle) : Ends (herkAlpha (2 : ℂ) (T.view : MatV ℂ) C t) (heap ℂ)
    fun _ h1 => Ends (do
      herkAlpha (2 : ℂ) ((T.view : MatV ℂ).block 0 0 3 1) C t
      herkAlpha (2 : ℂ) ((T.view : MatV ℂ).block 0 1 3 1) C t)
    (heap ℂ) fun _ h2 => h1 = h2 :=
  C73_herk_alpha_columns _ _ _ _ _ _ _ 1 (mholdsV bT) (mholds bC) rfl le_rfl
    (by view_facts) (by view_facts)
    (by decide)
    (fun v => by simp [re_complex])
    (fun r v hr => by
      rw [re_complex] at hr ⊢
      refine Complex.ext rfl ?_
      have := congrArg Complex.im hr
      simp [conj_complex] at this ⊢
      rw [← this]; ring)

/-- **C73** `hermitian_matrix_rank_2k_update(A, B, C, t)` by blocks of
columns of `A` and `B`: for element types in which the diagonal stays real -/
theorem C73_her2k_columns [Add α] [Mul α] [ConjOps α] (A B : MatV α) (C : Mat)
    (t : Triangle) (h : Heap α) (a b c : Nat → Nat → α) (k : Nat) (hA : A.Holds h a) (hB : B.Holds h b)
    (hC : C.HoldsOn h t.region c) (hsq : C.rows = C.cols) (hAe : C.rows ≤ A.rows)
    (hBe : C.rows ≤ B.rows) (hAB : A.cols ≤ B.cols)
    (hu : C.UniqueOn t.region) (hAC : Apart A.toMat.Cell (C.CellOn t.region))
    (hBC : Apart B.toMat.Cell (C.CellOn t.region))
    (hk : k ≤ A.cols)
    (hre : ∀ v : α, ConjOps.re (ConjOps.re v) = ConjOps.re v)
    (hreal : ∀ r v w : α, ConjOps.re r = r → ConjOps.re (r + (v * ConjOps.conj w + w * ConjOps.conj v)) =
      r + (v * ConjOps.conj w + w * ConjOps.conj v)) :
    Ends (her2k A B C t) h fun _ h1 => Ends (do
        her2k (A.block 0 0 A.rows k) (B.block 0 0 B.rows k) C t
        her2k (A.block 0 k A.rows (A.cols - k)) (B.block 0 k B.rows (A.cols - k)) C t) h
      fun _ h2 => h1 = h2 := by
  refine (C54_her2k A B C t h a b c hA hB hC hsq hAe hBe hAB hu hAC hBC).mono fun _ h1 hb1 => ?_
  rw [ends_bind]
  refine (C54_her2k (A.block 0 0 A.rows k) (B.block 0 0 B.rows k) C t h _ _ c
    (hA.block (by omega) (by omega)) (hB.block (by omega) (by omega)) hC hsq hAe hBe le_rfl hu
    (fun p hp => hAC p (MatV.block_cell (by omega) (by omega) hp))
    (fun p hp => hBC p (MatV.block_cell (by omega) (by omega) hp))).mono fun _ h2 hb2 => ?_
  have hA2 : A.Holds h2 a := hA.of_onlyChanges hAC hb2.2
  have hB2 : B.Holds h2 b := hB.of_onlyChanges hBC hb2.2
  refine (C54_her2k (A.block 0 k A.rows (A.cols - k)) (B.block 0 k B.rows (A.cols - k)) C t h2 _ _ _
    (hA2.block (by omega) (by omega)) (hB2.block (by omega) (by omega)) hb2.1 hsq hAe hBe le_rfl hu
    (fun p hp => hAC p (MatV.block_cell (by omega) (by omega) hp))
    (fun p hp => hBC p (MatV.block_cell (by omega) (by omega) hp))).mono fun _ h3 hb3 => ?_
  refine hb1.unique (hb2.trans hb3) fun i j _ _ _ => ?_
  conv_lhs => rw [show A.cols = k + (A.cols - k) by omega]
  rw [leftSum_add]
  by_cases hij : i = j
  · subst hij
    simp only [if_true]
    rw [leftSum_keeps (P := fun v => ConjOps.re v = v) (hre _) fun r l hr => hreal _ _ _ hr]
    simp only [MatV.block, Nat.zero_add]
  · simp only [if_neg hij, MatV.block, Nat.zero_add]

example (t : Triangle) : Ends (her2k (T.view : MatV ℂ) A.view C t) (heap ℂ)
    fun _ h1 => Ends (do
      her2k ((T.view : MatV ℂ).block 0 0 3 1) ((A.view : MatV ℂ).block 0 0 3 1) C t
      her2k ((T.view : MatV ℂ).block 0 1 3 1) ((A.view : MatV ℂ).block 0 1 3 1) C t)
    (heap ℂ) fun _ h2 => h1 = h2 :=
  C73_her2k_columns _ _ _ _ _ _ _ _ 1 (mholdsV bT) (mholdsV bA) (mholds bC) rfl le_rfl
    le_rfl (by decide) (by view_facts) (by view_facts) (by view_facts)
    (by decide)
    (fun v => by simp [re_complex])
    (fun r v w hr => by
      rw [re_complex] at hr ⊢
      refine Complex.ext rfl ?_
      have := congrArg Complex.im hr
      simp [conj_complex] at this ⊢
      rw [← this]; ring)

/-! ## Rank-k updates by blocks of `C` -/

open Classical in
/-- `c` with the block at `(i0, j0)` replaced by `u` where `R` holds. -/
noncomputable def withBlock (c u : Nat → Nat → α) (R : Region) (i0 j0 r m i j : Nat) : α :=
  if (i0 ≤ i ∧ i < i0 + r) ∧ (j0 ≤ j ∧ j < j0 + m) ∧ R (i - i0) (j - j0) then u (i - i0) (j - j0)
  else c i j

theorem Mat.BecomesOn.into {C : Mat} {R R' : Region} {i0 j0 r m : Nat} {h h' : Heap α}
    {c u : Nat → Nat → α} (hu : C.UniqueOn R) (hC : C.HoldsOn h R c)
    (hR : ∀ i j, i < r → j < m → R' i j → R (i0 + i) (j0 + j)) (hr : i0 + r ≤ C.rows)
    (hm : j0 + m ≤ C.cols) (hb : (C.block i0 j0 r m).BecomesOn h h' R' u) :
    C.HoldsOn h' R (withBlock c u R' i0 j0 r m) ∧ OnlyChanges (C.CellOn R) h h' := by
  constructor
  · intro i j hi hj hij
    unfold withBlock
    split_ifs with hc
    · obtain ⟨⟨h1, h2⟩, ⟨h3, h4⟩, h5⟩ := hc
      have e := hb.1 (i - i0) (j - j0) (by simp only [Mat.block]; omega)
        (by simp only [Mat.block]; omega) h5
      simp only [Mat.block, show i0 + (i - i0) = i by omega, show j0 + (j - j0) = j by omega] at e
      exact e
    · rw [hb.2 _ ?_, hC i j hi hj hij]
      rintro ⟨p, q, hp, hq, hpq, e⟩
      simp only [Mat.block] at hp hq e
      have := hu (i0 + p) (j0 + q) i j (by omega) (by omega) (hR p q hp hq hpq) hi hj hij e
      refine hc ⟨by omega, by omega, ?_⟩
      rw [show i - i0 = p by omega, show j - j0 = q by omega]
      exact hpq
  · intro p hp
    refine hb.2 p ?_
    rintro ⟨i, j, hi, hj, hij, e⟩
    simp only [Mat.block] at hi hj e
    exact hp ⟨i0 + i, j0 + j, by omega, by omega, hR i j hi hj hij, e⟩

theorem Mat.HoldsOn.part {C : Mat} {R R' : Region} {i0 j0 r m : Nat} {h : Heap α}
    {c : Nat → Nat → α} (hC : C.HoldsOn h R c)
    (hR : ∀ i j, i < r → j < m → R' i j → R (i0 + i) (j0 + j)) (hr : i0 + r ≤ C.rows)
    (hm : j0 + m ≤ C.cols) :
    (C.block i0 j0 r m).HoldsOn h R' fun i j => c (i0 + i) (j0 + j) := fun i j hi hj hij => by
  simp only [Mat.block] at hi hj
  exact hC (i0 + i) (j0 + j) (by omega) (by omega) (hR i j hi hj hij)

theorem Mat.UniqueOn.part {C : Mat} {R R' : Region} {i0 j0 r m : Nat} (hu : C.UniqueOn R)
    (hR : ∀ i j, i < r → j < m → R' i j → R (i0 + i) (j0 + j)) (hr : i0 + r ≤ C.rows)
    (hm : j0 + m ≤ C.cols) : (C.block i0 j0 r m).UniqueOn R' := by
  intro i j p q hi hj hij hp hq hpq e
  simp only [Mat.block] at hi hj hp hq e
  have := hu (i0 + i) (j0 + j) (i0 + p) (j0 + q) (by omega) (by omega) (hR i j hi hj hij)
    (by omega) (by omega) (hR p q hp hq hpq) e
  omega

theorem Mat.part_apart {C : Mat} {R R' : Region} {i0 j0 r m : Nat} {P : Nat → Prop}
    (hP : Apart P (C.CellOn R))
    (hR : ∀ i j, i < r → j < m → R' i j → R (i0 + i) (j0 + j)) (hr : i0 + r ≤ C.rows)
    (hm : j0 + m ≤ C.cols) : Apart P ((C.block i0 j0 r m).CellOn R') := by
  rintro p hp ⟨i, j, hi, hj, hij, e⟩
  simp only [Mat.block] at hi hj e
  exact hP p hp ⟨i0 + i, j0 + j, by omega, by omega, hR i j hi hj hij, e⟩

/-- **C73** `symmetric_matrix_rank_k_update(A, C, lower_triangle)` by blocks of rows of `A`: two
smaller updates of the diagonal blocks and one `matrix_product` for the block between them. -/
theorem C73_syrk_lower_blocks [Add α] [Mul α] (A : MatV α) (C : Mat) (h : Heap α)
    (a c : Nat → Nat → α) (k : Nat) (hA : A.Holds h a)
    (hC : C.HoldsOn h Triangle.lower.region c) (hsq : C.rows = C.cols) (hAe : C.rows = A.rows)
    (hu : C.UniqueOn Triangle.lower.region)
    (hAC : Apart A.toMat.Cell (C.CellOn Triangle.lower.region)) (hk : k ≤ C.rows) :
    Ends (syrk A C .lower) h fun _ h1 => Ends (do
        syrk (A.block 0 0 k A.cols) (C.block 0 0 k k) .lower
        gemmUpdate (A.block k 0 (C.rows - k) A.cols) (A.block 0 0 k A.cols).transposed
          (C.block k 0 (C.rows - k) k).view (C.block k 0 (C.rows - k) k)
        syrk (A.block k 0 (C.rows - k) A.cols) (C.block k k (C.rows - k) (C.rows - k)) .lower) h
      fun _ h2 => h1 = h2 := by
  have R11 : ∀ i j, i < k → j < k → Triangle.lower.region i j →
      Triangle.lower.region (0 + i) (0 + j) := fun i j _ _ hij => by
    rw [Nat.zero_add, Nat.zero_add]; exact hij
  have R12 : ∀ i j, i < C.rows - k → j < k → everywhere i j →
      Triangle.lower.region (k + i) (0 + j) := (fun i j hi hj _ => show 0 + j ≤ k + i by omega)
  have R22 : ∀ i j, i < C.rows - k → j < C.rows - k → Triangle.lower.region i j →
      Triangle.lower.region (k + i) (k + j) := (fun i j _ _ hij => show k + j ≤ k + i from Nat.add_le_add_left hij _)
  refine (C54_syrk A C .lower h a c hA hC hsq hAe.le hu hAC).mono fun _ h1 hb1 => ?_
  rw [ends_bind]
  refine (C54_syrk (A.block 0 0 k A.cols) (C.block 0 0 k k) .lower h _ _
    (hA.block (by omega) (by omega)) (hC.part R11 (by omega) (by omega)) rfl le_rfl
    (hu.part R11 (by omega) (by omega))
    (Mat.part_apart (fun p hp => hAC p (MatV.block_cell (by omega) (by omega) hp)) R11 (by omega)
      (by omega))).mono fun _ h2 hb2 => ?_
  obtain ⟨hC2, o2⟩ := hb2.into hu hC R11 (by omega) (by omega)
  have hA2 : A.Holds h2 a := hA.of_onlyChanges hAC o2
  rw [ends_bind]
  have hC2' := hC2.part R12 (by omega) (by omega)
  refine (C54_gemm_update (A.block k 0 (C.rows - k) A.cols) (A.block 0 0 k A.cols).transposed
    (C.block k 0 (C.rows - k) k).view (C.block k 0 (C.rows - k) k) h2 _ _ _ (hA2.block (by omega) (by omega))
    (hA2.block (by omega) (by omega)).transposed hC2'.asView
    (fun i j hi hj hr => ⟨_, hC2' i j hi hj hr⟩) rfl rfl rfl le_rfl le_rfl
    (hu.part R12 (by omega) (by omega))
    (Mat.part_apart (fun p hp => hAC p (MatV.block_cell (by omega) (by omega) hp)) R12 (by omega)
      (by omega))
    (transposed_apart (Mat.part_apart (fun p hp => hAC p (MatV.block_cell (by omega) (by omega) hp))
      R12 (by omega) (by omega)))
    fun i j p q hi hj hp hq e => hu.part R12 (by omega) (by omega) i j p q hi hj trivial hp hq
      trivial e).mono fun _ h3 hb3 => ?_
  obtain ⟨hC3, o3⟩ := Mat.BecomesOn.into hu hC2 R12 (by omega) (by omega) hb3
  have hA3 : A.Holds h3 a := hA2.of_onlyChanges hAC o3
  refine (C54_syrk (A.block k 0 (C.rows - k) A.cols) (C.block k k (C.rows - k) (C.rows - k)) .lower
    h3 _ _ (hA3.block (by omega) (by omega)) (hC3.part R22 (by omega) (by omega)) rfl le_rfl
    (hu.part R22 (by omega) (by omega))
    (Mat.part_apart (fun p hp => hAC p (MatV.block_cell (by omega) (by omega) hp)) R22 (by omega)
      (by omega))).mono fun _ h4 hb4 => ?_
  obtain ⟨hC4, o4⟩ := hb4.into hu hC3 R22 (by omega) (by omega)
  refine hb1.unique ⟨hC4, fun p hp => (o4 p hp).trans ((o3 p hp).trans (o2 p hp))⟩
    fun i j hi hj hij => ?_
  change j ≤ i at hij
  have hR : ∀ o, o ≤ j → Triangle.lower.region (i - o) (j - o) := fun o _ =>
    show j - o ≤ i - o by omega
  unfold withBlock
  by_cases h1 : j < k
  · by_cases h2 : i < k
    · rw [if_neg (by omega), if_neg (by omega), if_pos ⟨by omega, by omega, hR 0 (by omega)⟩]
      simp only [Nat.zero_add, Nat.sub_zero, MatV.block]
    · rw [if_neg (by omega), if_pos ⟨by omega, by omega, trivial⟩]
      beta_reduce
      rw [if_neg (by omega)]
      simp only [Nat.zero_add, Nat.sub_zero, MatV.block,
        show k + (i - k) = i by omega]
  · rw [if_pos ⟨by omega, by omega, hR k (by omega)⟩]
    beta_reduce
    rw [if_neg (by omega), if_neg (by omega)]
    simp only [Nat.zero_add, MatV.block, show k + (i - k) = i by omega,
      show k + (j - k) = j by omega]

example : Ends (syrk (T.view : MatV Term) C .lower) (heap Term) fun _ h1 => Ends (do
      syrk ((T.view : MatV Term).block 0 0 1 2) (C.block 0 0 1 1) .lower
      gemmUpdate ((T.view : MatV Term).block 1 0 2 2) ((T.view : MatV Term).block 0 0 1 2).transposed
        (C.block 1 0 2 1).view (C.block 1 0 2 1)
      syrk ((T.view : MatV Term).block 1 0 2 2) (C.block 1 1 2 2) .lower)
    (heap Term) fun _ h2 => h1 = h2 :=
  C73_syrk_lower_blocks _ _ _ _ _ 1 (mholdsV bT) (mholds bC) rfl rfl (by view_facts) (by view_facts)
    (by decide)

/-- **C73** `symmetric_matrix_rank_k_update(A, C, upper_triangle)` by blocks of rows of `A`: two
smaller updates of the diagonal blocks and one `matrix_product` for the block between them. -/
theorem C73_syrk_upper_blocks [Add α] [Mul α] (A : MatV α) (C : Mat) (h : Heap α)
    (a c : Nat → Nat → α) (k : Nat) (hA : A.Holds h a)
    (hC : C.HoldsOn h Triangle.upper.region c) (hsq : C.rows = C.cols) (hAe : C.rows = A.rows)
    (hu : C.UniqueOn Triangle.upper.region)
    (hAC : Apart A.toMat.Cell (C.CellOn Triangle.upper.region)) (hk : k ≤ C.rows) :
    Ends (syrk A C .upper) h fun _ h1 => Ends (do
        syrk (A.block 0 0 k A.cols) (C.block 0 0 k k) .upper
        gemmUpdate (A.block 0 0 k A.cols) (A.block k 0 (C.rows - k) A.cols).transposed
          (C.block 0 k k (C.rows - k)).view (C.block 0 k k (C.rows - k))
        syrk (A.block k 0 (C.rows - k) A.cols) (C.block k k (C.rows - k) (C.rows - k)) .upper) h
      fun _ h2 => h1 = h2 := by
  have R11 : ∀ i j, i < k → j < k → Triangle.upper.region i j →
      Triangle.upper.region (0 + i) (0 + j) := fun i j _ _ hij => by
    rw [Nat.zero_add, Nat.zero_add]; exact hij
  have R12 : ∀ i j, i < k → j < C.rows - k → everywhere i j →
      Triangle.upper.region (0 + i) (k + j) := (fun i j hi hj _ => show 0 + i ≤ k + j by omega)
  have R22 : ∀ i j, i < C.rows - k → j < C.rows - k → Triangle.upper.region i j →
      Triangle.upper.region (k + i) (k + j) := (fun i j _ _ hij => show k + i ≤ k + j from Nat.add_le_add_left hij _)
  refine (C54_syrk A C .upper h a c hA hC hsq hAe.le hu hAC).mono fun _ h1 hb1 => ?_
  rw [ends_bind]
  refine (C54_syrk (A.block 0 0 k A.cols) (C.block 0 0 k k) .upper h _ _
    (hA.block (by omega) (by omega)) (hC.part R11 (by omega) (by omega)) rfl le_rfl
    (hu.part R11 (by omega) (by omega))
    (Mat.part_apart (fun p hp => hAC p (MatV.block_cell (by omega) (by omega) hp)) R11 (by omega)
      (by omega))).mono fun _ h2 hb2 => ?_
  obtain ⟨hC2, o2⟩ := hb2.into hu hC R11 (by omega) (by omega)
  have hA2 : A.Holds h2 a := hA.of_onlyChanges hAC o2
  rw [ends_bind]
  have hC2' := hC2.part R12 (by omega) (by omega)
  refine (C54_gemm_update (A.block 0 0 k A.cols) (A.block k 0 (C.rows - k) A.cols).transposed
    (C.block 0 k k (C.rows - k)).view (C.block 0 k k (C.rows - k)) h2 _ _ _ (hA2.block (by omega) (by omega))
    (hA2.block (by omega) (by omega)).transposed hC2'.asView
    (fun i j hi hj hr => ⟨_, hC2' i j hi hj hr⟩) rfl rfl rfl le_rfl le_rfl
    (hu.part R12 (by omega) (by omega))
    (Mat.part_apart (fun p hp => hAC p (MatV.block_cell (by omega) (by omega) hp)) R12 (by omega)
      (by omega))
    (transposed_apart (Mat.part_apart (fun p hp => hAC p (MatV.block_cell (by omega) (by omega) hp))
      R12 (by omega) (by omega)))
    fun i j p q hi hj hp hq e => hu.part R12 (by omega) (by omega) i j p q hi hj trivial hp hq
      trivial e).mono fun _ h3 hb3 => ?_
  obtain ⟨hC3, o3⟩ := Mat.BecomesOn.into hu hC2 R12 (by omega) (by omega) hb3
  have hA3 : A.Holds h3 a := hA2.of_onlyChanges hAC o3
  refine (C54_syrk (A.block k 0 (C.rows - k) A.cols) (C.block k k (C.rows - k) (C.rows - k)) .upper
    h3 _ _ (hA3.block (by omega) (by omega)) (hC3.part R22 (by omega) (by omega)) rfl le_rfl
    (hu.part R22 (by omega) (by omega))
    (Mat.part_apart (fun p hp => hAC p (MatV.block_cell (by omega) (by omega) hp)) R22 (by omega)
      (by omega))).mono fun _ h4 hb4 => ?_
  obtain ⟨hC4, o4⟩ := hb4.into hu hC3 R22 (by omega) (by omega)
  refine hb1.unique ⟨hC4, fun p hp => (o4 p hp).trans ((o3 p hp).trans (o2 p hp))⟩
    fun i j hi hj hij => ?_
  change i ≤ j at hij
  have hR : ∀ o, o ≤ i → Triangle.upper.region (i - o) (j - o) := fun o _ =>
    show i - o ≤ j - o by omega
  unfold withBlock
  by_cases h1 : i < k
  · by_cases h2 : j < k
    · rw [if_neg (by omega), if_neg (by omega), if_pos ⟨by omega, by omega, hR 0 (by omega)⟩]
      simp only [Nat.zero_add, Nat.sub_zero, MatV.block]
    · rw [if_neg (by omega), if_pos ⟨by omega, by omega, trivial⟩]
      beta_reduce
      rw [if_neg (by omega)]
      simp only [Nat.zero_add, Nat.sub_zero, MatV.block,
        show k + (j - k) = j by omega]
  · rw [if_pos ⟨by omega, by omega, hR k (by omega)⟩]
    beta_reduce
    rw [if_neg (by omega), if_neg (by omega)]
    simp only [Nat.zero_add, MatV.block, show k + (i - k) = i by omega,
      show k + (j - k) = j by omega]

example : Ends (syrk (T.view : MatV Term) C .upper) (heap Term) fun _ h1 => Ends (do
      syrk ((T.view : MatV Term).block 0 0 1 2) (C.block 0 0 1 1) .upper
      gemmUpdate ((T.view : MatV Term).block 0 0 1 2) ((T.view : MatV Term).block 1 0 2 2).transposed
        (C.block 0 1 1 2).view (C.block 0 1 1 2)
      syrk ((T.view : MatV Term).block 1 0 2 2) (C.block 1 1 2 2) .upper)
    (heap Term) fun _ h2 => h1 = h2 :=
  C73_syrk_upper_blocks _ _ _ _ _ 1 (mholdsV bT) (mholds bC) rfl rfl (by view_facts) (by view_facts)
    (by decide)

end StdBLAS

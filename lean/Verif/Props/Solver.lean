import Verif.Spec.Clients
import Verif.Props.Factored
import Verif.Props.Blas1Reductions
import Verif.Lemmas.Blocks
import Mathlib.Tactic.Ring
import Mathlib.Tactic.Linarith
import Mathlib.Tactic.FieldSimp
import Mathlib.LinearAlgebra.Matrix.Block
import Mathlib.LinearAlgebra.Matrix.ToLinearEquiv
import Mathlib.Logic.Equiv.Basic

/-!
# Property C75: linear solvers written with the library work
-/

namespace StdBLAS
open Finset Witness
variable {α : Type}

/-! ## Helpers: changing a part of a matrix -/

theorem Mat.Holds.patch {A : Mat} {h h' : Heap α} {s : Nat → Nat → α} (hA : A.Holds h s)
    {P : Nat → Prop} (hc : OnlyChanges P h h') (t : Nat → Nat → α)
    (hin : ∀ i j, i < A.rows → j < A.cols → P (A.addr i j) → h' (A.addr i j) = some (t i j))
    (hout : ∀ i j, i < A.rows → j < A.cols → ¬ P (A.addr i j) → t i j = s i j) :
    A.Holds h' t := by
  intro i j hi hj _
  by_cases hp : P (A.addr i j)
  · exact hin i j hi hj hp
  · rw [hc _ hp, hA i j hi hj trivial, hout i j hi hj hp]

section parts
variable {A : Mat} {h h' : Heap α} {s : Nat → Nat → α}

theorem Mat.Holds.colPart (hA : A.Holds h s) {j i0 m : Nat} (hj : j < A.cols)
    (hm : i0 + m ≤ A.rows) : (A.colPart j i0 m).Holds h fun i => s (i0 + i) j :=
  fun i hi => hA (i0 + i) j (by have : i < m := hi; omega) hj trivial

theorem Mat.Holds.rowPart (hA : A.Holds h s) {i j0 m : Nat} (hi : i < A.rows)
    (hm : j0 + m ≤ A.cols) : (A.rowPart i j0 m).Holds h fun j => s i (j0 + j) :=
  fun j hj => hA i (j0 + j) hi (by have : j < m := hj; omega) trivial

theorem Mat.Holds.mblock (hA : A.Holds h s) {i0 j0 r c : Nat} (hr : i0 + r ≤ A.rows)
    (hc : j0 + c ≤ A.cols) : (A.block i0 j0 r c).Holds h fun i j => s (i0 + i) (j0 + j) :=
  fun i j hi hj _ => hA (i0 + i) (j0 + j) (by have : i < r := hi; omega)
    (by have : j < c := hj; omega) trivial

theorem Mat.Unique.colPart (hu : A.Unique) {j i0 m : Nat} (hj : j < A.cols)
    (hm : i0 + m ≤ A.rows) : (A.colPart j i0 m).Unique := fun i k hi hk e => by
  have hi : i < m := hi
  have hk : k < m := hk
  have := (hu (i0 + i) j (i0 + k) j (by omega) hj trivial (by omega) hj trivial e).1
  omega

theorem Mat.Unique.rowPart (hu : A.Unique) {i j0 m : Nat} (hi : i < A.rows)
    (hm : j0 + m ≤ A.cols) : (A.rowPart i j0 m).Unique := fun j k hj hk e => by
  have hj : j < m := hj
  have hk : k < m := hk
  have := (hu i (j0 + j) i (j0 + k) hi (by omega) trivial hi (by omega) trivial e).2
  omega

theorem Mat.cell_colPart (hu : A.Unique) {j i0 m i' j' : Nat} (hj : j < A.cols)
    (hm : i0 + m ≤ A.rows) (hi' : i' < A.rows) (hj' : j' < A.cols) :
    (A.colPart j i0 m).Cell (A.addr i' j') ↔ j' = j ∧ i0 ≤ i' ∧ i' < i0 + m := by
  constructor
  · rintro ⟨i, hi, e⟩
    have hi : i < m := hi
    have := hu (i0 + i) j i' j' (by omega) hj trivial hi' hj' trivial e
    omega
  · rintro ⟨rfl, h1, h2⟩
    exact ⟨i' - i0, show i' - i0 < m by omega, by show A.addr (i0 + (i' - i0)) j' = _
                                                  rw [show i0 + (i' - i0) = i' by omega]⟩

theorem Mat.cell_rowPart (hu : A.Unique) {i j0 m i' j' : Nat} (hi : i < A.rows)
    (hm : j0 + m ≤ A.cols) (hi' : i' < A.rows) (hj' : j' < A.cols) :
    (A.rowPart i j0 m).Cell (A.addr i' j') ↔ i' = i ∧ j0 ≤ j' ∧ j' < j0 + m := by
  constructor
  · rintro ⟨j, hj, e⟩
    have hj : j < m := hj
    have := hu i (j0 + j) i' j' hi (by omega) trivial hi' hj' trivial e
    omega
  · rintro ⟨rfl, h1, h2⟩
    exact ⟨j' - j0, show j' - j0 < m by omega, by show A.addr i' (j0 + (j' - j0)) = _
                                                  rw [show j0 + (j' - j0) = j' by omega]⟩

theorem Mat.cell_mblock (hu : A.Unique) {i0 j0 r c i' j' : Nat} (hr : i0 + r ≤ A.rows)
    (hc : j0 + c ≤ A.cols) (hi' : i' < A.rows) (hj' : j' < A.cols) :
    (A.block i0 j0 r c).Cell (A.addr i' j') ↔
      (i0 ≤ i' ∧ i' < i0 + r) ∧ j0 ≤ j' ∧ j' < j0 + c := by
  constructor
  · rintro ⟨i, j, hi, hj, -, e⟩
    have hi : i < r := hi
    have hj : j < c := hj
    have := hu (i0 + i) (j0 + j) i' j' (by omega) (by omega) trivial hi' hj' trivial e
    omega
  · rintro ⟨⟨h1, h2⟩, h3, h4⟩
    refine ⟨i' - i0, j' - j0, show i' - i0 < r by omega, show j' - j0 < c by omega, trivial, ?_⟩
    show A.addr (i0 + (i' - i0)) (j0 + (j' - j0)) = _
    rw [show i0 + (i' - i0) = i' by omega, show j0 + (j' - j0) = j' by omega]

theorem Mat.colPart_sub {j i0 m : Nat} (hj : j < A.cols) (hm : i0 + m ≤ A.rows) (p : Nat)
    (hp : (A.colPart j i0 m).Cell p) : A.Cell p := by
  obtain ⟨i, hi, e⟩ := hp
  have hi : i < m := hi
  exact ⟨i0 + i, j, by omega, hj, trivial, e⟩

theorem Mat.rowPart_sub {i j0 m : Nat} (hi : i < A.rows) (hm : j0 + m ≤ A.cols) (p : Nat)
    (hp : (A.rowPart i j0 m).Cell p) : A.Cell p := by
  obtain ⟨j, hj, e⟩ := hp
  have hj : j < m := hj
  exact ⟨i, j0 + j, hi, by omega, trivial, e⟩

theorem Mat.block_sub {i0 j0 r c : Nat} (hr : i0 + r ≤ A.rows) (hc : j0 + c ≤ A.cols) (p : Nat)
    (hp : (A.block i0 j0 r c).Cell p) : A.Cell p := by
  obtain ⟨i, j, hi, hj, -, e⟩ := hp
  have hi : i < r := hi
  have hj : j < c := hj
  exact ⟨i0 + i, j0 + j, by omega, by omega, trivial, e⟩

theorem OnlyChanges.trans' {P : Nat → Prop} {h h' h'' : Heap α} (h1 : OnlyChanges P h h')
    (h2 : OnlyChanges P h' h'') : OnlyChanges P h h'' := fun p hp => (h2 p hp).trans (h1 p hp)

end parts

/-! ## One step of elimination -/

open Classical in
/-- The multipliers of step `k`. -/
noncomputable def multiplier [Field α] (s : Nat → Nat → α) (k i : Nat) : α :=
  if s k k = 0 then s i k else s i k * (1 / s k k)

/-- The matrix after step `k`. -/
noncomputable def eliminated [Field α] (s : Nat → Nat → α) (k i j : Nat) : α :=
  if k < i ∧ j = k then multiplier s k i
  else if k < i ∧ k < j then s i j - multiplier s k i * s k j
  else s i j

theorem ends_luStep [Field α] {A : Mat} {n k : Nat} {h : Heap α} {s : Nat → Nat → α}
    (hA : A.Holds h s) (hr : A.rows = n) (hc : A.cols = n) (hu : A.Unique) (hk : k < n) :
    Ends (luStep A n k) h fun _ h' => A.Holds h' (eliminated s k) ∧ OnlyChanges A.Cell h h' := by
  unfold luStep
  rw [ends_bind, ends_mat_get]
  refine ⟨⟨by omega, by omega⟩, s k k, hA k k (by omega) (by omega) trivial, ?_⟩
  -- the scaling
  have hcol : (A.colPart k (k + 1) (n - (k + 1))).Holds h fun i => s (k + 1 + i) k :=
    hA.colPart (by omega) (by omega)
  have key : Ends (scaleByInverse (s k k) (A.colPart k (k + 1) (n - (k + 1)))) h fun _ h1 =>
      A.Holds h1 (fun i j => if k < i ∧ j = k then multiplier s k i else s i j) ∧
        OnlyChanges A.Cell h h1 := by
    unfold scaleByInverse
    split_ifs with e
    · rw [ends_pure]
      refine ⟨fun i j hi hj _ => ?_, fun _ _ => rfl⟩
      rw [hA i j hi hj trivial]
      simp only [multiplier, if_pos e]
      split_ifs with q
      · rw [q.2]
      · rfl
    · refine (C11_scale_vector (1 / s k k) _ h _ hcol
        (hu.colPart (by omega) (by omega))).mono ?_
      rintro _ h1 ⟨hv, hch⟩
      refine ⟨hA.patch hch _ (fun i j hi hj hp => ?_) (fun i j hi hj hp => ?_),
        hch.mono (Mat.colPart_sub (by omega) (by omega))⟩
      · rw [Mat.cell_colPart hu (by omega) (by omega) hi hj] at hp
        obtain ⟨rfl, h1, h2⟩ := hp
        have := hv (i - (j + 1)) (show i - (j + 1) < n - (j + 1) by omega)
        rw [show (A.colPart j (j + 1) (n - (j + 1))).addr (i - (j + 1)) = A.addr i j by
          show A.addr (j + 1 + (i - (j + 1))) j = _
          rw [show j + 1 + (i - (j + 1)) = i by omega]] at this
        rw [this, if_pos ⟨by omega, rfl⟩, multiplier, if_neg e]
        beta_reduce
        rw [show j + 1 + (i - (j + 1)) = i by omega]
      · rw [Mat.cell_colPart hu (by omega) (by omega) hi hj] at hp
        exact if_neg fun q => hp ⟨q.2, by omega, by omega⟩
  rw [ends_bind]
  refine key.mono ?_
  rintro _ h1 ⟨hA1, hch1⟩
  -- the rank-1 update
  have hcol1 : ((A.colPart k (k + 1) (n - (k + 1))).view.scaled (-1) : VecV α).Holds h1
      fun i => -1 * multiplier s k (k + 1 + i) := by
    intro i hi
    have hi : i < n - (k + 1) := hi
    exact ⟨_, hA1 (k + 1 + i) k (by omega) (by omega) trivial,
      congrArg (-1 * ·) (if_pos ⟨by omega, rfl⟩)⟩
  have hrow1 : ((A.rowPart k (k + 1) (n - (k + 1))).view : VecV α).Holds h1
      fun j => s k (k + 1 + j) := by
    intro j hj
    have hj : j < n - (k + 1) := hj
    exact ⟨_, hA1 k (k + 1 + j) (by omega) (by omega) trivial,
      if_neg (by omega)⟩
  have hblk : (A.block (k + 1) (k + 1) (n - (k + 1)) (n - (k + 1))).Holds h1
      fun i j => s (k + 1 + i) (k + 1 + j) := by
    intro i j hi hj _
    have hi : i < n - (k + 1) := hi
    have hj : j < n - (k + 1) := hj
    refine (hA1 (k + 1 + i) (k + 1 + j) (by omega) (by omega) trivial).trans ?_
    exact congrArg some (if_neg (by omega))
  refine (C25_ger _ _ _ h1 _ _ _ hcol1 hrow1 hblk le_rfl le_rfl
    (Mat.Unique.block hu (by omega) (by omega)) ?_ ?_).mono ?_
  · rintro p ⟨i, hi, rfl⟩ hp
    have hi : i < n - (k + 1) := hi
    have := (Mat.cell_mblock hu (i' := k + 1 + i) (j' := k) (by omega) (by omega) (by omega)
      (by omega)).1 hp
    omega
  · rintro p ⟨j, hj, rfl⟩ hp
    have hj : j < n - (k + 1) := hj
    have := (Mat.cell_mblock hu (i' := k) (j' := k + 1 + j) (by omega) (by omega) (by omega)
      (by omega)).1 hp
    omega
  · rintro _ h2 ⟨hv, hch⟩
    refine ⟨hA1.patch hch _ (fun i j hi hj hp => ?_) (fun i j hi hj hp => ?_),
      hch1.trans' (hch.mono (Mat.block_sub (by omega) (by omega)))⟩
    · rw [← Mat.Cell, Mat.cell_mblock hu (by omega) (by omega) hi hj] at hp
      have := hv (i - (k + 1)) (j - (k + 1)) (show i - (k + 1) < n - (k + 1) by omega)
        (show j - (k + 1) < n - (k + 1) by omega) trivial
      rw [show (A.block (k + 1) (k + 1) (n - (k + 1)) (n - (k + 1))).addr (i - (k + 1))
          (j - (k + 1)) = A.addr i j by
        show A.addr (k + 1 + (i - (k + 1))) (k + 1 + (j - (k + 1))) = _
        rw [show k + 1 + (i - (k + 1)) = i by omega, show k + 1 + (j - (k + 1)) = j by omega]] at this
      beta_reduce at this
      rw [show k + 1 + (i - (k + 1)) = i by omega, show k + 1 + (j - (k + 1)) = j by omega] at this
      rw [this, eliminated, if_neg (by omega), if_pos (by omega)]
      exact congrArg some (by ring)
    · rw [← Mat.Cell, Mat.cell_mblock hu (by omega) (by omega) hi hj] at hp
      unfold eliminated
      by_cases q : k < i ∧ j = k
      · rw [if_pos q, if_pos q]
      · rw [if_neg q, if_neg q, if_neg (by omega)]

/-! ## Factorisation without interchanges -/

/-- The array in which step `k` of the factorisation of `L U` starts: finished rows and columns,
and what is left of the rest. -/
noncomputable def partialLU [Field α] (n : Nat) (l u : Nat → Nat → α) (k i j : Nat) : α :=
  if i < k ∨ j < k then (if j < i then l i j else u i j)
  else ∑ m ∈ Ico k n, triOf .lower .implicitUnit l i m * triOf .upper .explicit u m j

theorem tri_lower_unit [Zero α] [One α] (l : Nat → Nat → α) (i m : Nat) :
    triOf .lower .implicitUnit l i m = if i = m then 1 else if m ≤ i then l i m else 0 := by
  unfold triOf Triangle.region
  split_ifs <;> rfl

theorem tri_upper [Zero α] [One α] (u : Nat → Nat → α) (m j : Nat) :
    triOf .upper .explicit u m j = if m ≤ j then u m j else 0 := by
  unfold triOf Triangle.region
  by_cases e : m = j
  · subst e; simp
  · rw [if_neg e]
    by_cases e' : m ≤ j
    · exact (if_pos e').trans (if_pos e').symm
    · exact (if_neg e').trans (if_neg e').symm

theorem sum_lower_row [Field α] {n k : Nat} (l u : Nat → Nat → α) {j : Nat} (hk : k < n) :
    ∑ m ∈ Ico k n, triOf .lower .implicitUnit l k m * triOf .upper .explicit u m j =
      triOf .upper .explicit u k j := by
  rw [sum_eq_single_of_mem k (mem_Ico.2 ⟨le_rfl, hk⟩)]
  · simp [tri_lower_unit]
  · intro m hm hne
    have := (mem_Ico.1 hm).1
    rw [tri_lower_unit, if_neg (by omega), if_neg (by omega), zero_mul]

theorem sum_upper_col [Field α] {n k : Nat} (l u : Nat → Nat → α) {i : Nat} (hk : k < n) :
    ∑ m ∈ Ico k n, triOf .lower .implicitUnit l i m * triOf .upper .explicit u m k =
      triOf .lower .implicitUnit l i k * u k k := by
  rw [sum_eq_single_of_mem k (mem_Ico.2 ⟨le_rfl, hk⟩)]
  · simp [tri_upper]
  · intro m hm hne
    have := (mem_Ico.1 hm).1
    rw [tri_upper, if_neg (by omega), mul_zero]

theorem eliminated_partialLU [Field α] {n k : Nat} (l u : Nat → Nat → α) (hk : k < n)
    (hp : u k k ≠ 0) (i j : Nat) :
    eliminated (partialLU n l u k) k i j = partialLU n l u (k + 1) i j := by
  have piv : partialLU n l u k k k = u k k := by
    rw [partialLU, if_neg (by omega), sum_lower_row l u hk, tri_upper, if_pos le_rfl]
  have mul : ∀ i, k < i → multiplier (partialLU n l u k) k i = l i k := by
    intro i hi
    rw [multiplier, piv, if_neg hp, partialLU, if_neg (by omega), sum_upper_col l u hk,
      tri_lower_unit, if_neg (by omega), if_pos hi.le]
    field_simp
  have row : ∀ j, k ≤ j → partialLU n l u k k j = u k j := by
    intro j hj
    rw [partialLU, if_neg (by omega), sum_lower_row l u hk, tri_upper, if_pos hj]
  unfold eliminated
  by_cases h1 : k < i ∧ j = k
  · rw [if_pos h1, mul i h1.1, partialLU, if_pos (by omega), if_pos (by omega), h1.2]
  · rw [if_neg h1]
    by_cases h2 : k < i ∧ k < j
    · rw [if_pos h2, mul i h2.1, row j h2.2.le, partialLU, if_neg (by omega), partialLU,
        if_neg (by omega), sum_eq_sum_Ico_succ_bot hk, tri_lower_unit, if_neg (by omega),
        if_pos h2.1.le, tri_upper, if_pos h2.2.le]
      ring
    · rw [if_neg h2]
      by_cases h3 : i < k ∨ j < k
      · rw [partialLU, if_pos h3, partialLU, if_pos (c := i < k + 1 ∨ j < k + 1) (by omega)]
      · have e : i = k := by omega
        subst e
        rw [row j (by omega), partialLU, if_pos (by omega), if_neg (by omega)]

/-- **C75** LU factorisation without interchanges, in place, by `scale` and
`matrix_rank_1_update`: if the matrix is a product of a unit lower triangular matrix and an upper
triangular one without zeros on its diagonal, these factors are what the array holds
afterwards, and nothing outside the array has changed. -/
theorem C75_lu [Field α] (A : Mat) (n : Nat) (h : Heap α) (a l u : Nat → Nat → α)
    (hA : A.Holds h a) (hr : A.rows = n) (hc : A.cols = n) (hu : A.Unique)
    (ha : ∀ i j, i < n → j < n →
      a i j = mulMat n (triOf .lower .implicitUnit l) (triOf .upper .explicit u) i j)
    (hnz : ∀ k, k < n → u k k ≠ 0) :
    Ends (luFactor A n) h fun _ h' =>
      A.Becomes h h' fun i j => if j < i then l i j else u i j := by
  refine (ends_forUp_inv (fun k h' => A.Holds h' (partialLU n l u k) ∧ OnlyChanges A.Cell h h')
    (Nat.zero_le n) ?_ ?_).mono ?_
  · rintro k - hk h1 ⟨hA1, hc1⟩
    refine (ends_luStep hA1 hr hc hu hk).mono ?_
    rintro _ h2 ⟨hA2, hc2⟩
    refine ⟨fun i j hi hj _ => ?_, hc1.trans' hc2⟩
    rw [hA2 i j hi hj trivial, eliminated_partialLU l u hk (hnz k hk)]
  · refine ⟨fun i j hi hj _ => ?_, fun _ _ => rfl⟩
    rw [hA i j hi hj trivial, ha i j (hr ▸ hi) (hc ▸ hj), partialLU, if_neg (by omega), mulMat,
      range_eq_Ico]
  · rintro _ h' ⟨hA', hc'⟩
    refine ⟨fun i j hi hj _ => ?_, hc'⟩
    rw [hA' i j hi hj trivial, partialLU, if_pos (by omega)]

/-- The leading 2 x 2 block 23 26 / 24 27 of `A`; its factors are 24/23 and 23, 26, -3/23. -/
example : Ends (luFactor (A.block 0 0 2 2) 2) (heap ℚ) fun _ h' =>
    (A.block 0 0 2 2).Becomes (heap ℚ) h' fun i j =>
      if j < i then 24 / 23 else if i = 1 then -3 / 23 else if j = 1 then 26 else 23 :=
  C75_lu _ 2 _ (mvals ℚ (A.block 0 0 2 2)) (fun _ _ => 24 / 23)
    (fun i j => if i = 1 then -3 / 23 else if j = 1 then 26 else 23)
    (mholds fun i j hi hj => by simp only [A, Mat.block] at *; omega) rfl rfl
    (Mat.Unique.block (by view_facts) (by decide) (by decide))
    (fun i j hi hj => by
      interval_cases i <;> interval_cases j <;>
        simp [mulMat, sum_range_succ, tri_lower_unit, tri_upper, mvals, A, Mat.block]
      norm_num)
    (fun k hk => by interval_cases k <;> norm_num)

/-! ## Factorisation with partial pivoting -/

/-- `a` with its rows permuted is the product of the finished factors plus the unfinished rest. -/
def PartialFactors [Field α] (n : Nat) (a s : Nat → Nat → α) (σ : Equiv.Perm Nat) (k : Nat) :
    Prop :=
  ∀ i j, i < n → j < n → a (σ i) j = (∑ m ∈ range k, triOf .lower .implicitUnit s i m *
    triOf .upper .explicit s m j) + if k ≤ i ∧ k ≤ j then s i j else 0

theorem PartialFactors.swap [Field α] {n k p : Nat} {a s : Nat → Nat → α} {σ : Equiv.Perm Nat}
    (H : PartialFactors n a s σ k) (hkp : k ≤ p) (hp : p < n) :
    PartialFactors n a (fun i j => s (Equiv.swap k p i) j) (σ * Equiv.swap k p) k := by
  intro i j hi hj
  have hτ : Equiv.swap k p i < n := by
    rw [Equiv.swap_apply_def]; split_ifs <;> omega
  have hlo : ∀ m, m < k → Equiv.swap k p m = m := fun m hm => by
    rw [Equiv.swap_apply_def]; split_ifs <;> omega
  have hhi : k ≤ i → k ≤ Equiv.swap k p i := fun hi => by
    rw [Equiv.swap_apply_def]; split_ifs <;> omega
  rw [Equiv.Perm.mul_apply, H _ j hτ hj]
  congr 1
  · refine sum_congr rfl fun m hm => ?_
    have hm := mem_range.1 hm
    rw [tri_upper, tri_upper, hlo m hm]
    congr 1
    by_cases e : i < k
    · rw [hlo i e, tri_lower_unit, tri_lower_unit, hlo i e]
    · have := hhi (by omega)
      rw [tri_lower_unit, tri_lower_unit, if_neg (c := i = m) (by omega),
        if_neg (c := _ = m) (by omega), if_pos (c := m ≤ i) (by omega),
        if_pos (c := m ≤ _) (by omega)]
  · by_cases e : i < k
    · rw [hlo i e, if_neg (by omega), if_neg (by omega)]
    · have := hhi (by omega)
      by_cases e' : k ≤ j
      · rw [if_pos ⟨this, e'⟩, if_pos ⟨by omega, e'⟩]
      · rw [if_neg (by omega), if_neg (by omega)]

theorem PartialFactors.step [Field α] {n k : Nat} {a s : Nat → Nat → α} {σ : Equiv.Perm Nat}
    (H : PartialFactors n a s σ k)
    (hm : ∀ i, k < i → i < n → multiplier s k i * s k k = s i k) :
    PartialFactors n a (eliminated s k) σ (k + 1) := by
  intro i j hi hj
  rw [H i j hi hj, sum_range_succ, add_assoc]
  congr 1
  · refine sum_congr rfl fun m hm => ?_
    have hm := mem_range.1 hm
    rw [tri_upper, tri_upper, tri_lower_unit, tri_lower_unit]
    have e1 : eliminated s k i m = s i m := by
      rw [eliminated, if_neg (by omega), if_neg (by omega)]
    have e2 : eliminated s k m j = s m j := by
      rw [eliminated, if_neg (by omega), if_neg (by omega)]
    rw [e1, e2]
  · have erow : eliminated s k k j = s k j := by
      rw [eliminated, if_neg (by omega), if_neg (by omega)]
    rw [tri_upper, tri_lower_unit, erow]
    rcases Nat.lt_trichotomy i k with e | e | e
    · rw [if_neg (c := k ≤ i ∧ _) (by omega), if_neg (c := i = k) (by omega),
        if_neg (c := k ≤ i) (by omega), if_neg (c := k + 1 ≤ i ∧ _) (by omega)]
      ring
    · subst e
      rw [if_pos rfl, if_neg (c := _ + 1 ≤ _ ∧ _) (by omega)]
      by_cases hj : i ≤ j
      · rw [if_pos ⟨le_rfl, hj⟩, if_pos hj]; ring
      · rw [if_neg (by omega), if_neg hj]; ring
    · have ecol : eliminated s k i k = multiplier s k i := by
        rw [eliminated, if_pos ⟨e, rfl⟩]
      rw [if_neg (c := i = k) (by omega), if_pos (c := k ≤ i) e.le, ecol]
      rcases Nat.lt_trichotomy j k with q | q | q
      · rw [if_neg (by omega), if_neg (by omega), if_neg (by omega)]; ring
      · subst q
        rw [if_pos ⟨e.le, le_rfl⟩, if_pos le_rfl, if_neg (by omega), hm i e hi, add_zero]
      · rw [if_pos ⟨e.le, q.le⟩, if_pos q.le, if_pos ⟨e, q⟩, eliminated, if_neg (by omega),
          if_pos ⟨e, q⟩]
        ring

/-- Interchange of two rows by `swap_elements`. -/
theorem ends_swapRows {A : Mat} {h : Heap α} {s : Nat → Nat → α} {p q m : Nat}
    (hA : A.Holds h s) (hu : A.Unique) (hp : p < A.rows) (hq : q < A.rows) (hm : m = A.cols) :
    Ends (swap1 (A.rowPart p 0 m) (A.rowPart q 0 m)) h fun _ h' =>
      A.Becomes h h' fun i j => s (Equiv.swap p q i) j := by
  subst hm
  have hA' : ∀ i, i < A.rows → (A.rowPart i 0 A.cols).Holds h fun j => s i j := fun i hi => by
    have := hA.rowPart (i := i) (j0 := 0) (m := A.cols) hi (by omega)
    simpa only [Nat.zero_add] using this
  refine (C10_swap_vector _ _ h _ _ (hA' p hp) (hA' q hq) rfl (hu.rowPart hp (by omega))
    (hu.rowPart hq (by omega)) ?_).mono ?_
  · intro i k hi hk e
    have := (hu p (0 + i) q (0 + k) hp (by have : i < A.cols := hi; omega) trivial hq
      (by have : k < A.cols := hk; omega) trivial e).2
    omega
  · rintro _ h' ⟨hx, hy, hc⟩
    refine ⟨hA.patch hc _ (fun i j hi hj hP => ?_) (fun i j hi hj hP => ?_), hc.mono ?_⟩
    · rw [Mat.cell_rowPart hu hp (by omega) hi hj, Mat.cell_rowPart hu hq (by omega) hi hj] at hP
      by_cases e : i = p
      · subst e
        have := hx j hj
        rw [show (A.rowPart i 0 A.cols).addr j = A.addr i j from congrArg _ (Nat.zero_add j)]
          at this
        rw [this, Equiv.swap_apply_left]
      · have e' : i = q := by omega
        subst e'
        have := hy j hj
        rw [show (A.rowPart i 0 A.cols).addr j = A.addr i j from congrArg _ (Nat.zero_add j)]
          at this
        rw [this, Equiv.swap_apply_right]
    · rw [Mat.cell_rowPart hu hp (by omega) hi hj, Mat.cell_rowPart hu hq (by omega) hi hj] at hP
      rw [Equiv.swap_apply_of_ne_of_ne (by omega) (by omega)]
    · rintro c (e | e)
      · exact Mat.rowPart_sub hp (by omega) c e
      · exact Mat.rowPart_sub hq (by omega) c e

/-- **C75** LU factorisation with partial pivoting, in place, by `vector_idx_abs_max`,
`swap_elements`, `scale` and `matrix_rank_1_update`, for every real matrix (also a singular one):
the array holds the factors of a row permutation of the matrix, no multiplier exceeds 1 in
magnitude, and `B` holds the same permutation of its rows. -/
theorem C75_lu_pivot (sizeMax : Nat) (A B : Mat) (n : Nat) (h : Heap ℝ) (a b : Nat → Nat → ℝ)
    (hA : A.Holds h a) (hB : B.Holds h b) (hr : A.rows = n) (hc : A.cols = n) (hBr : B.rows = n)
    (hu : A.Unique) (huB : B.Unique) (hAB : Apart A.Cell B.Cell) :
    Ends (luPivot sizeMax A B n) h fun _ h' => ∃ (s : Nat → Nat → ℝ) (σ : Equiv.Perm Nat),
      A.Holds h' s ∧ B.Holds h' (fun i j => b (σ i) j) ∧
      OnlyChanges (fun p => A.Cell p ∨ B.Cell p) h h' ∧ (∀ i, σ i < n ↔ i < n) ∧
      (∀ i j, i < n → j < n → a (σ i) j =
        mulMat n (triOf .lower .implicitUnit s) (triOf .upper .explicit s) i j) ∧
      ∀ i j, i < n → j < i → |s i j| ≤ 1 := by
  refine (ends_forUp_inv (fun k h' => ∃ (s : Nat → Nat → ℝ) (σ : Equiv.Perm Nat),
      A.Holds h' s ∧ B.Holds h' (fun i j => b (σ i) j) ∧
      OnlyChanges (fun p => A.Cell p ∨ B.Cell p) h h' ∧ (∀ i, σ i < n ↔ i < n) ∧
      PartialFactors n a s σ k ∧ ∀ i j, i < n → j < i → j < k → |s i j| ≤ 1)
    (Nat.zero_le n) ?_ ?_).mono ?_
  · rintro k - hk h1 ⟨s, σ, hA1, hB1, hch1, hσ, hP, hQ⟩
    have hcol : (A.colPart k k (n - k)).Holds h1 fun i => s (k + i) k :=
      hA1.colPart (by omega) (by omega)
    rw [ends_bind]
    refine (C06_idx_abs_max_real sizeMax _ h1 _ hcol.asView
      (show n - k ≠ 0 by omega)).mono ?_
    rintro r h1' ⟨⟨hr1, hr2, -⟩, rfl⟩
    have hr1 : r < n - k := hr1
    rw [ends_bind]
    refine (ends_swapRows hA1 hu (p := k) (q := k + r) (by omega) (by omega) hc.symm).mono ?_
    rintro _ h2 ⟨hA2, hch2⟩
    have hB2 : B.Holds h2 (fun i j => b (σ i) j) := fun i j hi hj _ => by
      rw [hch2 _ fun q => hAB _ q ⟨i, j, hi, hj, trivial, rfl⟩, hB1 i j hi hj trivial]
    rw [ends_bind]
    refine (ends_swapRows hB2 huB (p := k) (q := k + r) (by omega) (by omega) rfl).mono ?_
    rintro _ h3 ⟨hB3, hch3⟩
    have hA3 : A.Holds h3 fun i j => s (Equiv.swap k (k + r) i) j := fun i j hi hj _ => by
      rw [hch3 _ fun q => hAB _ ⟨i, j, hi, hj, trivial, rfl⟩ q, hA2 i j hi hj trivial]
    refine (ends_luStep hA3 hr hc hu hk).mono ?_
    rintro _ h4 ⟨hA4, hch4⟩
    have hP2 := hP.swap (p := k + r) (by omega) (by omega)
    have hmax : ∀ i, k ≤ i → i < n →
        |s (Equiv.swap k (k + r) i) k| ≤ |s (Equiv.swap k (k + r) k) k| := by
      intro i hi hin
      rw [Equiv.swap_apply_left]
      have : k ≤ Equiv.swap k (k + r) i ∧ Equiv.swap k (k + r) i < n := by
        rw [Equiv.swap_apply_def]; split_ifs <;> omega
      have q := hr2 (Equiv.swap k (k + r) i - k) (show _ < n - k by omega)
      rwa [show k + (Equiv.swap k (k + r) i - k) = Equiv.swap k (k + r) i by omega] at q
    have hmul : ∀ i, k < i → i < n →
        multiplier (fun i j => s (Equiv.swap k (k + r) i) j) k i * s (Equiv.swap k (k + r) k) k =
          s (Equiv.swap k (k + r) i) k ∧
        |multiplier (fun i j => s (Equiv.swap k (k + r) i) j) k i| ≤ 1 := by
      intro i hi hin
      have := hmax i hi.le hin
      unfold multiplier
      beta_reduce
      split_ifs with e
      · rw [e, abs_zero] at this
        have z := abs_nonpos_iff.1 this
        rw [z]
        simp
      · have e' : 0 < |s (Equiv.swap k (k + r) k) k| := abs_pos.2 e
        refine ⟨by field_simp, ?_⟩
        rw [mul_one_div, abs_div, div_le_one e']
        exact this
    refine ⟨_, σ * Equiv.swap k (k + r), hA4, fun i j hi hj _ => ?_, ?_, ?_,
      hP2.step fun i hi hin => (hmul i hi hin).1, ?_⟩
    · rw [hch4 _ fun q => hAB _ q ⟨i, j, hi, hj, trivial, rfl⟩, hB3 i j hi hj trivial]
      rfl
    · exact hch1.trans' ((hch2.mono fun _ => Or.inl).trans' ((hch3.mono fun _ => Or.inr).trans'
        (hch4.mono fun _ => Or.inl)))
    · intro i
      rw [Equiv.Perm.mul_apply, hσ, Equiv.swap_apply_def]
      split_ifs <;> omega
    · intro i j hi hj hjk
      unfold eliminated
      by_cases e : j = k
      · subst e
        rw [if_pos ⟨hj, rfl⟩]
        exact (hmul i hj hi).2
      · rw [if_neg (by omega), if_neg (by omega)]
        have : j < Equiv.swap k (k + r) i ∧ Equiv.swap k (k + r) i < n := by
          rw [Equiv.swap_apply_def]; split_ifs <;> omega
        exact hQ _ j this.2 this.1 (by omega)
  · refine ⟨a, 1, hA, hB, fun _ _ => rfl, fun i => Iff.rfl, fun i j _ _ => ?_,
      fun i j _ _ hj => absurd hj (Nat.not_lt_zero j)⟩
    rw [range_zero, sum_empty, if_pos ⟨Nat.zero_le _, Nat.zero_le _⟩, zero_add]
    rfl
  · rintro _ h' ⟨s, σ, hA', hB', hch, hσ, hP, hQ⟩
    refine ⟨s, σ, hA', hB', hch, hσ, fun i j hi hj => ?_, fun i j hi hj => hQ i j hi hj (by omega)⟩
    rw [hP i j hi hj, if_neg (by omega), add_zero, mulMat]

/-- `A` is singular (rank 2); `T` has two columns. -/
example : Ends (luPivot 100 A T 3) (heap ℝ) fun _ h' =>
    ∃ (s : Nat → Nat → ℝ) (σ : Equiv.Perm Nat),
      A.Holds h' s ∧ T.Holds h' (fun i j => mvals ℝ T (σ i) j) ∧
      OnlyChanges (fun p => A.Cell p ∨ T.Cell p) (heap ℝ) h' ∧ (∀ i, σ i < 3 ↔ i < 3) ∧
      (∀ i j, i < 3 → j < 3 → mvals ℝ A (σ i) j =
        mulMat 3 (triOf .lower .implicitUnit s) (triOf .upper .explicit s) i j) ∧
      ∀ i j, i < 3 → j < i → |s i j| ≤ 1 :=
  C75_lu_pivot 100 A T 3 _ _ _ (mholds bA) (mholds bT) rfl rfl rfl (by view_facts)
    (by view_facts) (by view_facts)

/-- The diagonal of a nonsingular upper triangular matrix has no zeros. -/
theorem triangular_diag_ne_zero {n : Nat} (s : Nat → Nat → ℝ)
    (hinj : ∀ w : Nat → ℝ, (∀ i, i < n → mulVec n (triOf .upper .explicit s) w i = 0) →
      ∀ i, i < n → w i = 0) :
    ∀ k, k < n → s k k ≠ 0 := by
  let U : Matrix (Fin n) (Fin n) ℝ := Matrix.of fun i j => triOf .upper .explicit s i j
  have hdet : U.det = ∏ i : Fin n, s i i := by
    rw [Matrix.det_of_isUpperTriangular]
    · refine prod_congr rfl fun i _ => ?_
      show triOf .upper .explicit s i i = _
      rw [tri_upper, if_pos le_rfl]
    · intro i j hij
      show triOf .upper .explicit s i j = _
      have hij : (j : Nat) < i := hij
      rw [tri_upper, if_neg (by omega)]
  have hne : U.det ≠ 0 := by
    intro h0
    obtain ⟨v, hv0, hv⟩ := Matrix.exists_mulVec_eq_zero_iff.2 h0
    apply hv0
    let w : Nat → ℝ := fun j => if hj : j < n then v ⟨j, hj⟩ else 0
    have := hinj w fun i hi => by
      have := congrFun hv ⟨i, hi⟩
      rw [mulVec, ← Fin.sum_univ_eq_sum_range (fun j => triOf .upper .explicit s i j * w j)]
      rw [← show (U.mulVec v) ⟨i, hi⟩ = 0 from this]
      refine sum_congr rfl fun j _ => ?_
      show triOf .upper .explicit s i j * (if hj : (j : Nat) < n then v ⟨j, hj⟩ else 0) = _
      rw [dif_pos j.2]
      rfl
    funext j
    have q := this j j.2
    rw [show w j = v j from dif_pos j.2] at q
    exact q
  intro k hk
  rw [hdet] at hne
  exact (prod_ne_zero_iff.1 hne) ⟨k, hk⟩ (mem_univ _)

/-- The diagonal of the upper factor of a nonsingular matrix has no zeros. -/
theorem upper_diag_ne_zero {n : Nat} (s : Nat → Nat → ℝ)
    (hinj : ∀ w : Nat → ℝ, (∀ i, i < n → mulVec n (mulMat n (triOf .lower .implicitUnit s)
      (triOf .upper .explicit s)) w i = 0) → ∀ i, i < n → w i = 0) :
    ∀ k, k < n → s k k ≠ 0 :=
  triangular_diag_ne_zero s fun w hw => hinj w fun i _ => by
    rw [mulVec_mulMat]
    exact sum_eq_zero fun j hj => by rw [hw j (mem_range.1 hj), mul_zero]

/-- **C75** A solver for dense systems written with the library (`vector_idx_abs_max`,
`swap_elements`, `scale`, `matrix_rank_1_update`, two `triangular_matrix_matrix_left_solve`s) solves
`A X = B` for every nonsingular real matrix and every number of right-hand sides. -/
theorem C75_gesv (sizeMax : Nat) (A B : Mat) (n : Nat) (h : Heap ℝ) (a b : Nat → Nat → ℝ)
    (hA : A.Holds h a) (hB : B.Holds h b) (hr : A.rows = n) (hc : A.cols = n) (hBr : B.rows = n)
    (hu : A.Unique) (huB : B.Unique) (hAB : Apart A.Cell B.Cell)
    (hns : ∀ w : Nat → ℝ, (∀ i, i < n → mulVec n a w i = 0) → ∀ i, i < n → w i = 0) :
    Ends (gesv sizeMax A B n) h fun _ h' => ∃ v, B.Holds h' v ∧
      (∀ i j, i < n → j < B.cols → mulMat n a v i j = b i j) ∧
      OnlyChanges (fun p => A.Cell p ∨ B.Cell p) h h' := by
  unfold gesv
  rw [ends_bind]
  refine (C75_lu_pivot sizeMax A B n h a b hA hB hr hc hBr hu huB hAB).mono ?_
  rintro _ h1 ⟨s, σ, hA1, hB1, hch, hσ, hP, -⟩
  have hσ' : ∀ i, i < n → σ.symm i < n := fun i hi => by
    rw [← hσ, Equiv.apply_symm_apply]; exact hi
  have hnz := upper_diag_ne_zero (n := n) s fun w hw => hns w fun i hi => by
    rw [← hw (σ.symm i) (hσ' i hi)]
    refine sum_congr rfl fun j hj => ?_
    rw [← hP _ j (hσ' i hi) (mem_range.1 hj), Equiv.apply_symm_apply]
  refine (C72_lu_solve_matrix A.view B.view B h1 s _ n hA1.asView hB1.asView ?_ hr hc hBr hBr rfl
    huB hAB ?_ hnz).mono ?_
  · exact fun i j hi hj _ => ⟨_, hB1 i j hi hj trivial⟩
  · exact fun i j k l hi hj hk hl e => huB i j k l hi hj trivial hk hl trivial e
  · rintro _ h' ⟨v, hv, hs, -⟩
    refine ⟨v, hv.1, fun i j hi hj => ?_, hch.trans' (hv.2.mono fun _ => Or.inr)⟩
    have := hs (σ.symm i) j (hσ' i hi) hj
    rw [Equiv.apply_symm_apply] at this
    rw [← this]
    refine sum_congr rfl fun k hk => ?_
    rw [← hP _ k (hσ' i hi) (mem_range.1 hk), Equiv.apply_symm_apply]

/-- The block 23 26 / 24 27 of `A` is nonsingular. -/
theorem block_nonsingular (w : Nat → ℝ)
    (hw : ∀ i, i < 2 → mulVec 2 (mvals ℝ (A.block 0 0 2 2)) w i = 0) : ∀ i, i < 2 → w i = 0 := by
  have h0 := hw 0 (by omega)
  have h1 := hw 1 (by omega)
  simp only [mulVec, sum_range_succ, range_zero, sum_empty, mvals, A, Mat.block] at h0 h1
  norm_num at h0 h1
  intro i hi
  interval_cases i <;> linarith

example : Ends (gesv 100 (A.block 0 0 2 2) W 2) (heap ℝ) fun _ h' => ∃ v, W.Holds h' v ∧
      (∀ i j, i < 2 → j < 3 →
        mulMat 2 (mvals ℝ (A.block 0 0 2 2)) v i j = mvals ℝ W i j) ∧
      OnlyChanges (fun p => (A.block 0 0 2 2).Cell p ∨ W.Cell p) (heap ℝ) h' :=
  C75_gesv 100 _ W 2 _ _ _
    (mholds fun i j hi hj => by simp only [A, Mat.block] at *; omega) (mholds bW) rfl rfl rfl
    (Mat.Unique.block (by view_facts) (by decide) (by decide)) (by view_facts)
    (by rintro a ⟨i, j, hi, hj, -, e⟩ ⟨k, l, hk, hl, -, e'⟩
        simp only [A, W, Mat.block] at *; omega) block_nonsingular

/-- **C75** The same program with the identity matrix as right-hand side leaves the inverse
matrix. -/
theorem C75_inverse (sizeMax : Nat) (A B : Mat) (n : Nat) (h : Heap ℝ) (a : Nat → Nat → ℝ)
    (hA : A.Holds h a) (hB : B.Holds h fun i j => if i = j then 1 else 0) (hr : A.rows = n)
    (hc : A.cols = n) (hBr : B.rows = n) (hBc : B.cols = n)
    (hu : A.Unique) (huB : B.Unique) (hAB : Apart A.Cell B.Cell)
    (hns : ∀ w : Nat → ℝ, (∀ i, i < n → mulVec n a w i = 0) → ∀ i, i < n → w i = 0) :
    Ends (gesv sizeMax A B n) h fun _ h' => ∃ v, B.Holds h' v ∧
      (∀ i j, i < n → j < n → mulMat n a v i j = if i = j then 1 else 0) ∧
      ∀ i j, i < n → j < n → mulMat n v a i j = if i = j then 1 else 0 := by
  refine (C75_gesv sizeMax A B n h a _ hA hB hr hc hBr hu huB hAB hns).mono ?_
  rintro _ h' ⟨v, hv, hs, -⟩
  rw [hBc] at hs
  refine ⟨v, hv, hs, ?_⟩
  let M : Matrix (Fin n) (Fin n) ℝ := Matrix.of fun i j => a i j
  let V : Matrix (Fin n) (Fin n) ℝ := Matrix.of fun i j => v i j
  have hMV : M * V = 1 := by
    ext i j
    rw [Matrix.mul_apply, Matrix.one_apply,
      show (∑ k, M i k * V k j) = ∑ k : Fin n, a i k * v k j from rfl,
      Fin.sum_univ_eq_sum_range (fun k => a i k * v k j)]
    refine (hs i j i.2 j.2).trans ?_
    simp only [Fin.ext_iff]
  have hVM := mul_eq_one_comm.1 hMV
  intro i j hi hj
  have := congrFun (congrFun hVM ⟨i, hi⟩) ⟨j, hj⟩
  rw [Matrix.mul_apply, Matrix.one_apply,
    show (∑ k, V ⟨i, hi⟩ k * M k ⟨j, hj⟩) = ∑ k : Fin n, v i k * a k j from rfl,
    Fin.sum_univ_eq_sum_range (fun k => v i k * a k j)] at this
  simpa only [Fin.ext_iff, mulMat] using this

/-- A memory whose cells 120, 121, 122, 123 hold a 2 x 2 identity matrix (column-major). -/
noncomputable def heapWithIdentity : Heap ℝ := fun p =>
  if p = 120 ∨ p = 123 then some 1 else if p = 121 ∨ p = 122 then some 0 else heap ℝ p

example : Ends (gesv 100 (A.block 0 0 2 2) (W.block 0 0 2 2) 2) heapWithIdentity fun _ h' =>
    ∃ v, (W.block 0 0 2 2).Holds h' v ∧
      (∀ i j, i < 2 → j < 2 →
        mulMat 2 (mvals ℝ (A.block 0 0 2 2)) v i j = if i = j then 1 else 0) ∧
      ∀ i j, i < 2 → j < 2 →
        mulMat 2 v (mvals ℝ (A.block 0 0 2 2)) i j = if i = j then 1 else 0 :=
  C75_inverse 100 _ _ 2 _ _
    (fun i j hi hj _ => by
      have hi : i < 2 := hi
      have hj : j < 2 := hj
      have : (A.block 0 0 2 2).addr i j = 30 + (0 + i) + 3 * (0 + j) := rfl
      rw [heapWithIdentity, if_neg (by omega), if_neg (by omega)]
      exact heap_lt (by omega))
    (fun i j hi hj _ => by
      have hi : i < 2 := hi
      have hj : j < 2 := hj
      interval_cases i <;> interval_cases j <;>
        simp [heapWithIdentity, W, Mat.block]) rfl rfl rfl rfl
    (Mat.Unique.block (by view_facts) (by decide) (by decide))
    (Mat.Unique.block (by view_facts) (by decide) (by decide))
    (by rintro a ⟨i, j, hi, hj, -, e⟩ ⟨k, l, hk, hl, -, e'⟩
        simp only [A, W, Mat.block] at *; omega) block_nonsingular

end StdBLAS

import Verif.Props.Solver
import Mathlib.Tactic.LinearCombination

/-!
# Property C75: Cholesky factorisation written with the library
-/

namespace StdBLAS
open Finset Witness
variable {α : Type}

/-- The lower triangle. -/
abbrev lowerTri : Region := Triangle.lower.region

/-- The quadratic form of the trailing part of the symmetric matrix whose lower triangle is `s`. -/
noncomputable def trailingForm (n : Nat) (s : Nat → Nat → ℝ) (k : Nat) (w : Nat → ℝ) : ℝ :=
  ∑ i ∈ Ico k n, ∑ j ∈ Ico k n, symOf .lower s i j * w i * w j

/-- The lower triangle after step `k` of the factorisation. -/
noncomputable def cholStep (s : Nat → Nat → ℝ) (k i j : Nat) : ℝ :=
  if i = k ∧ j = k then Real.sqrt (s k k)
  else if k < i ∧ j = k then s i k * (1 / Real.sqrt (s k k))
  else if k < i ∧ k < j then
    s i j + -1 * (s i k * (1 / Real.sqrt (s k k))) * (s j k * (1 / Real.sqrt (s k k)))
  else s i j

theorem symOf_lower_eq (s : Nat → Nat → α) (i j : Nat) :
    symOf .lower s i j = if j ≤ i then s i j else s j i := by
  unfold symOf Triangle.region
  by_cases e : j ≤ i
  · exact (if_pos e).trans (if_pos e).symm
  · exact (if_neg e).trans (if_neg e).symm

theorem trailingForm_step {n k : Nat} (s : Nat → Nat → ℝ) (hk : k < n) (hp : 0 < s k k)
    (w : Nat → ℝ) :
    trailingForm n s k w =
      (Real.sqrt (s k k) * w k +
        ∑ j ∈ Ico (k + 1) n, s j k * (1 / Real.sqrt (s k k)) * w j) ^ 2 +
      trailingForm n (cholStep s k) (k + 1) w := by
  have hq : 0 < Real.sqrt (s k k) := Real.sqrt_pos.2 hp
  have hqq : Real.sqrt (s k k) * Real.sqrt (s k k) = s k k := Real.mul_self_sqrt hp.le
  set q := Real.sqrt (s k k) with hqdef
  set S := ∑ j ∈ Ico (k + 1) n, s j k * (1 / q) * w j with hS
  have h1 : ∑ j ∈ Ico (k + 1) n, symOf .lower s k j * w k * w j = q * w k * S := by
    rw [hS, mul_sum]
    refine sum_congr rfl fun j hj => ?_
    have := (mem_Ico.1 hj).1
    rw [symOf_lower_eq, if_neg (by omega)]
    field_simp
  have h2 : ∑ i ∈ Ico (k + 1) n, symOf .lower s i k * w i * w k = q * w k * S := by
    rw [hS, mul_sum]
    refine sum_congr rfl fun j hj => ?_
    have := (mem_Ico.1 hj).1
    rw [symOf_lower_eq, if_pos (by omega)]
    field_simp
  have h3 : trailingForm n (cholStep s k) (k + 1) w =
      (∑ i ∈ Ico (k + 1) n, ∑ j ∈ Ico (k + 1) n, symOf .lower s i j * w i * w j) - S * S := by
    rw [hS, sum_mul_sum, ← sum_sub_distrib]
    refine sum_congr rfl fun i hi => ?_
    rw [← sum_sub_distrib]
    refine sum_congr rfl fun j hj => ?_
    have hi := (mem_Ico.1 hi).1
    have hj := (mem_Ico.1 hj).1
    rw [symOf_lower_eq, symOf_lower_eq]
    split_ifs with e
    · rw [cholStep, if_neg (by omega), if_neg (by omega), if_pos (by omega), ← hqdef]; ring
    · rw [cholStep, if_neg (by omega), if_neg (by omega), if_pos (by omega), ← hqdef]; ring
  rw [trailingForm, sum_eq_sum_Ico_succ_bot hk, sum_eq_sum_Ico_succ_bot hk, h1,
    sum_congr rfl fun i _ => sum_eq_sum_Ico_succ_bot hk _, sum_add_distrib, h2, h3,
    symOf_lower_eq, if_pos le_rfl, ← hqq]
  ring

theorem trailing_pivot_pos {n k : Nat} {s : Nat → Nat → ℝ} (hk : k < n)
    (H : ∀ w : Nat → ℝ, (∃ i, k ≤ i ∧ i < n ∧ w i ≠ 0) → 0 < trailingForm n s k w) :
    0 < s k k := by
  have := H (fun i => if i = k then 1 else 0) ⟨k, le_rfl, hk, by simp⟩
  rw [trailingForm, sum_eq_single_of_mem k (mem_Ico.2 ⟨le_rfl, hk⟩)
    (fun i _ hne => by simp [hne]), sum_eq_single_of_mem k (mem_Ico.2 ⟨le_rfl, hk⟩)
    (fun i _ hne => by simp [hne]), symOf_lower_eq] at this
  simpa using this

theorem trailing_step_pos {n k : Nat} {s : Nat → Nat → ℝ} (hk : k < n)
    (H : ∀ w : Nat → ℝ, (∃ i, k ≤ i ∧ i < n ∧ w i ≠ 0) → 0 < trailingForm n s k w) :
    ∀ w : Nat → ℝ, (∃ i, k + 1 ≤ i ∧ i < n ∧ w i ≠ 0) →
      0 < trailingForm n (cholStep s k) (k + 1) w := by
  rintro w ⟨i, hi, hin, hne⟩
  have hp := trailing_pivot_pos hk H
  have hq : 0 < Real.sqrt (s k k) := Real.sqrt_pos.2 hp
  let S := ∑ j ∈ Ico (k + 1) n, s j k * (1 / Real.sqrt (s k k)) * w j
  let w' : Nat → ℝ := fun j => if j = k then -S / Real.sqrt (s k k) else w j
  have hw' : ∀ j, k + 1 ≤ j → w' j = w j := fun j hj => if_neg (by omega)
  have := H w' ⟨i, by omega, hin, by rw [hw' i hi]; exact hne⟩
  rw [trailingForm_step s hk hp] at this
  have e1 : ∑ j ∈ Ico (k + 1) n, s j k * (1 / Real.sqrt (s k k)) * w' j = S :=
    sum_congr rfl fun j hj => by rw [hw' j (mem_Ico.1 hj).1]
  have e2 : trailingForm n (cholStep s k) (k + 1) w' =
      trailingForm n (cholStep s k) (k + 1) w :=
    sum_congr rfl fun i hi => sum_congr rfl fun j hj => by
      rw [hw' i (mem_Ico.1 hi).1, hw' j (mem_Ico.1 hj).1]
  rw [e1, e2, show w' k = -S / Real.sqrt (s k k) from if_pos rfl, mul_div_cancel₀ _ hq.ne',
    neg_add_cancel] at this
  simpa using this

/-! ## Memory -/

theorem Mat.HoldsOn.patch {A : Mat} {R : Region} {h h' : Heap α} {s : Nat → Nat → α}
    (hA : A.HoldsOn h R s) {P : Nat → Prop} (hc : OnlyChanges P h h') (t : Nat → Nat → α)
    (hin : ∀ i j, i < A.rows → j < A.cols → R i j → P (A.addr i j) →
      h' (A.addr i j) = some (t i j))
    (hout : ∀ i j, i < A.rows → j < A.cols → R i j → ¬ P (A.addr i j) → t i j = s i j) :
    A.HoldsOn h' R t := by
  intro i j hi hj hr
  by_cases hp : P (A.addr i j)
  · exact hin i j hi hj hr hp
  · rw [hc _ hp, hA i j hi hj hr, hout i j hi hj hr hp]

section
variable {A : Mat} {n k : Nat} {h : Heap ℝ} {s : Nat → Nat → ℝ}

theorem lower_cell_col (hu : A.UniqueOn lowerTri) (hr : A.rows = n) (hc : A.cols = n)
    (hk : k < n) {i j : Nat} (hi : i < A.rows) (hj : j < A.cols) (hij : j ≤ i) :
    (A.colPart k (k + 1) (n - (k + 1))).Cell (A.addr i j) ↔ j = k ∧ k < i := by
  constructor
  · rintro ⟨m, hm, e⟩
    have hm : m < n - (k + 1) := hm
    have := hu (k + 1 + m) k i j (by omega) (by omega) (show k ≤ k + 1 + m by omega) hi hj hij e
    omega
  · rintro ⟨rfl, hki⟩
    refine ⟨i - (j + 1), show i - (j + 1) < n - (j + 1) by omega, ?_⟩
    show A.addr (j + 1 + (i - (j + 1))) j = _
    rw [show j + 1 + (i - (j + 1)) = i by omega]

theorem lower_cell_block (hu : A.UniqueOn lowerTri) (hr : A.rows = n) (hc : A.cols = n)
    {i j : Nat} (hi : i < A.rows) (hj : j < A.cols) (hij : j ≤ i) :
    ((A.block (k + 1) (k + 1) (n - (k + 1)) (n - (k + 1))).CellOn lowerTri) (A.addr i j) ↔
      k < j := by
  constructor
  · rintro ⟨p, q, hp, hq, hpq, e⟩
    have hp : p < n - (k + 1) := hp
    have hq : q < n - (k + 1) := hq
    have hpq : q ≤ p := hpq
    have := hu (k + 1 + p) (k + 1 + q) i j (by omega) (by omega)
      (show k + 1 + q ≤ k + 1 + p by omega) hi hj hij e
    omega
  · intro hkj
    refine ⟨i - (k + 1), j - (k + 1), show i - (k + 1) < n - (k + 1) by omega,
      show j - (k + 1) < n - (k + 1) by omega, show j - (k + 1) ≤ i - (k + 1) by omega, ?_⟩
    show A.addr (k + 1 + (i - (k + 1))) (k + 1 + (j - (k + 1))) = _
    rw [show k + 1 + (i - (k + 1)) = i by omega, show k + 1 + (j - (k + 1)) = j by omega]

theorem ends_cholStep (hA : A.HoldsOn h lowerTri s) (hr : A.rows = n) (hc : A.cols = n)
    (hu : A.UniqueOn lowerTri) (hk : k < n) :
    Ends (do
      let p ← A.get k k
      A.set k k (Real.sqrt p)
      scale1 (1 / Real.sqrt p) (A.colPart k (k + 1) (n - (k + 1)))
      syrAlpha (-1) (A.colPart k (k + 1) (n - (k + 1))).view
        (A.block (k + 1) (k + 1) (n - (k + 1)) (n - (k + 1))) .lower) h fun _ h' =>
      A.BecomesOn h h' lowerTri (cholStep s k) := by
  rw [ends_bind, ends_mat_get]
  have hkk := hA k k (by omega) (by omega) (show k ≤ k from le_rfl)
  refine ⟨⟨by omega, by omega⟩, s k k, hkk, ?_⟩
  rw [ends_bind, ends_mat_set]
  refine ⟨⟨by omega, by omega⟩, ⟨_, hkk⟩, ?_⟩
  set h1 := Function.update h (A.addr k k) (some (Real.sqrt (s k k))) with hh1
  have hch1 : OnlyChanges (fun a => a = A.addr k k) h h1 := fun a ha => by
    rw [hh1, Function.update_of_ne ha]
  have hA1 : A.HoldsOn h1 lowerTri
      (fun i j => if i = k ∧ j = k then Real.sqrt (s k k) else s i j) := by
    refine hA.patch hch1 _ (fun i j hi hj hij e => ?_) (fun i j hi hj hij e => ?_)
    · obtain ⟨rfl, rfl⟩ := hu i j k k hi hj hij (by omega) (by omega)
        (show k ≤ k from le_rfl) e
      rw [hh1, Function.update_self, if_pos ⟨rfl, rfl⟩]
    · exact if_neg fun q => e (by rw [q.1, q.2])
  rw [ends_bind]
  have hcol : (A.colPart k (k + 1) (n - (k + 1))).Holds h1 fun i => s (k + 1 + i) k := by
    intro i hi
    have hi : i < n - (k + 1) := hi
    exact (hA1 (k + 1 + i) k (by omega) (by omega) (show k ≤ k + 1 + i by omega)).trans
      (congrArg some (if_neg (by omega)))
  refine (C11_scale_vector (1 / Real.sqrt (s k k)) _ h1 _ hcol ?_).mono ?_
  · intro i m hi hm e
    have hi : i < n - (k + 1) := hi
    have hm : m < n - (k + 1) := hm
    have := hu (k + 1 + i) k (k + 1 + m) k (by omega) (by omega) (show k ≤ k + 1 + i by omega)
      (by omega) (by omega) (show k ≤ k + 1 + m by omega) e
    omega
  rintro _ h2 ⟨hv2, hch2⟩
  have hA2 : A.HoldsOn h2 lowerTri (fun i j => if i = k ∧ j = k then Real.sqrt (s k k)
      else if k < i ∧ j = k then s i k * (1 / Real.sqrt (s k k)) else s i j) := by
    refine hA1.patch hch2 _ (fun i j hi hj hij e => ?_) (fun i j hi hj hij e => ?_)
    · rw [lower_cell_col hu hr hc hk hi hj hij] at e
      obtain ⟨rfl, hki⟩ := e
      have := hv2 (i - (j + 1)) (show i - (j + 1) < n - (j + 1) by omega)
      rw [show (A.colPart j (j + 1) (n - (j + 1))).addr (i - (j + 1)) = A.addr i j by
        show A.addr (j + 1 + (i - (j + 1))) j = _
        rw [show j + 1 + (i - (j + 1)) = i by omega]] at this
      rw [this, if_neg (by omega), if_pos ⟨hki, rfl⟩]
      beta_reduce
      rw [show j + 1 + (i - (j + 1)) = i by omega]
    · rw [lower_cell_col hu hr hc hk hi hj hij] at e
      by_cases q : i = k ∧ j = k
      · rw [if_pos q, if_pos q]
      · rw [if_neg q, if_neg q, if_neg (by omega)]
  refine (C26_syrAlpha (-1) _ _ .lower h2 _ (fun i j => s (k + 1 + i) (k + 1 + j))
    hv2.asView ?_ rfl le_rfl ?_ ?_).mono ?_
  · intro i j hi hj hij
    have hi : i < n - (k + 1) := hi
    have hj : j < n - (k + 1) := hj
    have hij : j ≤ i := hij
    refine (hA2 (k + 1 + i) (k + 1 + j) (by omega) (by omega)
      (show k + 1 + j ≤ k + 1 + i by omega)).trans (congrArg some ?_)
    beta_reduce
    rw [if_neg (by omega), if_neg (by omega)]
  · intro i j p q hi hj hij hp hq hpq e
    have hi : i < n - (k + 1) := hi
    have hj : j < n - (k + 1) := hj
    have hij : j ≤ i := hij
    have hp : p < n - (k + 1) := hp
    have hq : q < n - (k + 1) := hq
    have hpq : q ≤ p := hpq
    have := hu (k + 1 + i) (k + 1 + j) (k + 1 + p) (k + 1 + q) (by omega) (by omega)
      (show k + 1 + j ≤ k + 1 + i by omega) (by omega) (by omega)
      (show k + 1 + q ≤ k + 1 + p by omega) e
    omega
  · rintro p ⟨i, hi, rfl⟩ hp
    have hi : i < n - (k + 1) := hi
    have := (lower_cell_block (k := k) hu hr hc (i := k + 1 + i) (j := k) (by omega) (by omega)
      (by omega)).1 hp
    omega
  · rintro _ h3 ⟨hv3, hch3⟩
    refine ⟨hA2.patch hch3 _ (fun i j hi hj hij e => ?_) (fun i j hi hj hij e => ?_), ?_⟩
    · have hij' : j ≤ i := hij
      rw [lower_cell_block hu hr hc hi hj hij] at e
      have := hv3 (i - (k + 1)) (j - (k + 1)) (show i - (k + 1) < n - (k + 1) by omega)
        (show j - (k + 1) < n - (k + 1) by omega) (show j - (k + 1) ≤ i - (k + 1) by omega)
      rw [show (A.block (k + 1) (k + 1) (n - (k + 1)) (n - (k + 1))).addr (i - (k + 1))
          (j - (k + 1)) = A.addr i j by
        show A.addr (k + 1 + (i - (k + 1))) (k + 1 + (j - (k + 1))) = _
        rw [show k + 1 + (i - (k + 1)) = i by omega, show k + 1 + (j - (k + 1)) = j by omega]]
        at this
      beta_reduce at this
      rw [show k + 1 + (i - (k + 1)) = i by omega, show k + 1 + (j - (k + 1)) = j by omega] at this
      rw [this, cholStep, if_neg (by omega), if_neg (by omega), if_pos (by omega)]
    · have hij' : j ≤ i := hij
      rw [lower_cell_block hu hr hc hi hj hij] at e
      unfold cholStep
      by_cases q : i = k ∧ j = k
      · rw [if_pos q, if_pos q]
      · rw [if_neg q, if_neg q]
        by_cases q' : k < i ∧ j = k
        · rw [if_pos q', if_pos q']
        · rw [if_neg q', if_neg q', if_neg (by omega)]
    · refine OnlyChanges.trans' (hch1.mono ?_) (OnlyChanges.trans' (hch2.mono ?_)
        (hch3.mono ?_))
      · rintro p rfl
        exact ⟨k, k, by omega, by omega, show k ≤ k from le_rfl, rfl⟩
      · rintro p ⟨i, hi, rfl⟩
        have hi : i < n - (k + 1) := hi
        exact ⟨k + 1 + i, k, by omega, by omega, show k ≤ k + 1 + i by omega, rfl⟩
      · rintro p ⟨i, j, hi, hj, hij, rfl⟩
        have hi : i < n - (k + 1) := hi
        have hj : j < n - (k + 1) := hj
        have hij : j ≤ i := hij
        exact ⟨k + 1 + i, k + 1 + j, by omega, by omega, show k + 1 + j ≤ k + 1 + i by omega, rfl⟩

end

/-- **C75** Cholesky factorisation, in place in the lower triangle, by square roots, `scale` and
`symmetric_matrix_rank_1_update`: for every positive definite matrix (named by its lower
triangle) the lower triangle of the array holds the factor `L` with positive diagonal and
`L Lᵀ = A`; the upper triangle is neither read nor written. -/
theorem C75_cholesky (A : Mat) (n : Nat) (h : Heap ℝ) (a : Nat → Nat → ℝ)
    (hA : A.HoldsOn h Triangle.lower.region a) (hr : A.rows = n) (hc : A.cols = n)
    (hu : A.UniqueOn Triangle.lower.region)
    (hpd : ∀ w : Nat → ℝ, (∃ i, i < n ∧ w i ≠ 0) →
      0 < ∑ i ∈ range n, ∑ j ∈ range n, symOf .lower a i j * w i * w j) :
    Ends (cholesky A n) h fun _ h' => ∃ l,
      A.BecomesOn h h' Triangle.lower.region l ∧ (∀ k, k < n → 0 < l k k) ∧
      ∀ i j, i < n → j < n → ∑ m ∈ range n,
        triOf .lower .explicit l i m * triOf .lower .explicit l j m = symOf .lower a i j := by
  have tri : ∀ (s : Nat → Nat → ℝ) i m,
      triOf .lower .explicit s i m = if m ≤ i then s i m else 0 := by
    intro s i m
    unfold triOf Triangle.region
    by_cases e : i = m
    · subst e; simp
    · rw [if_neg e]
      by_cases e' : m ≤ i
      · exact (if_pos e').trans (if_pos e').symm
      · exact (if_neg e').trans (if_neg e').symm
  refine (ends_forUp_inv (fun k h' => ∃ s, A.BecomesOn h h' lowerTri s ∧
      (∀ w : Nat → ℝ, (∃ i, k ≤ i ∧ i < n ∧ w i ≠ 0) → 0 < trailingForm n s k w) ∧
      (∀ m, m < k → 0 < s m m) ∧
      ∀ i j, i < n → j ≤ i → (∑ m ∈ range k,
        triOf .lower .explicit s i m * triOf .lower .explicit s j m) +
          (if k ≤ j then s i j else 0) = a i j)
    (Nat.zero_le n) ?_ ?_).mono ?_
  · rintro k - hk h1 ⟨s, ⟨hA1, hch1⟩, hpos, hdiag, hsum⟩
    have hp := trailing_pivot_pos hk hpos
    have hq : 0 < Real.sqrt (s k k) := Real.sqrt_pos.2 hp
    have hqq : Real.sqrt (s k k) * Real.sqrt (s k k) = s k k := Real.mul_self_sqrt hp.le
    refine (ends_cholStep hA1 hr hc hu hk).mono ?_
    rintro _ h2 ⟨hA2, hch2⟩
    refine ⟨_, ⟨hA2, hch1.trans' hch2⟩, trailing_step_pos hk hpos, fun m hm => ?_,
      fun i j hi hij => ?_⟩
    · unfold cholStep
      by_cases e : m = k
      · rw [if_pos ⟨e, e⟩]; exact hq
      · rw [if_neg (by omega), if_neg (by omega), if_neg (by omega)]
        exact hdiag m (by omega)
    · rw [← hsum i j hi hij, sum_range_succ, add_assoc]
      congr 1
      · refine sum_congr rfl fun m hm => ?_
        have hm := mem_range.1 hm
        have e : ∀ i, cholStep s k i m = s i m := fun i => by
          rw [cholStep, if_neg (by omega), if_neg (by omega), if_neg (by omega)]
        rw [tri, tri, tri, tri, e, e]
      · rw [tri, tri]
        rcases Nat.lt_trichotomy j k with e | e | e
        · rw [if_neg (c := k ≤ j) (by omega), if_neg (c := k + 1 ≤ j) (by omega),
            if_neg (c := k ≤ j) (by omega)]
          ring
        · subst e
          rw [if_pos hij, if_pos le_rfl, if_neg (by omega), if_pos le_rfl, add_zero]
          rw [show cholStep s j j j = Real.sqrt (s j j) from if_pos ⟨rfl, rfl⟩]
          by_cases e : i = j
          · rw [e, show cholStep s j j j = Real.sqrt (s j j) from if_pos ⟨rfl, rfl⟩, hqq]
          · rw [cholStep, if_neg (by omega), if_pos ⟨by omega, rfl⟩]
            field_simp
        · rw [if_pos (by omega), if_pos (by omega), if_pos (by omega), if_pos (by omega)]
          rw [cholStep, if_neg (by omega), if_pos ⟨by omega, rfl⟩, cholStep, if_neg (by omega),
            if_pos ⟨by omega, rfl⟩, cholStep, if_neg (by omega), if_neg (by omega),
            if_pos (by omega)]
          ring
  · refine ⟨a, ⟨hA, fun _ _ => rfl⟩, ?_, fun m hm => absurd hm (Nat.not_lt_zero m),
      fun i j _ _ => by simp⟩
    rintro w ⟨i, -, hi, hne⟩
    have := hpd w ⟨i, hi, hne⟩
    rwa [range_eq_Ico] at this
  · rintro _ h' ⟨s, hs, -, hdiag, hsum⟩
    have key : ∀ i j, i < n → j ≤ i → ∑ m ∈ range n,
        triOf .lower .explicit s i m * triOf .lower .explicit s j m = a i j := fun i j hi hij => by
      rw [← hsum i j hi hij, if_neg (by omega), add_zero]
    refine ⟨s, hs, hdiag, fun i j hi hj => ?_⟩
    rw [symOf_lower_eq]
    split_ifs with e
    · exact key i j hi e
    · rw [← key j i hj (by omega)]
      exact sum_congr rfl fun m _ => mul_comm _ _

/-- The lower triangle 23 / 24 27 of the leading block of `A` names a positive definite matrix:
`23 (w0 + 24/23 w1)^2 + 45/23 w1^2`. -/
theorem block_posdef (w : Nat → ℝ) (hw : ∃ i, i < 2 ∧ w i ≠ 0) :
    0 < ∑ i ∈ range 2, ∑ j ∈ range 2,
      symOf .lower (mvals ℝ (A.block 0 0 2 2)) i j * w i * w j := by
  simp only [sum_range_succ, range_zero, sum_empty, symOf_lower_eq, mvals, A, Mat.block]
  norm_num
  obtain ⟨i, hi, hne⟩ := hw
  have h1 : 0 ≤ (w 0 + 24 / 23 * w 1) ^ 2 := sq_nonneg _
  interval_cases i
  · by_cases e : w 1 = 0
    · rw [e]
      have : 0 < w 0 ^ 2 := by positivity
      nlinarith
    · have : 0 < w 1 ^ 2 := by positivity
      nlinarith
  · have : 0 < w 1 ^ 2 := by positivity
    nlinarith

example : Ends (cholesky (A.block 0 0 2 2) 2) (heap ℝ) fun _ h' => ∃ l,
      (A.block 0 0 2 2).BecomesOn (heap ℝ) h' Triangle.lower.region l ∧
      (∀ k, k < 2 → 0 < l k k) ∧ ∀ i j, i < 2 → j < 2 → ∑ m ∈ range 2,
        triOf .lower .explicit l i m * triOf .lower .explicit l j m =
          symOf .lower (mvals ℝ (A.block 0 0 2 2)) i j :=
  C75_cholesky _ 2 _ _ (mholds fun i j hi hj => by simp only [A, Mat.block] at *; omega) rfl rfl
    (fun i j k l hi hj _ hk hl _ e => by simp only [A, Mat.block] at *; omega) block_posdef

/-- **C75** A solver for positive definite systems: Cholesky factorisation and two triangular
solves, the second with `transposed`; only the lower triangle of the matrix is used. -/
theorem C75_posv (A : Mat) (b : Vec) (n : Nat) (h : Heap ℝ) (a : Nat → Nat → ℝ) (g : Nat → ℝ)
    (hA : A.HoldsOn h Triangle.lower.region a) (hb : b.Holds h g) (hr : A.rows = n)
    (hc : A.cols = n) (hbe : b.ext = n) (hu : A.UniqueOn Triangle.lower.region) (hub : b.Unique)
    (hAb : Apart (A.CellOn Triangle.lower.region) b.Cell)
    (hpd : ∀ w : Nat → ℝ, (∃ i, i < n ∧ w i ≠ 0) →
      0 < ∑ i ∈ range n, ∑ j ∈ range n, symOf .lower a i j * w i * w j) :
    Ends (posv A b n) h fun _ h' => ∃ v, b.Holds h' v ∧
      (∀ i, i < n → ∑ j ∈ range n, symOf .lower a i j * v j = g i) ∧
      OnlyChanges (fun p => A.CellOn Triangle.lower.region p ∨ b.Cell p) h h' := by
  unfold posv
  rw [ends_bind]
  refine (C75_cholesky A n h a hA hr hc hu hpd).mono ?_
  rintro _ h1 ⟨l, ⟨hl, hch⟩, hpos, hsum⟩
  have hb1 : b.Holds h1 g := fun i hi => by
    rw [hch _ fun q => hAb _ q ⟨i, hi, rfl⟩, hb i hi]
  refine (C72_cholesky_solve A.view b.view b h1 l g n (fun i j hi hj hij =>
      ⟨_, hl i j hi hj hij.1, rfl⟩) hb1.asView hb1.alloc hr hc hbe hbe.ge hub ?_
      (fun i k hi hk e => hub i k hi hk e) (fun k hk => (hpos k hk).ne')).mono ?_
  · rintro p ⟨i, j, hi, hj, hij, e⟩ hp
    exact hAb p ⟨i, j, hi, hj, hij.1, e⟩ hp
  · rintro _ h' ⟨v, hv, hs, -⟩
    refine ⟨v, hv.1, fun i hi => ?_, (hch.mono fun _ => Or.inl).trans'
      (hv.2.mono fun _ => Or.inr)⟩
    rw [← hs i hi]
    exact sum_congr rfl fun j hj => by rw [hsum i j hi (mem_range.1 hj)]

example : Ends (posv (A.block 0 0 2 2) (y.slice 0 2) 2) (heap ℝ) fun _ h' =>
    ∃ v, (y.slice 0 2).Holds h' v ∧
      (∀ i, i < 2 → ∑ j ∈ range 2, symOf .lower (mvals ℝ (A.block 0 0 2 2)) i j * v j =
        vals ℝ (y.slice 0 2) i) ∧
      OnlyChanges (fun p => (A.block 0 0 2 2).CellOn Triangle.lower.region p ∨
        (y.slice 0 2).Cell p) (heap ℝ) h' :=
  C75_posv _ _ 2 _ _ _ (mholds fun i j hi hj => by simp only [A, Mat.block] at *; omega)
    (holds fun i hi => by simp only [y, Vec.slice] at *; omega) rfl rfl rfl
    (fun i j k l hi hj _ hk hl _ e => by simp only [A, Mat.block] at *; omega)
    (fun i k hi hk e => by simp only [y, Vec.slice] at *; omega)
    (by rintro a ⟨i, j, hi, hj, -, e⟩ ⟨k, hk, e'⟩
        simp only [A, y, Vec.slice, Mat.block] at *; omega) block_posdef

end StdBLAS

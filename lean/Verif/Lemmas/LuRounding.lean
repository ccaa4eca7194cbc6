import Verif.Lemmas.Rounding
import Verif.Props.Solver

/-!
# Lemmas: Gaussian elimination in rounded arithmetic
-/

namespace StdBLAS
open Finset
variable {F K : Type} [Add F] [Mul F] [Div F]

/-! ## One step -/

/-- The multipliers of step `k`. -/
def multiplierF (one : F) (s : Nat → Nat → F) (k i : Nat) : F := s i k * (one / s k k)

/-- The matrix after step `k`. -/
def eliminatedF (one minusOne : F) (s : Nat → Nat → F) (k i j : Nat) : F :=
  if k < i ∧ j = k then multiplierF one s k i
  else if k < i ∧ k < j then s i j + minusOne * multiplierF one s k i * s k j
  else s i j

theorem ends_luStepF {one minusOne : F} {A : Mat} {n k : Nat} {h : Heap F} {s : Nat → Nat → F}
    (hA : A.Holds h s) (hr : A.rows = n) (hc : A.cols = n) (hu : A.Unique) (hk : k < n) :
    Ends (luStepF one minusOne A n k) h fun _ h' =>
      A.Holds h' (eliminatedF one minusOne s k) ∧ OnlyChanges A.Cell h h' := by
  unfold luStepF
  rw [ends_bind, ends_mat_get]
  refine ⟨⟨by omega, by omega⟩, s k k, hA k k (by omega) (by omega) trivial, ?_⟩
  -- the scaling
  have hcol : (A.colPart k (k + 1) (n - (k + 1))).Holds h fun i => s (k + 1 + i) k :=
    hA.colPart (by omega) (by omega)
  have key : Ends (scale1 (one / s k k) (A.colPart k (k + 1) (n - (k + 1)))) h fun _ h1 =>
      A.Holds h1 (fun i j => if k < i ∧ j = k then multiplierF one s k i else s i j) ∧
        OnlyChanges A.Cell h h1 := by
    refine (C11_scale_vector (one / s k k) _ h _ hcol
      (hu.colPart (by omega) (by omega))).mono ?_
    rintro _ h1 ⟨hv, hch⟩
    refine ⟨hA.patch hch _ (fun i j hi hj hp => ?_) (fun i j hi hj hp => ?_),
      hch.mono (Mat.colPart_sub (by omega) (by omega))⟩
    · rw [Mat.cell_colPart hu (by omega) (by omega) hi hj] at hp
      obtain ⟨rfl, h1, h2⟩ := hp
      have := hv (i - (j + 1)) (show i - (j + 1) < n - (j + 1) by omega)
      rw [show (A.colPart j (j + 1) (n - (j + 1))).addr (i - (j + 1)) = A.addr i j by
        show A.addr (j + 1 + (i - (j + 1))) j = _
        rw [show j + 1 + (i - (j + 1)) = i by omega]] at this
      rw [this, if_pos ⟨by omega, rfl⟩, multiplierF]
      beta_reduce
      rw [show j + 1 + (i - (j + 1)) = i by omega]
    · rw [Mat.cell_colPart hu (by omega) (by omega) hi hj] at hp
      exact if_neg fun q => hp ⟨q.2, by omega, by omega⟩
  rw [ends_bind]
  refine key.mono ?_
  rintro _ h1 ⟨hA1, hch1⟩
  -- the rank-1 update
  have hcol1 : ((A.colPart k (k + 1) (n - (k + 1))).view.scaled minusOne : VecV F).Holds h1
      fun i => minusOne * multiplierF one s k (k + 1 + i) := by
    intro i hi
    have hi : i < n - (k + 1) := hi
    exact ⟨_, hA1 (k + 1 + i) k (by omega) (by omega) trivial,
      congrArg (minusOne * ·) (if_pos ⟨by omega, rfl⟩)⟩
  have hrow1 : ((A.rowPart k (k + 1) (n - (k + 1))).view : VecV F).Holds h1
      fun j => s k (k + 1 + j) := by
    intro j hj
    have hj : j < n - (k + 1) := hj
    exact ⟨_, hA1 k (k + 1 + j) (by omega) (by omega) trivial,
      if_neg (by omega)⟩
  have hblk : (A.block (k + 1) (k + 1) (n - (k + 1)) (n - (k + 1))).Holds h1
      fun i j => s (k + 1 + i) (k + 1 + j) := by
    intro i j hi hj _
    have hi : i < n - (k + 1) := hi
    have hj : j < n - (k + 1) := hj
    refine (hA1 (k + 1 + i) (k + 1 + j) (by omega) (by omega) trivial).trans ?_
    exact congrArg some (if_neg (by omega))
  refine (C25_ger _ _ _ h1 _ _ _ hcol1 hrow1 hblk le_rfl le_rfl
    (Mat.Unique.block hu (by omega) (by omega)) ?_ ?_).mono ?_
  · rintro p ⟨i, hi, rfl⟩ hp
    have hi : i < n - (k + 1) := hi
    have := (Mat.cell_mblock hu (i' := k + 1 + i) (j' := k) (by omega) (by omega) (by omega)
      (by omega)).1 hp
    omega
  · rintro p ⟨j, hj, rfl⟩ hp
    have hj : j < n - (k + 1) := hj
    have := (Mat.cell_mblock hu (i' := k) (j' := k + 1 + j) (by omega) (by omega) (by omega)
      (by omega)).1 hp
    omega
  · rintro _ h2 ⟨hv, hch⟩
    refine ⟨hA1.patch hch _ (fun i j hi hj hp => ?_) (fun i j hi hj hp => ?_),
      hch1.trans' (hch.mono (Mat.block_sub (by omega) (by omega)))⟩
    · rw [← Mat.Cell, Mat.cell_mblock hu (by omega) (by omega) hi hj] at hp
      have := hv (i - (k + 1)) (j - (k + 1)) (show i - (k + 1) < n - (k + 1) by omega)
        (show j - (k + 1) < n - (k + 1) by omega) trivial
      rw [show (A.block (k + 1) (k + 1) (n - (k + 1)) (n - (k + 1))).addr (i - (k + 1))
          (j - (k + 1)) = A.addr i j by
        show A.addr (k + 1 + (i - (k + 1))) (k + 1 + (j - (k + 1))) = _
        rw [show k + 1 + (i - (k + 1)) = i by omega, show k + 1 + (j - (k + 1)) = j by omega]] at this
      beta_reduce at this
      rw [show k + 1 + (i - (k + 1)) = i by omega, show k + 1 + (j - (k + 1)) = j by omega] at this
      rw [this, eliminatedF, if_neg (by omega), if_pos (by omega)]
    · rw [← Mat.Cell, Mat.cell_mblock hu (by omega) (by omega) hi hj] at hp
      unfold eliminatedF
      by_cases q : k < i ∧ j = k
      · rw [if_pos q, if_pos q]
      · rw [if_neg q, if_neg q, if_neg (by omega)]

/-- One step of the factorisation with interchanges. -/
theorem ends_pivotStepF [AbsOps F] {one minusOne : F} {sizeMax : Nat} {A B : Mat} {n k : Nat}
    {h : Heap F} {s b : Nat → Nat → F} (hA : A.Holds h s) (hB : B.Holds h b) (hr : A.rows = n)
    (hc : A.cols = n) (hBr : B.rows = n) (hu : A.Unique) (huB : B.Unique) (hAB : Apart A.Cell B.Cell)
    (hk : k < n) :
    Ends (do
        let r ← vectorIdxAbsMax sizeMax (A.colPart k k (n - k)).view
        swap1 (A.rowPart k 0 n) (A.rowPart (k + r) 0 n)
        swap1 (B.rowPart k 0 B.cols) (B.rowPart (k + r) 0 B.cols)
        luStepF one minusOne A n k) h fun _ h' => ∃ r, k ≤ r ∧ r < n ∧
      (∀ i, k ≤ i → i < n → idxMagnitude (s i k) ≤ idxMagnitude (s r k)) ∧
      A.Holds h' (eliminatedF one minusOne (fun i j => s (Equiv.swap k r i) j) k) ∧
      B.Holds h' (fun i j => b (Equiv.swap k r i) j) ∧
      OnlyChanges (fun p => A.Cell p ∨ B.Cell p) h h' := by
  have hcol : (A.colPart k k (n - k)).Holds h fun i => s (k + i) k :=
    hA.colPart (by omega) (by omega)
  rw [ends_bind]
  refine (idx_abs_max_aux sizeMax _ h _ hcol.asView
    (show n - k ≠ 0 by omega)).mono ?_
  rintro r h1' ⟨⟨hr1, hr2, -⟩, rfl⟩
  have hr1 : r < n - k := hr1
  rw [ends_bind]
  refine (ends_swapRows hA hu (p := k) (q := k + r) (by omega) (by omega) hc.symm).mono ?_
  rintro _ h2 ⟨hA2, hch2⟩
  have hB2 : B.Holds h2 b := fun i j hi hj _ => by
    rw [hch2 _ fun q => hAB _ q ⟨i, j, hi, hj, trivial, rfl⟩, hB i j hi hj trivial]
  rw [ends_bind]
  refine (ends_swapRows hB2 huB (p := k) (q := k + r) (by omega) (by omega) rfl).mono ?_
  rintro _ h3 ⟨hB3, hch3⟩
  have hA3 : A.Holds h3 fun i j => s (Equiv.swap k (k + r) i) j := fun i j hi hj _ => by
    rw [hch3 _ fun q => hAB _ ⟨i, j, hi, hj, trivial, rfl⟩ q, hA2 i j hi hj trivial]
  refine (ends_luStepF hA3 hr hc hu hk).mono ?_
  rintro _ h4 ⟨hA4, hch4⟩
  refine ⟨k + r, by omega, by omega, fun i hi hin => ?_, hA4, fun i j hi hj _ => ?_, ?_⟩
  · have q := hr2 (i - k) (show _ < n - k by omega)
    beta_reduce at q
    rwa [show k + (i - k) = i by omega] at q
  · rw [hch4 _ fun q => hAB _ q ⟨i, j, hi, hj, trivial, rfl⟩, hB3 i j hi hj trivial]
  · exact (hch2.mono fun _ => Or.inl).trans' ((hch3.mono fun _ => Or.inr).trans'
      (hch4.mono fun _ => Or.inl))

/-! ## Backward error -/

variable [Zero F] [Sub F] [NormedField K] {val : F → K} {u : ℝ}

/-- The growth of an error by one operation. -/
noncomputable def growth (u : ℝ) : ℝ := (1 + u) / (1 - u)

theorem growth_facts (hu : 0 ≤ u) (h1 : u < 1) :
    1 ≤ growth u ∧ 1 + u ≤ growth u ∧ 1 / (1 - u) ≤ growth u := by
  have hpos : 0 < 1 - u := by linarith
  unfold growth
  refine ⟨(one_le_div hpos).2 (by linarith), (le_div_iff₀ hpos).2 (by nlinarith),
    div_le_div_of_nonneg_right (by linarith) hpos.le⟩

/-- The elements of `a` with permuted rows are sums of products of the finished factors, each product
changed by a few rounding errors, plus the unfinished rest, changed by rounding errors. -/
def NearFactors (val : F → K) (ρ : ℝ) (n : Nat) (a s : Nat → Nat → F) (σ : Equiv.Perm Nat)
    (k : Nat) : Prop :=
  (∀ m, m < k → val (s m m) ≠ 0) → ∀ i j, i < n → j < n → ∃ (θ : Nat → K) (π : K),
    (∀ m, m < k → Near (ρ ^ (m + 2)) (θ m)) ∧ Near (ρ ^ k) π ∧
    val (a (σ i) j) = (∑ m ∈ range k, triOf .lower .implicitUnit (fun i j => val (s i j)) i m *
      triOf .upper .explicit (fun i j => val (s i j)) m j * θ m) +
        if k ≤ i ∧ k ≤ j then val (s i j) * π else 0

omit [Add F] [Mul F] [Div F] [Zero F] [Sub F] in
theorem NearFactors.swap {ρ : ℝ} {n k p : Nat} {a s : Nat → Nat → F} {σ : Equiv.Perm Nat}
    (H : NearFactors val ρ n a s σ k) (hkp : k ≤ p) (hp : p < n) :
    NearFactors val ρ n a (fun i j => s (Equiv.swap k p i) j) (σ * Equiv.swap k p) k := by
  intro hd i j hi hj
  have hτ : Equiv.swap k p i < n := by
    rw [Equiv.swap_apply_def]; split_ifs <;> omega
  have hlo : ∀ m, m < k → Equiv.swap k p m = m := fun m hm => by
    rw [Equiv.swap_apply_def]; split_ifs <;> omega
  have hhi : k ≤ i → k ≤ Equiv.swap k p i := fun hi => by
    rw [Equiv.swap_apply_def]; split_ifs <;> omega
  obtain ⟨θ, π, hθ, hπ, e⟩ := H (fun m hm => by have := hd m hm; beta_reduce at this; rwa [hlo m hm] at this) _ j hτ hj
  refine ⟨θ, π, hθ, hπ, ?_⟩
  rw [Equiv.Perm.mul_apply, e]
  congr 1
  · refine sum_congr rfl fun m hm => ?_
    have hm := mem_range.1 hm
    congr 1
    rw [tri_upper, tri_upper]
    beta_reduce
    rw [hlo m hm]
    congr 1
    by_cases e : i < k
    · rw [hlo i e, tri_lower_unit, tri_lower_unit, hlo i e]
    · have := hhi (by omega)
      rw [tri_lower_unit, tri_lower_unit, if_neg (c := i = m) (by omega),
        if_neg (c := _ = m) (by omega), if_pos (c := m ≤ i) (by omega),
        if_pos (c := m ≤ _) (by omega)]
  · by_cases e : i < k
    · rw [hlo i e, if_neg (by omega), if_neg (by omega)]
    · have := hhi (by omega)
      by_cases e' : k ≤ j
      · rw [if_pos ⟨this, e'⟩, if_pos ⟨by omega, e'⟩]
      · rw [if_neg (by omega), if_neg (by omega)]

/-- What a step does to an element right of and below the pivot. -/
theorem Rounded.update_back (R : Rounded val u) (h1 : u < 1) {minusOne : F} (hm : val minusOne = -1)
    (s l r : F) : ∃ ε η : K, Near (growth u ^ 2) ε ∧ Near (growth u) η ∧
      val s = val l * val r * ε + val (s + minusOne * l * r) * η := by
  obtain ⟨g1, g2, g3⟩ := growth_facts R.nonneg h1
  obtain ⟨δ1, h1', e1⟩ := R.mul minusOne l
  obtain ⟨δ2, h2', e2⟩ := R.mul (minusOne * l) r
  obtain ⟨δ3, h3', e3⟩ := R.add s (minusOne * l * r)
  have h0 := round_ne_zero h1 h3'
  refine ⟨(1 + δ1) * (1 + δ2), (1 + δ3)⁻¹, ?_, (near_inv R.nonneg h1 h3').mono g3, ?_⟩
  · rw [pow_two]
    exact ((near_round R.nonneg h1').mono g2).mul ((near_round R.nonneg h2').mono g2)
  · rw [e3, e2, e1, hm]
    field_simp
    ring

/-- What a step does to an element below the pivot. -/
theorem Rounded.multiplier_back (R : Rounded val u) (h1 : u < 1) {one : F} (ho : val one = 1)
    (s p : F) (hp : val p ≠ 0) : ∃ ε : K, Near (growth u ^ 2) ε ∧
      val s = val (s * (one / p)) * val p * ε := by
  obtain ⟨g1, g2, g3⟩ := growth_facts R.nonneg h1
  obtain ⟨δ1, h1', e1⟩ := R.div one p hp
  obtain ⟨δ2, h2', e2⟩ := R.mul s (one / p)
  have q1 := round_ne_zero h1 h1'
  have q2 := round_ne_zero h1 h2'
  refine ⟨(1 + δ1)⁻¹ * (1 + δ2)⁻¹, ?_, ?_⟩
  · rw [pow_two]
    exact ((near_inv R.nonneg h1 h1').mono g3).mul ((near_inv R.nonneg h1 h2').mono g3)
  · rw [e2, e1, ho]
    field_simp

theorem NearFactors.step (R : Rounded val u) (h1 : u < 1) {one minusOne : F} (ho : val one = 1)
    (hmo : val minusOne = -1) {n k : Nat} {a s : Nat → Nat → F} {σ : Equiv.Perm Nat}
    (H : NearFactors val (growth u) n a s σ k) :
    NearFactors val (growth u) n a (eliminatedF one minusOne s k) σ (k + 1) := by
  intro hd i j hi hj
  obtain ⟨g1, g2, g3⟩ := growth_facts R.nonneg h1
  have ediag : ∀ m, m < k + 1 → eliminatedF one minusOne s k m m = s m m := fun m hm => by
    rw [eliminatedF, if_neg (by omega), if_neg (by omega)]
  have hd' : ∀ m, m < k + 1 → val (s m m) ≠ 0 := fun m hm => by
    have := hd m hm; rwa [ediag m hm] at this
  have hpiv := hd' k (by omega)
  obtain ⟨θ, π, hθ, hπ, e⟩ := H (fun m hm => hd' m (by omega)) i j hi hj
  -- the new term and the new rest
  have key : ∃ ε η : K, Near (growth u ^ 2) ε ∧ Near (growth u) η ∧
      (if k ≤ i ∧ k ≤ j then val (s i j) else 0) =
        triOf .lower .implicitUnit (fun i j => val (eliminatedF one minusOne s k i j)) i k *
          triOf .upper .explicit (fun i j => val (eliminatedF one minusOne s k i j)) k j * ε +
        (if k + 1 ≤ i ∧ k + 1 ≤ j then val (eliminatedF one minusOne s k i j) * η else 0) := by
    have one_near : Near (growth u) (1 : K) := near_one.mono g1
    have one_near2 : Near (growth u ^ 2) (1 : K) := near_one.mono (one_le_pow₀ g1)
    have erow : eliminatedF one minusOne s k k j = s k j := by
      rw [eliminatedF, if_neg (by omega), if_neg (by omega)]
    rw [tri_upper, tri_lower_unit, erow]
    rcases Nat.lt_trichotomy i k with q | q | q
    · refine ⟨1, 1, one_near2, one_near, ?_⟩
      rw [if_neg (c := k ≤ i ∧ _) (by omega), if_neg (c := i = k) (by omega),
        if_neg (c := k ≤ i) (by omega), if_neg (c := k + 1 ≤ i ∧ _) (by omega)]
      ring
    · subst q
      refine ⟨1, 1, one_near2, one_near, ?_⟩
      rw [if_pos (c := i = i) rfl, if_neg (c := _ + 1 ≤ _ ∧ _) (by omega)]
      by_cases hij : i ≤ j
      · rw [if_pos ⟨le_rfl, hij⟩, if_pos hij]; ring
      · rw [if_neg (by omega), if_neg hij]; ring
    · have ecol : eliminatedF one minusOne s k i k = multiplierF one s k i := by
        rw [eliminatedF, if_pos ⟨q, rfl⟩]
      rw [if_neg (c := i = k) (by omega), if_pos (c := k ≤ i) q.le, ecol]
      rcases Nat.lt_trichotomy j k with w | w | w
      · refine ⟨1, 1, one_near2, one_near, ?_⟩
        rw [if_neg (by omega), if_neg (by omega), if_neg (by omega)]; ring
      · subst w
        obtain ⟨ε, hε, eε⟩ := R.multiplier_back h1 ho (s i j) (s j j) hpiv
        refine ⟨ε, 1, hε, one_near, ?_⟩
        rw [if_pos ⟨q.le, le_rfl⟩, if_pos le_rfl, if_neg (by omega), add_zero]
        exact eε
      · obtain ⟨ε, η, hε, hη, e'⟩ := R.update_back h1 hmo (s i j) (multiplierF one s k i) (s k j)
        refine ⟨ε, η, hε, hη, ?_⟩
        rw [if_pos ⟨q.le, w.le⟩, if_pos w.le, if_pos ⟨q, w⟩, eliminatedF, if_neg (by omega),
          if_pos ⟨q, w⟩]
        exact e'
  obtain ⟨ε, η, hε, hη, e'⟩ := key
  refine ⟨fun m => if m = k then ε * π else θ m, η * π, fun m hm => ?_, ?_, ?_⟩
  · by_cases q : m = k
    · subst q
      simp only [if_pos]
      rw [Nat.add_comm, pow_add]
      exact hε.mul hπ
    · simp only [if_neg q]
      exact hθ m (by omega)
  · rw [pow_succ']
    exact hη.mul hπ
  · have e2 : (if k ≤ i ∧ k ≤ j then val (s i j) * π else 0) =
        (if k ≤ i ∧ k ≤ j then val (s i j) else 0) * π := by rw [ite_mul, zero_mul]
    rw [e, e2, e', sum_range_succ, add_mul, ← add_assoc]
    congr 1
    · congr 1
      · refine sum_congr rfl fun m hm => ?_
        have hm := mem_range.1 hm
        beta_reduce
        rw [if_neg (by omega), tri_upper, tri_upper, tri_lower_unit, tri_lower_unit]
        have e1 : eliminatedF one minusOne s k i m = s i m := by
          rw [eliminatedF, if_neg (by omega), if_neg (by omega)]
        have e2 : eliminatedF one minusOne s k m j = s m j := by
          rw [eliminatedF, if_neg (by omega), if_neg (by omega)]
        rw [e1, e2]
      · beta_reduce
        rw [if_pos rfl]
        ring
    · rw [ite_mul, zero_mul]
      by_cases q : k + 1 ≤ i ∧ k + 1 ≤ j
      · rw [if_pos q, if_pos q]; ring
      · rw [if_neg q, if_neg q]

/-- A multiplier with a pivot of largest magnitude. -/
theorem Rounded.multiplier_le (R : Rounded val u) {one : F} (ho : val one = 1)
    (s p : F) (hp : val p ≠ 0) (hle : ‖val s‖ ≤ ‖val p‖) :
    ‖val (s * (one / p))‖ ≤ (1 + u) ^ 2 := by
  obtain ⟨δ1, h1', e1⟩ := R.div one p hp
  obtain ⟨δ2, h2', e2⟩ := R.mul s (one / p)
  have hp' : 0 < ‖val p‖ := norm_pos_iff.2 hp
  have n : ∀ δ : K, ‖δ‖ ≤ u → ‖1 + δ‖ ≤ 1 + u := fun δ hδ =>
    (norm_add_le _ _).trans (by rw [norm_one]; linarith)
  have hu := R.nonneg
  rw [e2, e1, ho, norm_mul, norm_mul, norm_mul, norm_div, norm_one]
  calc ‖val s‖ * (1 / ‖val p‖ * ‖1 + δ1‖) * ‖1 + δ2‖
      = (‖val s‖ / ‖val p‖) * (‖1 + δ1‖ * ‖1 + δ2‖) := by ring
    _ ≤ 1 * ((1 + u) * (1 + u)) := by
        refine mul_le_mul ((div_le_one hp').2 hle) ?_ (by positivity) zero_le_one
        exact mul_le_mul (n _ h1') (n _ h2') (norm_nonneg _) (by linarith)
    _ = (1 + u) ^ 2 := by ring

omit [Add F] [Mul F] [Div F] [Zero F] [Sub F] in
/-- The finished factors. -/
theorem NearFactors.error {ρ : ℝ} (hρ : 1 ≤ ρ) {n : Nat} {a s : Nat → Nat → F}
    {σ : Equiv.Perm Nat} (H : NearFactors val ρ n a s σ n) (hd : ∀ m, m < n → val (s m m) ≠ 0)
    {i j : Nat} (hi : i < n) (hj : j < n) :
    ‖val (a (σ i) j) - mulMat n (triOf .lower .implicitUnit fun i j => val (s i j))
        (triOf .upper .explicit fun i j => val (s i j)) i j‖ ≤
      (ρ ^ (n + 1) - 1) * ∑ m ∈ range n,
        ‖triOf .lower .implicitUnit (fun i j => val (s i j)) i m‖ *
          ‖triOf .upper .explicit (fun i j => val (s i j)) m j‖ := by
  obtain ⟨θ, π, hθ, -, e⟩ := H hd i j hi hj
  rw [e, if_neg (by omega), add_zero, mulMat, ← sum_sub_distrib, mul_sum]
  refine (norm_sum_le _ _).trans (sum_le_sum fun m hm => ?_)
  have hm := mem_range.1 hm
  rw [← mul_sub_one, norm_mul, norm_mul, mul_comm]
  refine mul_le_mul_of_nonneg_right ?_ (by positivity)
  exact (hθ m hm).2.trans (by
    have := pow_le_pow_right₀ hρ (show m + 2 ≤ n + 1 by omega)
    linarith)

omit [Add F] [Mul F] [Div F] [Zero F] [Sub F] in
/-- The product of two perturbed matrices. -/
theorem perturbed_product {P Q : ℝ} (hP : 1 ≤ P) (hQ : 1 ≤ Q) {n i j : Nat} {l w p q : Nat → Nat → K} {x : K}
    (hp : ∀ m, m < n → ‖p i m - l i m‖ ≤ (P - 1) * ‖l i m‖)
    (hq : ∀ m, m < n → ‖q m j - w m j‖ ≤ (P - 1) * ‖w m j‖)
    (hx : ‖x - mulMat n l w i j‖ ≤ (Q - 1) * ∑ m ∈ range n, ‖l i m‖ * ‖w m j‖) :
    ‖mulMat n p q i j - x‖ ≤ (P ^ 2 * Q - 1) * ∑ m ∈ range n, ‖l i m‖ * ‖w m j‖ := by
  have hS : 0 ≤ ∑ m ∈ range n, ‖l i m‖ * ‖w m j‖ := sum_nonneg fun m _ => by positivity
  have h1 : ‖mulMat n p q i j - mulMat n l w i j‖ ≤
      (P ^ 2 - 1) * ∑ m ∈ range n, ‖l i m‖ * ‖w m j‖ := by
    rw [mulMat, mulMat, ← sum_sub_distrib, mul_sum]
    refine (norm_sum_le _ _).trans (sum_le_sum fun m hm => ?_)
    have hm := mem_range.1 hm
    have e : p i m * q m j - l i m * w m j = (p i m - l i m) * (q m j - w m j) +
        ((p i m - l i m) * w m j + l i m * (q m j - w m j)) := by ring
    rw [e]
    have hP' : 0 ≤ P - 1 := by linarith
    calc ‖(p i m - l i m) * (q m j - w m j) +
          ((p i m - l i m) * w m j + l i m * (q m j - w m j))‖
        ≤ ‖p i m - l i m‖ * ‖q m j - w m j‖ +
            (‖p i m - l i m‖ * ‖w m j‖ + ‖l i m‖ * ‖q m j - w m j‖) := by
          refine (norm_add_le _ _).trans (add_le_add (norm_mul_le _ _) ((norm_add_le _ _).trans
            (add_le_add (norm_mul_le _ _) (norm_mul_le _ _))))
      _ ≤ ((P - 1) * ‖l i m‖) * ((P - 1) * ‖w m j‖) +
            (((P - 1) * ‖l i m‖) * ‖w m j‖ + ‖l i m‖ * ((P - 1) * ‖w m j‖)) := by
          refine add_le_add (mul_le_mul (hp m hm) (hq m hm) (norm_nonneg _) (by positivity))
            (add_le_add (mul_le_mul_of_nonneg_right (hp m hm) (norm_nonneg _))
              (mul_le_mul_of_nonneg_left (hq m hm) (norm_nonneg _)))
      _ = (P ^ 2 - 1) * (‖l i m‖ * ‖w m j‖) := by ring
  have h2 : ‖mulMat n p q i j - x‖ ≤
      ((P ^ 2 - 1) + (Q - 1)) * ∑ m ∈ range n, ‖l i m‖ * ‖w m j‖ := by
    rw [show mulMat n p q i j - x = (mulMat n p q i j - mulMat n l w i j) -
      (x - mulMat n l w i j) by ring, add_mul]
    exact (norm_sub_le _ _).trans (add_le_add h1 hx)
  refine h2.trans (mul_le_mul_of_nonneg_right ?_ hS)
  have : 1 ≤ P ^ 2 := one_le_pow₀ hP
  nlinarith

end StdBLAS

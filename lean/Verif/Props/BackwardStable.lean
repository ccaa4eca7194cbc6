import Verif.Lemmas.LuRounding
import Verif.Props.Rounding

/-!
# Property C78: solving linear systems in rounded arithmetic is backward stable

The solver `gesvF` (`Spec/Clients.lean`: Gaussian elimination with partial pivoting and two triangular
solves, all by calls of the library) in an arithmetic with relative error `u` per operation.  What it
returns is the exact solution of a system whose matrix differs from the given one by a small multiple of
the product of the computed factors.
-/

namespace StdBLAS
open Finset Witness
variable {F K : Type} [Zero F] [Add F] [Sub F] [Mul F] [Div F] [NormedField K] [AbsOps F]

/-- The magnitude that `vector_idx_abs_max` compares is that of the number. -/
noncomputable instance {p : ℕ} : AbsOps (Flt p) := ⟨fun x => |x.val|, fun x => x.val, fun _ => 0, true⟩

/-- **C78** LU factorisation with partial pivoting.  Afterwards the array holds factors `L`, `U` and `B` its
rows in another order.  If no pivot was zero, the product of the factors is the matrix with its rows in
that order, up to `((1+u)/(1-u))^(n+1) - 1` times the product of the magnitudes of the factors, and (if the
magnitudes that are compared are those of the numbers) no multiplier exceeds `(1+u)^2`. -/
theorem C78_lu_pivot (val : F → K) (u : ℝ) (R : Rounded val u) (hu1 : u < 1) (one minusOne : F)
    (ho : val one = 1) (hmo : val minusOne = -1) (sizeMax : Nat) (A B : Mat) (n : Nat) (h : Heap F)
    (a b : Nat → Nat → F) (hA : A.Holds h a) (hB : B.Holds h b) (hr : A.rows = n) (hc : A.cols = n)
    (hBr : B.rows = n) (hu : A.Unique) (huB : B.Unique) (hAB : Apart A.Cell B.Cell) :
    Ends (luPivotF one minusOne sizeMax A B n) h fun _ h' =>
      ∃ (s : Nat → Nat → F) (σ : Equiv.Perm Nat),
      A.Holds h' s ∧ B.Holds h' (fun i j => b (σ i) j) ∧
      OnlyChanges (fun p => A.Cell p ∨ B.Cell p) h h' ∧ (∀ i, σ i < n ↔ i < n) ∧
      ((∀ k, k < n → val (s k k) ≠ 0) →
        (∀ i j, i < n → j < n →
          ‖val (a (σ i) j) - mulMat n (triOf .lower .implicitUnit fun i j => val (s i j))
              (triOf .upper .explicit fun i j => val (s i j)) i j‖ ≤
            (((1 + u) / (1 - u)) ^ (n + 1) - 1) * ∑ m ∈ range n,
              ‖triOf .lower .implicitUnit (fun i j => val (s i j)) i m‖ *
                ‖triOf .upper .explicit (fun i j => val (s i j)) m j‖) ∧
        ((∀ x : F, idxMagnitude x = ‖val x‖) →
          ∀ i j, i < n → j < i → ‖val (s i j)‖ ≤ (1 + u) ^ 2)) := by
  refine (ends_forUp_inv (fun k h' => ∃ (s : Nat → Nat → F) (σ : Equiv.Perm Nat),
      A.Holds h' s ∧ B.Holds h' (fun i j => b (σ i) j) ∧
      OnlyChanges (fun p => A.Cell p ∨ B.Cell p) h h' ∧ (∀ i, σ i < n ↔ i < n) ∧
      NearFactors val (growth u) n a s σ k ∧
      ((∀ m, m < k → val (s m m) ≠ 0) → (∀ x : F, idxMagnitude x = ‖val x‖) →
        ∀ i j, i < n → j < i → j < k → ‖val (s i j)‖ ≤ (1 + u) ^ 2))
    (Nat.zero_le n) ?_ ?_).mono ?_
  · rintro k - hk h1 ⟨s, σ, hA1, hB1, hch1, hσ, hP, hQ⟩
    refine (ends_pivotStepF hA1 hB1 hr hc hBr hu huB hAB hk).mono ?_
    rintro _ h4 ⟨r, hr0, hr1, hr2, hA4, hB4, hch4⟩
    refine ⟨_, σ * Equiv.swap k r, hA4, hB4, hch1.trans' hch4, ?_,
      (hP.swap hr0 hr1).step R hu1 ho hmo, ?_⟩
    · intro i
      rw [Equiv.Perm.mul_apply, hσ, Equiv.swap_apply_def]
      split_ifs <;> omega
    · intro hd hmag i j hi hj hjk
      have hlo : ∀ m, m < k → Equiv.swap k r m = m := fun m hm => by
        rw [Equiv.swap_apply_def]; split_ifs <;> omega
      have hd1 : ∀ m, m < k + 1 → val (s (Equiv.swap k r m) m) ≠ 0 := fun m hm => by
        have := hd m hm
        rwa [eliminatedF, if_neg (by omega), if_neg (by omega)] at this
      unfold eliminatedF
      by_cases e : j = k
      · subst e
        rw [if_pos ⟨hj, rfl⟩]
        refine R.multiplier_le ho _ _ (hd1 j (by omega)) ?_
        beta_reduce
        rw [Equiv.swap_apply_left, ← hmag, ← hmag]
        have : j ≤ Equiv.swap j r i ∧ Equiv.swap j r i < n := by
          rw [Equiv.swap_apply_def]; split_ifs <;> omega
        exact hr2 _ this.1 this.2
      · rw [if_neg (by omega), if_neg (by omega)]
        have : j < Equiv.swap k r i ∧ Equiv.swap k r i < n := by
          rw [Equiv.swap_apply_def]; split_ifs <;> omega
        exact hQ (fun m hm => by have := hd1 m (by omega); rwa [hlo m hm] at this) hmag _ j this.2
          this.1 (by omega)
  · refine ⟨a, 1, hA, hB, fun _ _ => rfl, fun i => Iff.rfl, fun _ i j _ _ => ?_,
      fun _ _ i j _ _ hj => absurd hj (Nat.not_lt_zero j)⟩
    refine ⟨fun _ => 1, 1, fun m hm => absurd hm (Nat.not_lt_zero m), ?_, ?_⟩
    · rw [pow_zero]; exact near_one
    · rw [range_zero, sum_empty, if_pos ⟨Nat.zero_le _, Nat.zero_le _⟩, zero_add, mul_one]
      rfl
  · rintro _ h' ⟨s, σ, hA', hB', hch, hσ, hP, hQ⟩
    exact ⟨s, σ, hA', hB', hch, hσ, fun hd =>
      ⟨fun i j hi hj => hP.error (growth_facts R.nonneg hu1).1 hd hi hj,
        fun hmag i j hi hj => hQ hd hmag i j hi hj (by omega)⟩⟩

/-- **C78** The solver: each column of what it returns is the exact solution of a system with the given
right-hand side and a matrix that differs from the given one, element by element, by at most
`((1+u)/(1-u))^(3n+1) - 1` times the product of the magnitudes of the computed factors, which are in `A`
afterwards.  (Assumption: no computed pivot is zero.) -/
theorem C78_gesv (val : F → K) (u : ℝ) (R : Rounded val u) (hu1 : u < 1) (one minusOne : F)
    (ho : val one = 1) (hmo : val minusOne = -1) (sizeMax : Nat) (A B : Mat) (n : Nat) (h : Heap F)
    (a b : Nat → Nat → F) (hA : A.Holds h a) (hB : B.Holds h b) (hr : A.rows = n) (hc : A.cols = n)
    (hBr : B.rows = n) (hu : A.Unique) (huB : B.Unique) (hAB : Apart A.Cell B.Cell) :
    Ends (gesvF one minusOne sizeMax A B n) h fun _ h' =>
      ∃ (s v : Nat → Nat → F) (σ : Equiv.Perm Nat),
      A.Holds h' s ∧ B.Holds h' v ∧ OnlyChanges (fun p => A.Cell p ∨ B.Cell p) h h' ∧
      (∀ i, σ i < n ↔ i < n) ∧
      ((∀ k, k < n → val (s k k) ≠ 0) → ∀ c, c < B.cols → ∃ p : Nat → Nat → K,
        (∀ i j, i < n → j < n → ‖p (σ i) j - val (a (σ i) j)‖ ≤
            (((1 + u) / (1 - u)) ^ (3 * n + 1) - 1) * ∑ m ∈ range n,
              ‖triOf .lower .implicitUnit (fun i j => val (s i j)) i m‖ *
                ‖triOf .upper .explicit (fun i j => val (s i j)) m j‖) ∧
        (∀ i, i < n → ∑ j ∈ range n, p i j * val (v j c) = val (b i c))) ∧
      ((∀ k, k < n → val (s k k) ≠ 0) → (∀ x : F, idxMagnitude x = ‖val x‖) →
        ∀ i j, i < n → j < i → ‖val (s i j)‖ ≤ (1 + u) ^ 2) := by
  unfold gesvF
  rw [ends_bind]
  refine (C78_lu_pivot val u R hu1 one minusOne ho hmo sizeMax A B n h a b hA hB hr hc hBr hu huB
    hAB).mono ?_
  rintro _ h1 ⟨s, σ, hA1, hB1, hch, hσ, hE⟩
  have hal : B.Aligned B := fun i j k l hi hj hk hl e => huB i j k l hi hj trivial hk hl trivial e
  have hall : ∀ {h0 : Heap F} {w : Nat → Nat → F}, B.Holds h0 w → B.Alloc h0 :=
    fun hw i j hi hj _ => ⟨_, hw i j hi hj trivial⟩
  have hAon : ∀ {h0 : Heap F}, A.Holds h0 s → ∀ t d, A.view.HoldsOn h0 (triRegion t d) s :=
    fun hw t d i j hi hj _ => hw.asView i j hi hj trivial
  have hap : ∀ t d, Apart (A.CellOn (triRegion t d)) B.Cell := fun t d p hp =>
    hAB p (by obtain ⟨i, j, hi, hj, -, e⟩ := hp; exact ⟨i, j, hi, hj, trivial, e⟩)
  rw [ends_bind]
  refine (trsmLeft_fold (t := .lower) (d := .implicitUnit) (hAon hA1 _ _) hB1.asView (hall hB1)
    (hr.trans hc.symm) (hr.trans hBr.symm) (le_of_eq (hr.trans hBr.symm)) rfl huB (hap _ _) hal).mono ?_
  rintro _ h2 ⟨y, hy, hys⟩
  have hA2 : A.Holds h2 s := fun i j hi hj _ => by
    rw [hy.2 _ fun q => hAB _ ⟨i, j, hi, hj, trivial, rfl⟩ q, hA1 i j hi hj trivial]
  refine (trsmLeft_fold (t := .upper) (d := .explicit) (hAon hA2 _ _) hy.1.asView (hall hy.1)
    (hr.trans hc.symm) (hr.trans hBr.symm) (le_of_eq (hr.trans hBr.symm)) rfl huB (hap _ _) hal).mono ?_
  rintro _ h3 ⟨v, hv, hvs⟩
  have hA3 : A.Holds h3 s := fun i j hi hj _ => by
    rw [hv.2 _ fun q => hAB _ ⟨i, j, hi, hj, trivial, rfl⟩ q, hA2 i j hi hj trivial]
  have hr' : (A.view : MatV F).rows = n := hr
  have hc' : (A.view : MatV F).cols = n := hc
  rw [hr', hc'] at hys hvs
  refine ⟨s, v, σ, hA3, hv.1, hch.trans' ((hy.2.trans' hv.2).mono fun _ => Or.inr), hσ,
    fun hd c hcc => ?_, fun hd => (hE hd).2⟩
  have hE1 := (hE hd).1
  choose p hp using fun i : Fin n => R.subRow_backward hu1 (t := .lower) (d := .implicitUnit)
    (a := s) (g := fun i => b (σ i) c) (v := fun i => y i c) i.2 (fun e => by cases e)
    (hys c hcc i i.2)
  choose q hq using fun i : Fin n => R.subRow_backward hu1 (t := .upper) (d := .explicit)
    (a := s) (g := fun i => y i c) (v := fun i => v i c) i.2 (fun _ => hd i i.2)
    (hvs c hcc i i.2)
  let p' : Nat → Nat → K := fun i j => if hi : i < n then p ⟨i, hi⟩ j else 0
  let q' : Nat → Nat → K := fun i j => if hi : i < n then q ⟨i, hi⟩ j else 0
  have ep : ∀ i (hi : i < n), p' i = p ⟨i, hi⟩ := fun i hi => by funext j; exact dif_pos hi
  have eq' : ∀ i (hi : i < n), q' i = q ⟨i, hi⟩ := fun i hi => by funext j; exact dif_pos hi
  have hρ := (growth_facts R.nonneg hu1).1
  refine ⟨fun i j => mulMat n p' q' (σ.symm i) j, fun i j hi hj => ?_, fun i hi => ?_⟩
  · beta_reduce
    rw [Equiv.symm_apply_apply]
    have := perturbed_product (P := growth u ^ n) (Q := growth u ^ (n + 1)) (one_le_pow₀ hρ)
      (one_le_pow₀ hρ) (n := n) (i := i) (j := j) (p := p') (q := q')
      (fun m hm => by rw [ep i hi]; exact (hp ⟨i, hi⟩).1 m hm)
      (fun m hm => by rw [eq' m hm]; exact (hq ⟨m, hm⟩).1 j hj) (hE1 i j hi hj)
    rwa [← pow_mul, ← pow_add, show n * 2 + (n + 1) = 3 * n + 1 by omega] at this
  · have hi' : σ.symm i < n := by rw [← hσ, Equiv.apply_symm_apply]; exact hi
    have e : ∑ j ∈ range n, mulMat n p' q' (σ.symm i) j * val (v j c) =
        mulVec n (mulMat n p' q') (fun j => val (v j c)) (σ.symm i) := rfl
    rw [e, mulVec_mulMat]
    have := (hp ⟨σ.symm i, hi'⟩).2
    beta_reduce at this
    rw [Equiv.apply_symm_apply] at this
    rw [← this]
    refine sum_congr rfl fun m hm => ?_
    have hm := mem_range.1 hm
    rw [ep _ hi', mulVec, eq' m hm, (hq ⟨m, hm⟩).2]

/-- **C78** The same in terms of the growth of the elements: if no element of the computed upper factor
exceeds `g` in magnitude, each element of the matrix is changed by at most
`(((1+u)/(1-u))^(3n+1) - 1) n (1+u)^2 g`. -/
theorem C78_gesv_growth (val : F → K) (u : ℝ) (R : Rounded val u) (hu1 : u < 1) (one minusOne : F)
    (ho : val one = 1) (hmo : val minusOne = -1) (hmag : ∀ x : F, idxMagnitude x = ‖val x‖)
    (sizeMax : Nat) (A B : Mat) (n : Nat) (h : Heap F)
    (a b : Nat → Nat → F) (hA : A.Holds h a) (hB : B.Holds h b) (hr : A.rows = n) (hc : A.cols = n)
    (hBr : B.rows = n) (hu : A.Unique) (huB : B.Unique) (hAB : Apart A.Cell B.Cell) :
    Ends (gesvF one minusOne sizeMax A B n) h fun _ h' => ∃ s v : Nat → Nat → F,
      A.Holds h' s ∧ B.Holds h' v ∧ OnlyChanges (fun p => A.Cell p ∨ B.Cell p) h h' ∧
      ∀ g : ℝ, (∀ k, k < n → val (s k k) ≠ 0) → (∀ i j, i ≤ j → j < n → ‖val (s i j)‖ ≤ g) →
      ∀ c, c < B.cols → ∃ p : Nat → Nat → K,
        (∀ i j, i < n → j < n → ‖p i j - val (a i j)‖ ≤
          (((1 + u) / (1 - u)) ^ (3 * n + 1) - 1) * (n * ((1 + u) ^ 2 * g))) ∧
        ∀ i, i < n → ∑ j ∈ range n, p i j * val (v j c) = val (b i c) := by
  refine (C78_gesv val u R hu1 one minusOne ho hmo sizeMax A B n h a b hA hB hr hc hBr hu huB
    hAB).mono ?_
  rintro _ h' ⟨s, v, σ, h1, h2, h3, hσ, h4, h5⟩
  refine ⟨s, v, h1, h2, h3, fun g hd hg c hcc => ?_⟩
  obtain ⟨p, hp, hq⟩ := h4 hd c hcc
  refine ⟨p, fun i j hi hj => ?_, hq⟩
  have hi' : σ.symm i < n := by rw [← hσ, Equiv.apply_symm_apply]; exact hi
  have := hp (σ.symm i) j hi' hj
  rw [Equiv.apply_symm_apply] at this
  refine this.trans (mul_le_mul_of_nonneg_left ?_ ?_)
  · have hu0 := R.nonneg
    have hg0 : 0 ≤ g := (norm_nonneg _).trans (hg j j le_rfl hj)
    have hone : (1 : ℝ) ≤ (1 + u) ^ 2 := one_le_pow₀ (by linarith)
    calc _ ≤ ∑ m ∈ range n, (1 + u) ^ 2 * g := sum_le_sum fun m hm => ?_
      _ = n * ((1 + u) ^ 2 * g) := by rw [sum_const, card_range, nsmul_eq_mul]
    have hm := mem_range.1 hm
    refine mul_le_mul ?_ ?_ (norm_nonneg _) (by positivity)
    · rw [tri_lower_unit]
      split_ifs with e1 e2
      · rw [norm_one]; exact hone
      · exact h5 hd hmag _ m hi' (by omega)
      · rw [norm_zero]; positivity
    · rw [tri_upper]
      split_ifs with e1
      · exact hg m j e1 hj
      · rw [norm_zero]; exact hg0
  · have := one_le_pow₀ (n := 3 * n + 1) (growth_facts R.nonneg hu1).1
    change 0 ≤ growth u ^ (3 * n + 1) - 1
    linarith

/-! ## A case that meets the assumptions

The block 23 26 / 24 27 in floating point with 53 digits: the rows are interchanged, the pivots are 24 and
about 1/8. -/

theorem idxMagnitude_flt {p : ℕ} (x : Flt p) : idxMagnitude x = ‖x.val‖ := rfl

/-- The computed second pivot. -/
theorem second_pivot_ne_zero :
    ((⟨26⟩ : F53) + ⟨-1⟩ * (⟨23⟩ * ((⟨1⟩ : F53) / ⟨24⟩)) * ⟨27⟩).val ≠ 0 := by
  intro h0
  obtain ⟨ε, η, hε, hη, e⟩ := R53.update_back u53 (minusOne := (⟨-1⟩ : F53)) rfl ⟨26⟩
    (⟨23⟩ * ((⟨1⟩ : F53) / ⟨24⟩)) ⟨27⟩
  obtain ⟨ε', hε', e'⟩ := R53.multiplier_back u53 (one := (⟨1⟩ : F53)) rfl ⟨23⟩ ⟨24⟩ (by norm_num)
  rw [h0, zero_mul, add_zero] at e
  generalize ((⟨23⟩ * ((⟨1⟩ : F53) / ⟨24⟩)) : F53).val = l at *
  have g : growth ((2 : ℝ)⁻¹ ^ 53) ^ 2 - 1 ≤ 1 / 1000 := by unfold growth; norm_num
  have h1 := abs_le.1 (hε.2.trans g)
  have h2 := abs_le.1 (hε'.2.trans g)
  change (26 : ℝ) = l * 27 * ε at e
  change (23 : ℝ) = l * 24 * ε' at e'
  have hl : 0 < l := by
    by_contra q
    have : l * 24 * ε' ≤ 0 := by nlinarith
    linarith
  have : (26 : ℝ) * 24 * ε' = 23 * 27 * ε := by
    have : l * ((26 : ℝ) * 24 * ε') = l * (23 * 27 * ε) := by
      calc l * ((26 : ℝ) * 24 * ε') = 26 * (l * 24 * ε') := by ring
        _ = (l * 27 * ε) * 23 := by rw [← e', ← e]
        _ = l * (23 * 27 * ε) := by ring
    exact mul_left_cancel₀ hl.ne' this
  linarith

/-- The factors that are in the array afterwards. -/
theorem ends_luPivotF_block : Ends (luPivotF ⟨1⟩ ⟨-1⟩ 100 (A.block 0 0 2 2) W 2) (heap F53) fun _ h' =>
    ∃ s : Nat → Nat → F53, (A.block 0 0 2 2).Holds h' s ∧ ∀ k, k < 2 → (s k k).val ≠ 0 := by
  have hu : (A.block 0 0 2 2).Unique := Mat.Unique.block (by view_facts) (by decide) (by decide)
  have hA : (A.block 0 0 2 2).Holds (heap F53) (mvals F53 (A.block 0 0 2 2)) :=
    mholds fun i j hi hj => by simp only [A, Mat.block] at *; omega
  have hW : W.Holds (heap F53) (mvals F53 W) := mholds bW
  have huW : W.Unique := by view_facts
  have hAW : Apart (A.block 0 0 2 2).Cell W.Cell := fun p hp => by
    have q : Apart A.Cell W.Cell := by view_facts
    exact q p (Mat.block_sub (A := A) (by decide) (by decide) p hp)
  generalize hM : A.block 0 0 2 2 = M at hu hA hAW ⊢
  have hr : M.rows = 2 := by rw [← hM]; rfl
  have hc : M.cols = 2 := by rw [← hM]; rfl
  have e : mvals F53 M 0 0 = ⟨23⟩ ∧ mvals F53 M 1 0 = ⟨24⟩ ∧ mvals F53 M 0 1 = ⟨26⟩ ∧
      mvals F53 M 1 1 = ⟨27⟩ := by
    refine ⟨?_, ?_, ?_, ?_⟩ <;> rw [← hM] <;> exact congrArg Flt.mk (by norm_num [A, Mat.block])
  obtain ⟨e00, e10, e01, e11⟩ := e
  refine (ends_forUp_inv (fun k h' => ∃ s b : Nat → Nat → F53, M.Holds h' s ∧ W.Holds h' b ∧
      (k = 0 → s = mvals F53 M) ∧ (0 < k → (s 0 0).val ≠ 0 ∧ (s 1 1).val ≠ 0))
    (Nat.zero_le 2) ?_ ?_).mono ?_
  · rintro k - hk h1 ⟨s, b, hs, hb, i1, i2⟩
    refine (ends_pivotStepF hs hb hr hc rfl hu huW hAW hk).mono ?_
    rintro _ h4 ⟨r, hr0, hr1, hr2, hA4, hB4, -⟩
    refine ⟨_, _, hA4, hB4, fun q => by omega, fun _ => ?_⟩
    have hk' : k = 0 ∨ k = 1 := by omega
    rcases hk' with rfl | rfl
    · have hs := i1 rfl
      subst hs
      have r1 : r = 1 := by
        by_contra q
        have r0 : r = 0 := by omega
        have := hr2 1 (by omega) (by omega)
        rw [r0, e00, e10, idxMagnitude_flt, idxMagnitude_flt] at this
        norm_num at this
      subst r1
      have s0 : Equiv.swap (0 : Nat) 1 0 = 1 := Equiv.swap_apply_left _ _
      have s1 : Equiv.swap (0 : Nat) 1 1 = 0 := Equiv.swap_apply_right _ _
      constructor
      · rw [eliminatedF, if_neg (by omega), if_neg (by omega), s0, e10]
        norm_num
      · rw [eliminatedF, if_neg (by omega), if_pos (by omega), multiplierF, s0, s1, e01, e00, e10, e11]
        exact second_pivot_ne_zero
    · have r1 : r = 1 := by omega
      subst r1
      rw [Equiv.swap_self]
      exact i2 (by omega)
  · exact ⟨_, _, hA, hW, fun _ => rfl, fun q => absurd q (lt_irrefl 0)⟩
  · rintro _ h' ⟨s, b, hs, -, -, i2⟩
    refine ⟨s, hs, fun k hk => ?_⟩
    have := i2 (by omega)
    interval_cases k
    · exact this.1
    · exact this.2

/-- The assumption about the pivots is met here. -/
example : Ends (luPivotF ⟨1⟩ ⟨-1⟩ 100 (A.block 0 0 2 2) W 2) (heap F53) fun _ h' =>
    ∃ (s : Nat → Nat → F53) (σ : Equiv.Perm Nat), (A.block 0 0 2 2).Holds h' s ∧
      (∀ i j, i < 2 → j < 2 →
        ‖(mvals F53 (A.block 0 0 2 2) (σ i) j).val -
            mulMat 2 (triOf .lower .implicitUnit fun i j => (s i j).val)
              (triOf .upper .explicit fun i j => (s i j).val) i j‖ ≤
          (((1 + (2 : ℝ)⁻¹ ^ 53) / (1 - (2 : ℝ)⁻¹ ^ 53)) ^ 3 - 1) * ∑ m ∈ range 2,
            ‖triOf .lower .implicitUnit (fun i j => (s i j).val) i m‖ *
              ‖triOf .upper .explicit (fun i j => (s i j).val) m j‖) ∧
      ∀ i j, i < 2 → j < i → ‖(s i j).val‖ ≤ (1 + (2 : ℝ)⁻¹ ^ 53) ^ 2 := by
  refine ((C78_lu_pivot _ _ R53 u53 ⟨1⟩ ⟨-1⟩ rfl rfl 100 (A.block 0 0 2 2) W 2 _ _ _
    (mholds fun i j hi hj => by simp only [A, Mat.block] at *; omega) (mholds bW) rfl rfl rfl
    (Mat.Unique.block (by view_facts) (by decide) (by decide)) (by view_facts) ?_).and
      ends_luPivotF_block).mono ?_
  · intro p hp
    have q : Apart A.Cell W.Cell := by view_facts
    exact q p (Mat.block_sub (A := A) (by decide) (by decide) p hp)
  · rintro _ h' ⟨⟨s, σ, hs, -, -, -, hE⟩, s', hs', hd⟩
    have hd' : ∀ k, k < 2 → (s k k).val ≠ 0 := fun k hk => by
      have e := (hs k k hk hk trivial).symm.trans (hs' k k hk hk trivial)
      rw [Option.some.inj e]
      exact hd k hk
    exact ⟨s, σ, hs, (hE hd').1, (hE hd').2 idxMagnitude_flt⟩

example : Ends (gesvF ⟨1⟩ ⟨-1⟩ 100 (A.block 0 0 2 2) W 2) (heap F53) fun _ h' =>
    ∃ s v : Nat → Nat → F53, (A.block 0 0 2 2).Holds h' s ∧ W.Holds h' v ∧
      OnlyChanges (fun p => (A.block 0 0 2 2).Cell p ∨ W.Cell p) (heap F53) h' ∧
      ∀ g : ℝ, (∀ k, k < 2 → (s k k).val ≠ 0) → (∀ i j, i ≤ j → j < 2 → ‖(s i j).val‖ ≤ g) →
      ∀ c, c < 3 → ∃ p : Nat → Nat → ℝ,
        (∀ i j, i < 2 → j < 2 → ‖p i j - (mvals F53 (A.block 0 0 2 2) i j).val‖ ≤
          (((1 + (2 : ℝ)⁻¹ ^ 53) / (1 - (2 : ℝ)⁻¹ ^ 53)) ^ 7 - 1) *
            ((2 : ℕ) * ((1 + (2 : ℝ)⁻¹ ^ 53) ^ 2 * g))) ∧
        ∀ i, i < 2 → ∑ j ∈ range 2, p i j * (v j c).val = (mvals F53 W i c).val := by
  refine C78_gesv_growth _ _ R53 u53 ⟨1⟩ ⟨-1⟩ rfl rfl idxMagnitude_flt 100 (A.block 0 0 2 2) W 2 _ _ _
    (mholds fun i j hi hj => by simp only [A, Mat.block] at *; omega) (mholds bW) rfl rfl rfl
    (Mat.Unique.block (by view_facts) (by decide) (by decide)) (by view_facts) ?_
  intro p hp
  have q : Apart A.Cell W.Cell := by view_facts
  exact q p (Mat.block_sub (A := A) (by decide) (by decide) p hp)

example := C78_gesv _ _ R53 u53 ⟨1⟩ ⟨-1⟩ rfl rfl 100 (A.block 0 0 2 2) W 2 (heap F53) _ _
  (mholds fun i j hi hj => by simp only [A, Mat.block] at *; omega) (mholds bW) rfl rfl rfl
  (Mat.Unique.block (by view_facts) (by decide) (by decide)) (by view_facts) (by
    intro p hp
    have q : Apart A.Cell W.Cell := by view_facts
    exact q p (Mat.block_sub (A := A) (by decide) (by decide) p hp))

end StdBLAS

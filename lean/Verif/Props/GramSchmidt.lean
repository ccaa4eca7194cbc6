import Verif.Props.Cholesky
import Verif.Props.Blas1Reductions
import Verif.Props.Blas2Products
import Verif.Props.Blas2Solve
import Verif.Props.RankUpdates
import Verif.Props.Levels
import Mathlib.Tactic.Positivity

/-!
# Property C75: QR factorisation by the method of Gram and Schmidt, written with the library
-/

namespace StdBLAS
open Finset Witness

/-- The length of column `k`. -/
noncomputable def colNorm (m : Nat) (s : Nat → Nat → ℝ) (k : Nat) : ℝ :=
  Real.sqrt (∑ p ∈ range m, s p k ^ 2)

/-- The products of the normalised column `k` with column `j`. -/
noncomputable def colDot (m : Nat) (s : Nat → Nat → ℝ) (k j : Nat) : ℝ :=
  ∑ p ∈ range m, s p j * (s p k * (1 / colNorm m s k))

/-- The columns after step `k`. -/
noncomputable def gsColumns (m : Nat) (s : Nat → Nat → ℝ) (k p j : Nat) : ℝ :=
  if j = k then s p k * (1 / colNorm m s k)
  else if k < j then s p j + -1 * (s p k * (1 / colNorm m s k)) * colDot m s k j
  else s p j

/-- The triangular factor after step `k`. -/
noncomputable def gsFactor (m : Nat) (s r : Nat → Nat → ℝ) (k i j : Nat) : ℝ :=
  if i = k ∧ j = k then colNorm m s k
  else if i = k ∧ k < j then colDot m s k j
  else r i j

theorem ends_gsStep {Q R : Mat} {m n k : Nat} {h : Heap ℝ} {s r : Nat → Nat → ℝ} (hQ : Q.Holds h s)
    (hR : R.Holds h r) (hQr : Q.rows = m) (hQc : Q.cols = n) (hRr : R.rows = n) (hRc : R.cols = n)
    (huQ : Q.Unique) (huR : R.Unique) (hap : Apart Q.Cell R.Cell) (hk : k < n) :
    Ends (do
      let r ← vectorTwoNorm (Q.colPart k 0 Q.rows).view 0
      R.set k k r
      scale1 (1 / r) (Q.colPart k 0 Q.rows)
      gemv (Q.block 0 (k + 1) Q.rows (Q.cols - (k + 1))).view.transposed (Q.colPart k 0 Q.rows).view
        (R.rowPart k (k + 1) (Q.cols - (k + 1)))
      ger ((Q.colPart k 0 Q.rows).view.scaled (-1)) (R.rowPart k (k + 1) (Q.cols - (k + 1))).view
        (Q.block 0 (k + 1) Q.rows (Q.cols - (k + 1)))) h fun _ h' =>
      Q.Holds h' (gsColumns m s k) ∧ R.Holds h' (gsFactor m s r k) ∧
        OnlyChanges (fun p => Q.Cell p ∨ R.CellOn Triangle.upper.region p) h h' := by
  rw [hQr, hQc, ends_bind]
  have hcol : (Q.colPart k 0 m).Holds h fun i => s i k := by
    have := hQ.colPart (j := k) (i0 := 0) (m := m) (by omega) (by omega)
    simpa only [Nat.zero_add] using this
  have notR : ∀ i j, i < Q.rows → j < Q.cols → ¬ R.Cell (Q.addr i j) := fun i j hi hj q =>
    hap _ ⟨i, j, hi, hj, trivial, rfl⟩ q
  have notQ : ∀ i j, i < R.rows → j < R.cols → ¬ Q.Cell (R.addr i j) := fun i j hi hj q =>
    hap _ q ⟨i, j, hi, hj, trivial, rfl⟩
  refine (C04_two_norm _ 0 h _ hcol.asView).mono ?_
  rintro ν h0 ⟨hν, e0⟩
  rw [e0]
  have hν : ν = colNorm m s k := by
    rw [hν, zero_add]
    unfold colNorm
    congr 1
    exact sum_congr rfl fun p _ => sq_abs _
  -- the diagonal element
  rw [ends_bind, ends_mat_set]
  have hkk := hR k k (by omega) (by omega) trivial
  refine ⟨⟨by omega, by omega⟩, ⟨_, hkk⟩, ?_⟩
  set h1 := Function.update h (R.addr k k) (some ν) with hh1
  have hch1 : OnlyChanges (fun a => a = R.addr k k) h h1 := fun a ha => by
    rw [hh1, Function.update_of_ne ha]
  have hR1 : R.Holds h1 (fun i j => if i = k ∧ j = k then colNorm m s k else r i j) := by
    refine hR.patch hch1 _ (fun i j hi hj e => ?_) (fun i j hi hj e => ?_)
    · obtain ⟨rfl, rfl⟩ := huR i j k k hi hj trivial (by omega) (by omega) trivial e
      rw [hh1, Function.update_self, if_pos ⟨rfl, rfl⟩, hν]
    · exact if_neg fun q => e (by rw [q.1, q.2])
  have hQ1 : Q.Holds h1 s := fun i j hi hj _ => by
    rw [hch1 _ fun e => notR i j hi hj ⟨k, k, by omega, by omega, trivial, e.symm⟩]
    exact hQ i j hi hj trivial
  have hcol1 : (Q.colPart k 0 m).Holds h1 fun i => s i k := by
    have := hQ1.colPart (j := k) (i0 := 0) (m := m) (by omega) (by omega)
    simpa only [Nat.zero_add] using this
  -- the scaling
  rw [ends_bind]
  refine (C11_scale_vector (1 / ν) _ h1 _ hcol1 (huQ.colPart (by omega) (by omega))).mono ?_
  rintro _ h2 ⟨hv2, hch2⟩
  have hQ2 : Q.Holds h2 (fun p j => if j = k then s p k * (1 / colNorm m s k) else s p j) := by
    refine hQ1.patch hch2 _ (fun i j hi hj e => ?_) (fun i j hi hj e => ?_)
    · rw [Mat.cell_colPart huQ (by omega) (by omega) hi hj] at e
      obtain ⟨rfl, -, -⟩ := e
      have := hv2 i (show i < m by omega)
      rw [show (Q.colPart j 0 m).addr i = Q.addr i j by
        show Q.addr (0 + i) j = _
        rw [Nat.zero_add]] at this
      rw [this, if_pos rfl, hν]
    · rw [Mat.cell_colPart huQ (by omega) (by omega) hi hj] at e
      exact if_neg fun q => e ⟨q, by omega, by omega⟩
  have hR2 : R.Holds h2 (fun i j => if i = k ∧ j = k then colNorm m s k else r i j) := fun i j hi hj _ => by
    rw [hch2 _ fun e => notQ i j hi hj (Mat.colPart_sub (by omega) (by omega) _ e)]
    exact hR1 i j hi hj trivial
  -- the products with the columns to the right
  rw [ends_bind]
  have hblk : (Q.block 0 (k + 1) m (n - (k + 1))).Holds h2 fun i j => s i (k + 1 + j) := by
    intro i j hi hj _
    have hi : i < m := hi
    have hj : j < n - (k + 1) := hj
    have := hQ2 i (k + 1 + j) (by omega) (by omega) trivial
    beta_reduce at this
    rw [if_neg (by omega)] at this
    show h2 (Q.addr (0 + i) (k + 1 + j)) = _
    rwa [Nat.zero_add]
  have hcol2 : (Q.colPart k 0 m).Holds h2 fun i => s i k * (1 / colNorm m s k) := by
    intro i hi
    have hi : i < m := hi
    have := hQ2 i k (by omega) (by omega) trivial
    beta_reduce at this
    rw [if_pos rfl] at this
    show h2 (Q.addr (0 + i) k) = _
    rwa [Nat.zero_add]
  have hrow2 : (R.rowPart k (k + 1) (n - (k + 1))).Holds h2 _ := hR2.rowPart (by omega) (by omega)
  refine (C16_gemv (Q.block 0 (k + 1) m (n - (k + 1))).view.transposed (Q.colPart k 0 m).view
    (R.rowPart k (k + 1) (n - (k + 1))) h2 (fun i j => s j (k + 1 + i)) _
    (MatV.Holds.transposed (A := (Q.block 0 (k + 1) m (n - (k + 1))).view) 
      fun i j hi hj _ => ⟨_, hblk i j hi hj trivial, rfl⟩)
    hcol2.asView (fun i hi => ⟨_, hrow2 i hi⟩) rfl le_rfl (huR.rowPart (by omega) (by omega)) ?_ ?_).mono ?_
  · rintro p ⟨i, j, hi, hj, -, rfl⟩ hp
    exact hap _ (Mat.block_sub (i0 := 0) (j0 := k + 1) (r := m) (c := n - (k + 1)) (by omega) (by omega) _
      ⟨j, i, hj, hi, trivial, rfl⟩) (Mat.rowPart_sub (by omega) (by omega) _ hp)
  · rintro p hp hq
    exact hap _ (Mat.colPart_sub (by omega) (by omega) _ hp) (Mat.rowPart_sub (by omega) (by omega) _ hq)
  rintro _ h3 ⟨hv3, hch3⟩
  have hrow3 : (R.rowPart k (k + 1) (n - (k + 1))).Holds h3 fun i => colDot m s k (k + 1 + i) := hv3
  have hR3 : R.Holds h3 (gsFactor m s r k) := by
    refine hR2.patch hch3 _ (fun i j hi hj e => ?_) (fun i j hi hj e => ?_)
    · rw [Mat.cell_rowPart huR (by omega) (by omega) hi hj] at e
      obtain ⟨rfl, h4, h5⟩ := e
      have := hrow3 (j - (i + 1)) (show j - (i + 1) < n - (i + 1) by omega)
      rw [show (R.rowPart i (i + 1) (n - (i + 1))).addr (j - (i + 1)) = R.addr i j by
        show R.addr i (i + 1 + (j - (i + 1))) = _
        rw [show i + 1 + (j - (i + 1)) = j by omega]] at this
      beta_reduce at this
      rw [show i + 1 + (j - (i + 1)) = j by omega] at this
      rw [this, gsFactor, if_neg (by omega), if_pos ⟨rfl, by omega⟩]
    · rw [Mat.cell_rowPart huR (by omega) (by omega) hi hj] at e
      unfold gsFactor
      by_cases q : i = k ∧ j = k
      · rw [if_pos q, if_pos q]
      · rw [if_neg q, if_neg q, if_neg (by omega)]
  have keep : ∀ i j, i < Q.rows → j < Q.cols → h3 (Q.addr i j) = h2 (Q.addr i j) := fun i j hi hj =>
    hch3 _ fun e => notR i j hi hj (Mat.rowPart_sub (by omega) (by omega) _ e)
  have hQ3 : Q.Holds h3 (fun p j => if j = k then s p k * (1 / colNorm m s k) else s p j) :=
    fun i j hi hj _ => by rw [keep i j hi hj]; exact hQ2 i j hi hj trivial
  have hblk3 : (Q.block 0 (k + 1) m (n - (k + 1))).Holds h3 fun i j => s i (k + 1 + j) := by
    intro i j hi hj _
    have hi' : i < m := hi
    have hj' : j < n - (k + 1) := hj
    exact (keep (0 + i) (k + 1 + j) (by omega) (by omega)).trans (hblk i j hi hj trivial)
  have hcol3 : ((Q.colPart k 0 m).view.scaled (-1) : VecV ℝ).Holds h3
      fun i => -1 * (s i k * (1 / colNorm m s k)) := by
    intro i hi
    have hi' : i < m := hi
    exact ⟨_, (keep (0 + i) k (by omega) (by omega)).trans (hcol2 i hi), rfl⟩
  -- the rank-1 update
  refine (C25_ger _ _ _ h3 _ _ _ hcol3 hrow3.asView hblk3 le_rfl le_rfl
    (Mat.Unique.block huQ (by omega) (by omega)) ?_ ?_).mono ?_
  · rintro p ⟨i, hi, rfl⟩ hp
    have hi : i < m := hi
    have := (Mat.cell_mblock huQ (i' := 0 + i) (j' := k) (by omega) (by omega) (by omega)
      (by omega)).1 hp
    omega
  · intro p hp hq
    exact hap _ (Mat.block_sub (by omega) (by omega) _ hq) (Mat.rowPart_sub (by omega) (by omega) _ hp)
  rintro _ h4 ⟨hv4, hch4⟩
  refine ⟨hQ3.patch hch4 _ (fun i j hi hj e => ?_) (fun i j hi hj e => ?_), fun i j hi hj _ => ?_, ?_⟩
  · rw [← Mat.Cell, Mat.cell_mblock huQ (by omega) (by omega) hi hj] at e
    have := hv4 i (j - (k + 1)) (show i < m by omega) (show j - (k + 1) < n - (k + 1) by omega) trivial
    rw [show (Q.block 0 (k + 1) m (n - (k + 1))).addr i (j - (k + 1)) = Q.addr i j by
      show Q.addr (0 + i) (k + 1 + (j - (k + 1))) = _
      rw [Nat.zero_add, show k + 1 + (j - (k + 1)) = j by omega]] at this
    beta_reduce at this
    rw [show k + 1 + (j - (k + 1)) = j by omega] at this
    rw [this, gsColumns, if_neg (by omega), if_pos (by omega)]
  · rw [← Mat.Cell, Mat.cell_mblock huQ (by omega) (by omega) hi hj] at e
    unfold gsColumns
    by_cases q : j = k
    · rw [if_pos q, if_pos q]
    · rw [if_neg q, if_neg q, if_neg (by omega)]
  · rw [hch4 _ fun e => notQ i j hi hj (Mat.block_sub (by omega) (by omega) _ e)]
    exact hR3 i j hi hj trivial
  · refine OnlyChanges.trans' (hch1.mono ?_) (OnlyChanges.trans' (hch2.mono ?_)
      (OnlyChanges.trans' (hch3.mono ?_) (hch4.mono ?_)))
    · rintro p rfl
      exact Or.inr ⟨k, k, by omega, by omega, show k ≤ k from le_rfl, rfl⟩
    · exact fun p hp => Or.inl (Mat.colPart_sub (by omega) (by omega) p hp)
    · rintro p ⟨j, hj, rfl⟩
      have hj : j < n - (k + 1) := hj
      exact Or.inr ⟨k, k + 1 + j, by omega, by omega, show k ≤ k + 1 + j by omega, rfl⟩
    · exact fun p hp => Or.inl (Mat.block_sub (by omega) (by omega) p hp)

/-- What holds before step `k`: the first `k` columns are orthonormal and orthogonal to the others, the product
of the factors is `a` up to the columns that are left, and the columns are linearly independent. -/
structure GramSchmidtInv (m n : Nat) (a s r : Nat → Nat → ℝ) (k : Nat) : Prop where
  one : ∀ i, i < k → ∑ p ∈ range m, s p i * s p i = 1
  orth : ∀ i j, i < k → j < n → i ≠ j → ∑ p ∈ range m, s p i * s p j = 0
  prod : ∀ p j, p < m → j < n → ∑ l ∈ range k, s p l * (if l ≤ j then r l j else 0) +
    (if k ≤ j then s p j else 0) = a p j
  pos : ∀ i, i < k → 0 < r i i
  rank : ∀ w : Nat → ℝ, (∀ p, p < m → ∑ j ∈ range n, s p j * w j = 0) → ∀ j, j < n → w j = 0

theorem GramSchmidtInv.norm_pos {m n k : Nat} {a s r : Nat → Nat → ℝ} (I : GramSchmidtInv m n a s r k)
    (hk : k < n) : 0 < colNorm m s k := by
  refine Real.sqrt_pos.2 (lt_of_le_of_ne (sum_nonneg fun p _ => sq_nonneg _) fun e => ?_)
  have z := (sum_eq_zero_iff_of_nonneg fun p _ => sq_nonneg (s p k)).1 e.symm
  have := I.rank (fun j => if j = k then 1 else 0) (fun p hp => by
    rw [sum_eq_single_of_mem k (mem_range.2 hk) (fun j _ hne => by simp [hne])]
    simpa using z p (mem_range.2 hp)) k hk
  simp at this

theorem GramSchmidtInv.step {m n k : Nat} {a s r : Nat → Nat → ℝ} (I : GramSchmidtInv m n a s r k)
    (hk : k < n) : GramSchmidtInv m n a (gsColumns m s k) (gsFactor m s r k) (k + 1) := by
  have hν := I.norm_pos hk
  have hsq : ∑ p ∈ range m, s p k * s p k = colNorm m s k * colNorm m s k := by
    unfold colNorm
    rw [Real.mul_self_sqrt (sum_nonneg fun p _ => sq_nonneg _)]
    exact sum_congr rfl fun p _ => (sq (s p k)).symm
  set ν := colNorm m s k with hνdef
  set c : Nat → ℝ := fun p => s p k * (1 / ν) with hc
  have cdef : ∀ j, colDot m s k j = ∑ p ∈ range m, s p j * c p := fun j => rfl
  have low : ∀ p j, j < k → gsColumns m s k p j = s p j := fun p j hj => by
    rw [gsColumns, if_neg (by omega), if_neg (by omega)]
  have at_k : ∀ p, gsColumns m s k p k = c p := fun p => if_pos rfl
  have high : ∀ p j, k < j → gsColumns m s k p j = s p j - c p * colDot m s k j := fun p j hj => by
    rw [gsColumns, if_neg (by omega), if_pos hj]
    ring
  have cc : ∑ p ∈ range m, c p * c p = 1 := by
    have : ∑ p ∈ range m, c p * c p = (∑ p ∈ range m, s p k * s p k) * (1 / ν * (1 / ν)) := by
      rw [sum_mul]
      exact sum_congr rfl fun p _ => by rw [hc]; ring
    rw [this, hsq]
    field_simp
  have sc : ∀ i, i < k → ∑ p ∈ range m, s p i * c p = 0 := fun i hi => by
    have : ∑ p ∈ range m, s p i * c p = (∑ p ∈ range m, s p i * s p k) * (1 / ν) := by
      rw [sum_mul]
      exact sum_congr rfl fun p _ => by rw [hc]; ring
    rw [this, I.orth i k hi hk (by omega), zero_mul]
  have ch : ∀ j, k < j → ∑ p ∈ range m, c p * gsColumns m s k p j = 0 := fun j hj => by
    have : ∑ p ∈ range m, c p * gsColumns m s k p j =
        (∑ p ∈ range m, s p j * c p) - (∑ p ∈ range m, c p * c p) * colDot m s k j := by
      rw [sum_mul, ← sum_sub_distrib]
      exact sum_congr rfl fun p _ => by rw [high p j hj]; ring
    rw [this, cc, cdef]
    ring
  refine ⟨fun i hi => ?_, fun i j hi hj hne => ?_, fun p j hp hj => ?_, fun i hi => ?_, fun w hw => ?_⟩
  · rcases Nat.lt_or_eq_of_le (Nat.le_of_lt_succ hi) with e | rfl
    · simp only [low _ _ e]
      exact I.one i e
    · simp only [at_k]
      exact cc
  · rcases Nat.lt_or_eq_of_le (Nat.le_of_lt_succ hi) with e | rfl
    · simp only [low _ _ e]
      rcases Nat.lt_trichotomy j k with e' | rfl | e'
      · simp only [low _ _ e']
        exact I.orth i j e hj hne
      · simp only [at_k]
        exact sc i e
      · have : ∑ p ∈ range m, s p i * gsColumns m s k p j =
            (∑ p ∈ range m, s p i * s p j) - (∑ p ∈ range m, s p i * c p) * colDot m s k j := by
          rw [sum_mul, ← sum_sub_distrib]
          exact sum_congr rfl fun p _ => by rw [high p j e']; ring
        rw [this, sc i e, I.orth i j e hj hne]
        ring
    · simp only [at_k]
      rcases Nat.lt_or_gt_of_ne hne with e' | e'
      · exact ch j e'
      · simp only [low _ _ e']
        rw [← sc j e']
        exact sum_congr rfl fun p _ => mul_comm _ _
  · rw [← I.prod p j hp hj, sum_range_succ, add_assoc]
    congr 1
    · refine sum_congr rfl fun l hl => ?_
      have hl := mem_range.1 hl
      have e : gsFactor m s r k l j = r l j := by
        rw [gsFactor, if_neg (by omega), if_neg (by omega)]
      rw [low p l hl, e]
    · rw [at_k]
      rcases Nat.lt_trichotomy j k with e' | rfl | e'
      · rw [if_neg (by omega), if_neg (by omega), if_neg (by omega)]
        ring
      · rw [if_pos le_rfl, if_neg (by omega), if_pos le_rfl, gsFactor, if_pos ⟨rfl, rfl⟩, ← hνdef, hc]
        field_simp
        ring
      · rw [if_pos e'.le, if_pos (by omega), if_pos e'.le, gsFactor, if_neg (by omega), if_pos ⟨rfl, e'⟩,
          high p j e']
        ring
  · rcases Nat.lt_or_eq_of_le (Nat.le_of_lt_succ hi) with e | rfl
    · rw [gsFactor, if_neg (by omega), if_neg (by omega)]
      exact I.pos i e
    · rw [gsFactor, if_pos ⟨rfl, rfl⟩]
      exact hν
  · let v : Nat → ℝ := fun j => if j = k then
      (w k - ∑ l ∈ range n, if k < l then colDot m s k l * w l else 0) * (1 / ν) else w j
    have same : ∀ p, ∑ j ∈ range n, s p j * v j = ∑ j ∈ range n, gsColumns m s k p j * w j := by
      intro p
      have e1 : ∀ j ∈ range n, s p j * v j = (gsColumns m s k p j * w j + (if k < j then
          colDot m s k j * w j else 0) * c p) - (if j = k then c p *
            (∑ l ∈ range n, if k < l then colDot m s k l * w l else 0) else 0) := by
        intro j _
        rcases Nat.lt_trichotomy j k with e' | rfl | e'
        · rw [low p j e', if_neg (by omega), if_neg (by omega), show v j = w j from if_neg (by omega)]
          ring
        · rw [at_k, if_neg (by omega), if_pos rfl, show v j = _ from if_pos rfl, hc]
          ring
        · rw [high p j e', if_pos e', if_neg (by omega), show v j = w j from if_neg (by omega)]
          ring
      rw [sum_congr rfl e1, sum_sub_distrib, sum_add_distrib, ← sum_mul, sum_ite_eq' (range n) k,
        if_pos (mem_range.2 hk)]
      ring
    have z := I.rank v fun p hp => (same p).trans (hw p hp)
    have z' : ∀ j, j < n → j ≠ k → w j = 0 := fun j hj hne => by
      have := z j hj
      rwa [show v j = w j from if_neg hne] at this
    intro j hj
    by_cases e : j = k
    · subst e
      have := z j hj
      rw [show v j = _ from if_pos rfl, sum_eq_zero, sub_zero] at this
      · exact (mul_eq_zero.1 this).resolve_right (by positivity)
      · intro l hl
        split_ifs with q
        · rw [z' l (mem_range.1 hl) (by omega), mul_zero]
        · rfl
    · exact z' j hj e

/-- **C75** QR factorisation by the modified method of Gram and Schmidt (`vector_two_norm`, `scale`,
`matrix_vector_product`, `matrix_rank_1_update`): for every matrix of full column rank `Q` has
orthonormal columns, the upper triangle of `R` has a positive diagonal, and `Q R` is the given matrix; the rest
of `R` is not written. -/
theorem C75_gram_schmidt (Q R : Mat) (m n : Nat) (h : Heap ℝ) (a r₀ : Nat → Nat → ℝ)
    (hQ : Q.Holds h a) (hR : R.Holds h r₀) (hQr : Q.rows = m) (hQc : Q.cols = n) (hRr : R.rows = n)
    (hRc : R.cols = n) (huQ : Q.Unique) (huR : R.Unique) (hap : Apart Q.Cell R.Cell)
    (hrank : ∀ w : Nat → ℝ, (∃ j, j < n ∧ w j ≠ 0) → ∃ i, i < m ∧ ∑ j ∈ range n, a i j * w j ≠ 0) :
    Ends (gramSchmidt Q R) h fun _ h' => ∃ q r, Q.Holds h' q ∧
      R.HoldsOn h' Triangle.upper.region r ∧ (∀ k, k < n → 0 < r k k) ∧
      (∀ i j, i < m → j < n → ∑ k ∈ range n, q i k * triOf .upper .explicit r k j = a i j) ∧
      (∀ i j, i < n → j < n → ∑ p ∈ range m, q p i * q p j = if i = j then 1 else 0) ∧
      OnlyChanges (fun p => Q.Cell p ∨ R.CellOn Triangle.upper.region p) h h' := by
  unfold gramSchmidt
  refine (ends_forUp_inv (fun k h' => ∃ s r, Q.Holds h' s ∧ R.Holds h' r ∧ GramSchmidtInv m n a s r k ∧
      OnlyChanges (fun p => Q.Cell p ∨ R.CellOn Triangle.upper.region p) h h')
    (Nat.zero_le _) ?_ ?_).mono ?_
  · rintro k - hk h1 ⟨s, r, hQ1, hR1, I, hch1⟩
    refine (ends_gsStep hQ1 hR1 hQr hQc hRr hRc huQ huR hap (by omega)).mono ?_
    rintro _ h2 ⟨hQ2, hR2, hch2⟩
    exact ⟨_, _, hQ2, hR2, I.step (by omega), hch1.trans' hch2⟩
  · refine ⟨a, r₀, hQ, hR, ⟨fun i hi => by omega, fun i j hi => by omega, fun p j _ _ => by simp,
      fun i hi => by omega, fun w hw j hj => ?_⟩, fun _ _ => rfl⟩
    by_contra hne
    obtain ⟨i, hi, q⟩ := hrank w ⟨j, hj, hne⟩
    exact q (hw i hi)
  · rintro _ h' ⟨s, r, hQ', hR', I, hch⟩
    rw [hQc] at I
    refine ⟨s, r, hQ', fun i j hi hj _ => hR' i j hi hj trivial, I.pos, fun i j hi hj => ?_,
      fun i j hi hj => ?_, hch⟩
    · rw [← I.prod i j hi hj, if_neg (by omega), add_zero]
      refine sum_congr rfl fun l _ => ?_
      rw [tri_upper]
    · by_cases e : i = j
      · subst e
        rw [if_pos rfl]
        exact I.one i hi
      · rw [if_neg e]
        exact I.orth i j hi hj e

theorem independent_T (w : Nat → ℝ) (hw : ∃ j, j < 2 ∧ w j ≠ 0) :
    ∃ i, i < 3 ∧ ∑ j ∈ range 2, mvals ℝ T i j * w j ≠ 0 := by
  obtain ⟨j, hj, hne⟩ := hw
  by_contra hno
  push Not at hno
  have h0 := hno 0 (by norm_num)
  have h1 := hno 1 (by norm_num)
  simp only [sum_range_succ, range_zero, sum_empty, mvals, T] at h0 h1
  norm_num at h0 h1
  have e0 : w 0 = 0 := by linarith
  have e1 : w 1 = 0 := by linarith
  interval_cases j
  · exact hne e0
  · exact hne e1

/-- The columns of the 3 x 2 matrix with the rows (103, 104), (105, 106), (107, 108). -/
example : Ends (gramSchmidt T (A.block 0 0 2 2)) (heap ℝ) fun _ h' =>
    ∃ q r, T.Holds h' q ∧ (A.block 0 0 2 2).HoldsOn h' Triangle.upper.region r ∧
      (∀ k, k < 2 → 0 < r k k) ∧
      (∀ i j, i < 3 → j < 2 → ∑ k ∈ range 2, q i k * triOf .upper .explicit r k j = mvals ℝ T i j) ∧
      (∀ i j, i < 2 → j < 2 → ∑ p ∈ range 3, q p i * q p j = if i = j then 1 else 0) ∧
      OnlyChanges (fun p => T.Cell p ∨ (A.block 0 0 2 2).CellOn Triangle.upper.region p) (heap ℝ) h' := by
  refine C75_gram_schmidt T (A.block 0 0 2 2) 3 2 (heap ℝ) _ _ (mholds bT)
    (mholds fun i j hi hj => by simp only [A, Mat.block] at *; omega) rfl rfl rfl rfl
    (fun i j k l hi hj _ hk hl _ e => by simp only [T] at *; omega)
    (fun i j k l hi hj _ hk hl _ e => by simp only [A, Mat.block] at *; omega) ?_ ?_
  · rintro p ⟨i, j, hi, hj, -, e⟩ ⟨k, l, hk, hl, -, e'⟩
    simp only [A, T, Mat.block] at *
    omega
  · exact independent_T

/-- With orthonormal columns `q` and `A = Q R`, a solution of `R v = Qᵀ b` is best. -/
theorem best_of_factors {m n : Nat} {a q r : Nat → Nat → ℝ} {b v : Nat → ℝ}
    (hqr : ∀ i j, i < m → j < n → ∑ k ∈ range n, q i k * r k j = a i j)
    (ho : ∀ i j, i < n → j < n → ∑ p ∈ range m, q p i * q p j = if i = j then 1 else 0)
    (hv : ∀ k, k < n → ∑ j ∈ range n, r k j * v j = ∑ p ∈ range m, q p k * b p) (w : Nat → ℝ) :
    ∑ i ∈ range m, (b i - ∑ j ∈ range n, a i j * v j) ^ 2 ≤
      ∑ i ∈ range m, (b i - ∑ j ∈ range n, a i j * w j) ^ 2 := by
  have app : ∀ (z : Nat → ℝ) i, i < m → ∑ j ∈ range n, a i j * z j =
      ∑ k ∈ range n, q i k * ∑ j ∈ range n, r k j * z j := by
    intro z i hi
    rw [sum_congr rfl fun j hj => by rw [← hqr i j hi (mem_range.1 hj), sum_mul]]
    rw [sum_comm]
    refine sum_congr rfl fun k _ => ?_
    rw [mul_sum]
    exact sum_congr rfl fun j _ => by ring
  set ρ : Nat → ℝ := fun i => b i - ∑ j ∈ range n, a i j * v j with hρ
  have h1 : ∀ k, k < n → ∑ i ∈ range m, q i k * ρ i = 0 := by
    intro k hk
    have : ∑ i ∈ range m, q i k * ρ i = (∑ i ∈ range m, q i k * b i) -
        ∑ l ∈ range n, (∑ i ∈ range m, q i k * q i l) * ∑ j ∈ range n, r l j * v j := by
      rw [sum_congr rfl fun l _ => sum_mul .., sum_comm, ← sum_sub_distrib]
      refine sum_congr rfl fun i hi => ?_
      rw [hρ]
      beta_reduce
      rw [app v i (mem_range.1 hi), mul_sub, mul_sum]
      exact congrArg _ (sum_congr rfl fun l _ => by ring)
    have one : ∑ l ∈ range n, (∑ i ∈ range m, q i k * q i l) * ∑ j ∈ range n, r l j * v j =
        ∑ j ∈ range n, r k j * v j := by
      rw [sum_eq_single_of_mem k (mem_range.2 hk) (fun l hl hne => by
        rw [ho k l hk (mem_range.1 hl), if_neg (Ne.symm hne), zero_mul]), ho k k hk hk, if_pos rfl, one_mul]
    rw [this, one, hv k hk, sub_self]
  have h2 : ∀ z : Nat → ℝ, ∑ i ∈ range m, ρ i * ∑ j ∈ range n, a i j * z j = 0 := by
    intro z
    have : ∑ i ∈ range m, ρ i * ∑ j ∈ range n, a i j * z j =
        ∑ k ∈ range n, (∑ i ∈ range m, q i k * ρ i) * ∑ j ∈ range n, r k j * z j := by
      rw [sum_congr rfl fun k _ => sum_mul .., sum_comm]
      refine sum_congr rfl fun i hi => ?_
      rw [app z i (mem_range.1 hi), mul_sum]
      exact sum_congr rfl fun k _ => by ring
    rw [this]
    exact sum_eq_zero fun k hk => by rw [h1 k (mem_range.1 hk), zero_mul]
  have h3 : ∑ i ∈ range m, (b i - ∑ j ∈ range n, a i j * w j) ^ 2 = ∑ i ∈ range m, ρ i ^ 2 +
      2 * ∑ i ∈ range m, ρ i * ∑ j ∈ range n, a i j * (v j - w j) +
      ∑ i ∈ range m, (∑ j ∈ range n, a i j * (v j - w j)) ^ 2 := by
    rw [mul_sum, ← sum_add_distrib, ← sum_add_distrib]
    refine sum_congr rfl fun i _ => ?_
    have : ∑ j ∈ range n, a i j * (v j - w j) =
        (∑ j ∈ range n, a i j * v j) - ∑ j ∈ range n, a i j * w j := by
      rw [← sum_sub_distrib]
      exact sum_congr rfl fun j _ => by ring
    rw [this, hρ]
    ring
  rw [h3, h2]
  have := sum_nonneg (s := range m) fun i _ => sq_nonneg (∑ j ∈ range n, a i j * (v j - w j))
  linarith

/-- **C75** Least squares by the method of Gram and Schmidt, `matrix_vector_product` with the transposed `Q` and
`triangular_matrix_vector_solve`: for every matrix of full column rank no other vector has a smaller residual. -/
theorem C75_gram_schmidt_least_squares (Q R : Mat) (b x : Vec) (m n : Nat) (h : Heap ℝ)
    (a r₀ : Nat → Nat → ℝ) (g : Nat → ℝ) (hQ : Q.Holds h a) (hR : R.Holds h r₀) (hb : b.Holds h g)
    (hx : x.Alloc h) (hQr : Q.rows = m) (hQc : Q.cols = n) (hRr : R.rows = n)
    (hRc : R.cols = n) (hbe : b.ext = m) (hxe : x.ext = n) (huQ : Q.Unique) (huR : R.Unique)
    (hux : x.Unique) (hap : Apart Q.Cell R.Cell) (hQb : Apart Q.Cell b.Cell) (hRb : Apart R.Cell b.Cell)
    (hQx : Apart Q.Cell x.Cell) (hRx : Apart R.Cell x.Cell) (hbx : Apart b.Cell x.Cell)
    (hrank : ∀ w : Nat → ℝ, (∃ j, j < n ∧ w j ≠ 0) → ∃ i, i < m ∧ ∑ j ∈ range n, a i j * w j ≠ 0) :
    Ends (gramSchmidtLeastSquares Q R b x) h fun _ h' => ∃ v, x.Holds h' v ∧
      (∀ w : Nat → ℝ, ∑ i ∈ range m, (g i - ∑ j ∈ range n, a i j * v j) ^ 2 ≤
        ∑ i ∈ range m, (g i - ∑ j ∈ range n, a i j * w j) ^ 2) ∧
      OnlyChanges (fun p => Q.Cell p ∨ R.Cell p ∨ x.Cell p) h h' := by
  unfold gramSchmidtLeastSquares
  rw [ends_bind]
  refine (C75_gram_schmidt Q R m n h a r₀ hQ hR hQr hQc hRr hRc huQ huR hap hrank).mono ?_
  rintro _ h1 ⟨q, r, hQ1, hR1, hpos, hqr, ho, hch⟩
  have up : ∀ p, R.CellOn Triangle.upper.region p → R.Cell p := by
    rintro p ⟨i, j, hi, hj, -, e⟩
    exact ⟨i, j, hi, hj, trivial, e⟩
  have hb1 : b.Holds h1 g := fun i hi => by
    rw [hch _ (by
      rintro (e | e)
      · exact hQb _ e ⟨i, hi, rfl⟩
      · exact hRb _ (up _ e) ⟨i, hi, rfl⟩), hb i hi]
  have hx1 : x.Alloc h1 := fun i hi => by
    rw [hch _ (by
      rintro (e | e)
      · exact hQx _ e ⟨i, hi, rfl⟩
      · exact hRx _ (up _ e) ⟨i, hi, rfl⟩)]
    exact hx i hi
  rw [ends_bind]
  refine (C16_gemv Q.view.transposed b.view x h1 (fun i j => q j i) g
    (MatV.Holds.transposed (A := Q.view) fun i j hi hj _ => ⟨_, hQ1 i j hi hj trivial, rfl⟩) hb1.asView hx1
    (hxe.trans hQc.symm) (hQr.trans hbe.symm).le hux ?_ hbx).mono ?_
  · rintro p ⟨i, j, hi, hj, -, rfl⟩ hp
    exact hQx _ ⟨j, i, hj, hi, trivial, rfl⟩ hp
  rintro _ h2 ⟨hx2, hch2⟩
  have hR2 : R.HoldsOn h2 Triangle.upper.region r := fun i j hi hj hij => by
    rw [hch2 _ fun e => hRx _ ⟨i, j, hi, hj, trivial, rfl⟩ e]
    exact hR1 i j hi hj hij
  refine (C21_trsv_field R.view .upper .explicit x.view x h2 r _ (fun i j hi hj hij =>
    ⟨_, hR2 i j hi hj hij.1, rfl⟩) hx2.asView hx2.alloc (hRr.trans hRc.symm) (hRr.trans hxe.symm)
    (hRr.trans hxe.symm).le hux ?_ (fun i k hi hk e => hux i k hi hk e)
    fun _ i hi => (hpos i (hRr ▸ hi)).ne').mono ?_
  · rintro p ⟨i, j, hi, hj, -, e⟩ hp
    exact hRx _ ⟨i, j, hi, hj, trivial, e⟩ hp
  rintro _ h3 ⟨v, ⟨hv, hch3⟩, hs, -⟩
  refine ⟨v, hv, best_of_factors hqr ho fun k hk => ?_, ?_⟩
  · have := hs k (show k < R.rows by omega)
    unfold mulVec at this
    rw [show R.view.cols = n from hRc, show Q.view.transposed.cols = m from hQr] at this
    exact this
  · refine (hch.mono ?_).trans' ((hch2.mono fun p hp => Or.inr (Or.inr hp)).trans'
      (hch3.mono fun p hp => Or.inr (Or.inr hp)))
    rintro p (hp | hp)
    · exact Or.inl hp
    · exact Or.inr (Or.inl (up _ hp))

/-- 3 equations with 2 unknowns. -/
example : Ends (gramSchmidtLeastSquares T (A.block 0 0 2 2) y (z.slice 0 2)) (heap ℝ) fun _ h' =>
    ∃ v, (z.slice 0 2).Holds h' v ∧
      (∀ w : Nat → ℝ, ∑ i ∈ range 3, (vals ℝ y i - ∑ j ∈ range 2, mvals ℝ T i j * v j) ^ 2 ≤
        ∑ i ∈ range 3, (vals ℝ y i - ∑ j ∈ range 2, mvals ℝ T i j * w j) ^ 2) ∧
      OnlyChanges (fun p => T.Cell p ∨ (A.block 0 0 2 2).Cell p ∨ (z.slice 0 2).Cell p) (heap ℝ) h' := by
  refine C75_gram_schmidt_least_squares T (A.block 0 0 2 2) y (z.slice 0 2) 3 2 (heap ℝ) _ _ _ (mholds bT)
    (mholds fun i j hi hj => by simp only [A, Mat.block] at *; omega)
    (holds fun i hi => by simp only [y] at *; omega)
    (alloc fun i hi => by simp only [z, Vec.slice] at *; omega) rfl rfl rfl rfl rfl rfl
    (fun i j k l hi hj _ hk hl _ e => by simp only [T] at *; omega)
    (fun i j k l hi hj _ hk hl _ e => by simp only [A, Mat.block] at *; omega)
    (fun i k hi hk e => by simp only [z, Vec.slice] at *; omega) ?_ ?_ ?_ ?_ ?_ ?_ ?_
  · rintro p ⟨i, j, hi, hj, -, e⟩ ⟨k, l, hk, hl, -, e'⟩
    simp only [A, T, Mat.block] at *
    omega
  · rintro p ⟨i, j, hi, hj, -, e⟩ ⟨k, hk, e'⟩
    simp only [y, T] at *
    omega
  · rintro p ⟨i, j, hi, hj, -, e⟩ ⟨k, hk, e'⟩
    simp only [y, A, Mat.block] at *
    omega
  · rintro p ⟨i, j, hi, hj, -, e⟩ ⟨k, hk, e'⟩
    simp only [z, T, Vec.slice] at *
    omega
  · rintro p ⟨i, j, hi, hj, -, e⟩ ⟨k, hk, e'⟩
    simp only [z, A, Vec.slice, Mat.block] at *
    omega
  · rintro p ⟨i, hi, e⟩ ⟨k, hk, e'⟩
    simp only [y, z, Vec.slice] at *
    omega
  · exact independent_T

end StdBLAS

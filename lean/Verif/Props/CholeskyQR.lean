import Verif.Props.Cholesky
import Verif.Props.Blas3Solve
import Verif.Props.RankUpdates
import Mathlib.Tactic.Positivity

/-!
# Property C75: QR factorisation of tall matrices written with the library
-/

namespace StdBLAS
open Finset Witness

/-- Forward substitution: a lower triangular matrix with nonzero diagonal sends only zero to zero. -/
theorem lower_kernel {n : Nat} {l : Nat → Nat → ℝ} (hd : ∀ k, k < n → l k k ≠ 0) {v : Nat → ℝ}
    (hv : ∀ i, i < n → ∑ k ∈ range n, triOf .lower .explicit l i k * v k = 0) :
    ∀ i, i < n → v i = 0 := by
  intro i
  induction i using Nat.strong_induction_on with
  | _ i ih =>
    intro hi
    have h1 := hv i hi
    rw [sum_eq_single i] at h1
    · rw [triOf, if_pos rfl] at h1
      exact (mul_eq_zero.1 h1).resolve_left (hd i hi)
    · intro k hk hne
      rcases Nat.lt_or_gt_of_ne hne with h2 | h2
      · rw [ih k h2 (mem_range.1 hk), mul_zero]
      · rw [triOf, if_neg (Ne.symm hne), if_neg (show ¬ Triangle.lower.region i k from
          fun h3 => absurd (show k ≤ i from h3) (by omega)), zero_mul]
    · intro h2
      exact absurd (mem_range.2 hi) h2

/-- If `Q Lᵀ = A` and `L Lᵀ = Aᵀ A` then the columns of `Q` are orthonormal. -/
theorem orthonormal_of_cholesky {m n : Nat} {a q l : Nat → Nat → ℝ} (hd : ∀ k, k < n → l k k ≠ 0)
    (hA : ∀ i j, i < m → j < n → ∑ k ∈ range n, q i k * triOf .lower .explicit l j k = a i j)
    (hL : ∀ i j, i < n → j < n → ∑ k ∈ range n,
      triOf .lower .explicit l i k * triOf .lower .explicit l j k = ∑ r ∈ range m, a r i * a r j) :
    ∀ i j, i < n → j < n → ∑ r ∈ range m, q r i * q r j = if i = j then 1 else 0 := by
  set L := triOf .lower .explicit l with hLdef
  set g : Nat → Nat → ℝ := fun i j => ∑ r ∈ range m, q r i * q r j with hg
  -- Aᵀ A = L (Qᵀ Q) Lᵀ
  have h1 : ∀ i j, i < n → j < n → ∑ k ∈ range n, L i k * (∑ k' ∈ range n, L j k' *
      (g k k' - if k = k' then 1 else 0)) = 0 := by
    intro i j hi hj
    have e1 : ∑ r ∈ range m, a r i * a r j =
        ∑ k ∈ range n, L i k * ∑ k' ∈ range n, L j k' * g k k' := by
      calc ∑ r ∈ range m, a r i * a r j
          = ∑ r ∈ range m, ∑ k ∈ range n, ∑ k' ∈ range n, L i k * (L j k' * (q r k * q r k')) := by
            refine sum_congr rfl fun r hr => ?_
            rw [← hA r i (mem_range.1 hr) hi, ← hA r j (mem_range.1 hr) hj, sum_mul_sum]
            exact sum_congr rfl fun k _ => sum_congr rfl fun k' _ => by ring
        _ = ∑ k ∈ range n, L i k * ∑ k' ∈ range n, L j k' * g k k' := by
            rw [sum_comm]
            refine sum_congr rfl fun k _ => ?_
            rw [sum_comm, mul_sum]
            refine sum_congr rfl fun k' _ => ?_
            rw [hg]
            simp only [mul_sum]
    have e2 : ∑ k ∈ range n, L i k * L j k =
        ∑ k ∈ range n, L i k * ∑ k' ∈ range n, L j k' * (if k = k' then 1 else 0) := by
      refine sum_congr rfl fun k hk => ?_
      rw [sum_eq_single k]
      · rw [if_pos rfl, mul_one]
      · intro k' _ hne
        rw [if_neg (Ne.symm hne), mul_zero]
      · exact fun h => absurd hk h
    have e3 := hL i j hi hj
    rw [e1, e2] at e3
    calc ∑ k ∈ range n, L i k * (∑ k' ∈ range n, L j k' * (g k k' - if k = k' then 1 else 0))
        = ∑ k ∈ range n, (L i k * ∑ k' ∈ range n, L j k' * g k k' -
            L i k * ∑ k' ∈ range n, L j k' * (if k = k' then 1 else 0)) := by
          refine sum_congr rfl fun k _ => ?_
          rw [← mul_sub, ← sum_sub_distrib]
          simp only [mul_sub]
      _ = 0 := by rw [sum_sub_distrib, e3, sub_self]
  have h2 : ∀ j, j < n → ∀ k, k < n → ∑ k' ∈ range n, L j k' * (g k k' - if k = k' then 1 else 0) = 0 :=
    fun j hj => lower_kernel hd fun i hi => h1 i j hi hj
  intro i j hi hj
  exact sub_eq_zero.1 (lower_kernel hd (fun j' hj' => h2 j' hj' i hi) j hj)

/-- **C75** QR factorisation of a tall matrix by the Cholesky factorisation of `Aᵀ A`: for every matrix with
linearly independent columns, in any layout, `Q` has orthonormal columns, the lower triangle of the array `L`
holds a factor with positive diagonal, and `Q Lᵀ = A`; `Q` may be `A`. -/
theorem C75_cholesky_qr (A Q L : Mat) (m n : Nat) (h : Heap ℝ) (a l₀ : Nat → Nat → ℝ)
    (hA : A.Holds h a) (hL : L.Holds h l₀) (hQ : Q.Alloc h) (hAr : A.rows = m) (hAc : A.cols = n)
    (hQr : Q.rows = m) (hQc : Q.cols = n) (hLr : L.rows = n) (hLc : L.cols = n) (hLu : L.Unique)
    (hQu : Q.Unique) (hAL : Apart A.Cell L.Cell) (hAQ : A.Aligned Q)
    (hLQ : Apart L.Cell Q.Cell)
    (hrank : ∀ w : Nat → ℝ, (∃ j, j < n ∧ w j ≠ 0) → ∃ i, i < m ∧ ∑ j ∈ range n, a i j * w j ≠ 0) :
    Ends (choleskyQR A Q L n) h fun _ h' => ∃ q l, Q.Holds h' q ∧
      L.HoldsOn h' Triangle.lower.region l ∧ (∀ k, k < n → 0 < l k k) ∧
      (∀ i j, i < m → j < n → ∑ k ∈ range n, q i k * triOf .lower .explicit l j k = a i j) ∧
      (∀ i j, i < n → j < n → ∑ r ∈ range m, q r i * q r j = if i = j then 1 else 0) ∧
      OnlyChanges (fun p => L.Cell p ∨ Q.Cell p) h h' := by
  unfold choleskyQR
  rw [ends_bind]
  refine (C11_scale_matrix 0 L h l₀ hL hLu).mono ?_
  rintro _ h1 ⟨hL1, hch1⟩
  have hA1 : A.Holds h1 a := fun i j hi hj _ => by
    rw [hch1 _ (hAL _ ⟨i, j, hi, hj, trivial, rfl⟩)]
    exact hA i j hi hj trivial
  have low : ∀ p, L.CellOn Triangle.lower.region p → L.Cell p := by
    rintro p ⟨i, j, hi, hj, _, rfl⟩
    exact ⟨i, j, hi, hj, trivial, rfl⟩
  have hLu' : L.UniqueOn Triangle.lower.region := fun i j k l hi hj _ hk hl _ e =>
    hLu i j k l hi hj trivial hk hl trivial e
  rw [ends_bind]
  refine (C28_syrk A.view.transposed L .lower h1 (fun i j => a j i) (fun i j => l₀ i j * 0)
    (fun i j hi hj _ => ⟨_, hA1 j i hj hi trivial, rfl⟩) (fun i j hi hj _ => hL1 i j hi hj trivial)
    (by rw [hLr, hLc]) (by show L.rows ≤ A.cols; omega) hLu' ?_).mono ?_
  · rintro p ⟨i, j, hi, hj, _, rfl⟩ hp
    exact hAL _ ⟨j, i, hj, hi, trivial, rfl⟩ (low _ hp)
  rintro _ h2 ⟨hL2, hch2⟩
  have hL2' : L.HoldsOn h2 Triangle.lower.region fun i j => l₀ i j * 0 +
      ∑ k ∈ range m, a k i * a k j := by
    rw [← hAr]
    exact hL2
  have e2 : ∀ i j, symOf .lower (fun i j => l₀ i j * 0 + ∑ k ∈ range m, a k i * a k j) i j =
      ∑ k ∈ range m, a k i * a k j := by
    intro i j
    rw [symOf_lower_eq]
    split_ifs
    · ring
    · rw [mul_zero, zero_add]
      exact sum_congr rfl fun k _ => mul_comm _ _
  rw [ends_bind]
  refine (C75_cholesky L n h2 _ hL2' hLr hLc hLu' ?_).mono ?_
  · intro w hw
    obtain ⟨i, hi, hne⟩ := hrank w hw
    have e : ∑ i ∈ range n, ∑ j ∈ range n, symOf .lower (fun i j => l₀ i j * 0 +
        ∑ k ∈ range m, a k i * a k j) i j * w i * w j =
        ∑ r ∈ range m, (∑ j ∈ range n, a r j * w j) ^ 2 := by
      calc _ = ∑ i ∈ range n, ∑ j ∈ range n, ∑ r ∈ range m, (a r i * w i) * (a r j * w j) := by
            refine sum_congr rfl fun i _ => sum_congr rfl fun j _ => ?_
            rw [e2, sum_mul, sum_mul]
            exact sum_congr rfl fun k _ => by ring
        _ = ∑ i ∈ range n, ∑ r ∈ range m, ∑ j ∈ range n, (a r i * w i) * (a r j * w j) :=
            sum_congr rfl fun i _ => sum_comm
        _ = ∑ r ∈ range m, ∑ i ∈ range n, ∑ j ∈ range n, (a r i * w i) * (a r j * w j) := sum_comm
        _ = _ := by
            refine sum_congr rfl fun r _ => ?_
            rw [sq, sum_mul_sum]
    rw [e]
    exact sum_pos' (fun r _ => sq_nonneg _) ⟨i, mem_range.2 hi, by positivity⟩
  rintro _ h3 ⟨l, ⟨hL3, hch3⟩, hpos, hll⟩
  have hA3 : A.Holds h3 a := fun i j hi hj _ => by
    have hn : ¬ L.CellOn Triangle.lower.region (A.addr i j) := fun q =>
      hAL _ ⟨i, j, hi, hj, trivial, rfl⟩ (low _ q)
    rw [hch3 _ hn, hch2 _ hn]
    exact hA1 i j hi hj trivial
  have hch03 : OnlyChanges (fun p => L.Cell p ∨ Q.Cell p) h h3 :=
    ((hch1.mono fun _ hp => Or.inl hp).trans' (hch2.mono fun _ hp => Or.inl (low _ hp))).trans'
      (hch3.mono fun _ hp => Or.inl (low _ hp))
  have hQ3 : Q.Alloc h3 := fun i j hi hj hr => by
    have hn : ¬ L.Cell (Q.addr i j) := fun q => hLQ _ q ⟨i, j, hi, hj, hr, rfl⟩
    rw [hch3 _ fun q => hn (low _ q), hch2 _ fun q => hn (low _ q), hch1 _ hn]
    exact hQ i j hi hj hr
  have tri : ∀ i j, triOf .upper .explicit (fun i j => l j i) i j = triOf .lower .explicit l j i := by
    intro i j
    unfold triOf
    by_cases e : i = j
    · subst e; simp
    · rw [if_neg e, if_neg (Ne.symm e)]
      by_cases e' : i ≤ j
      · exact (if_pos e').trans (if_pos e').symm
      · exact (if_neg e').trans (if_neg e').symm
  refine (C37_trsm_right L.view.transposed .upper .explicit A.view Q h3 (fun i j => l j i) a ?_
    (fun i j hi hj _ => ⟨_, hA3 i j hi hj trivial, rfl⟩) hQ3 (by show L.cols = L.rows; omega)
    (by show Q.cols = L.rows; omega) (by show A.cols = L.rows; omega) (by show Q.rows = A.rows; omega) hQu ?_ ?_
    ?_).mono ?_
  · intro i j hi hj hij
    exact ⟨_, hL3 j i hj hi (show i ≤ j from hij.1), rfl⟩
  · rintro p ⟨i, j, hi, hj, _, rfl⟩ hq
    exact hLQ _ ⟨j, i, hj, hi, trivial, rfl⟩ hq
  · exact hAQ
  · intro _ i hi s
    have hi' : i < n := by
      have : i < L.cols := hi
      omega
    have : l i i ≠ 0 := (hpos i hi').ne'
    exact ⟨div_mul_cancel₀ _ this, mul_div_cancel_right₀ _ this⟩
  rintro _ h4 ⟨q, ⟨hq, hch4⟩, hsol, -⟩
  have hres : ∀ i j, i < m → j < n → ∑ k ∈ range n, q i k * triOf .lower .explicit l j k = a i j := by
    intro i j hi hj
    have := hsol i j (by omega) (by omega)
    unfold mulMat at this
    rw [hQc] at this
    rw [← this]
    exact sum_congr rfl fun k _ => by rw [tri]
  refine ⟨q, l, hq, fun i j hi hj hij => ?_, hpos, hres, ?_, ?_⟩
  · rw [hch4 _ fun p => hLQ _ ⟨i, j, hi, hj, trivial, rfl⟩ p]
    exact hL3 i j hi hj hij
  · refine orthonormal_of_cholesky (fun k hk => (hpos k hk).ne') hres fun i j hi hj => ?_
    rw [hll i j hi hj, e2]
  · exact hch03.trans' (hch4.mono fun _ hp => Or.inr hp)

/-- The columns of the 3 x 2 matrix with the rows (103, 104), (105, 106), (107, 108). -/
example : Ends (choleskyQR T (B.block 0 0 3 2) (A.block 0 0 2 2) 2) (heap ℝ) fun _ h' =>
    ∃ q l, (B.block 0 0 3 2).Holds h' q ∧ (A.block 0 0 2 2).HoldsOn h' Triangle.lower.region l ∧
      (∀ k, k < 2 → 0 < l k k) ∧
      (∀ i j, i < 3 → j < 2 → ∑ k ∈ range 2, q i k * triOf .lower .explicit l j k = mvals ℝ T i j) ∧
      (∀ i j, i < 2 → j < 2 → ∑ r ∈ range 3, q r i * q r j = if i = j then 1 else 0) ∧
      OnlyChanges (fun p => (A.block 0 0 2 2).Cell p ∨ (B.block 0 0 3 2).Cell p) (heap ℝ) h' := by
  refine C75_cholesky_qr T (B.block 0 0 3 2) (A.block 0 0 2 2) 3 2 (heap ℝ) _ _ (mholds bT)
    (mholds fun i j hi hj => by simp only [A, Mat.block] at *; omega)
    (malloc fun i j hi hj => by simp only [B, Mat.block] at *; omega) rfl rfl rfl rfl rfl rfl
    (fun i j k l hi hj _ hk hl _ e => by simp only [A, Mat.block] at *; omega)
    (fun i j k l hi hj _ hk hl _ e => by simp only [B, Mat.block] at *; omega) ?_ ?_ ?_ ?_
  · rintro p ⟨i, j, hi, hj, -, e⟩ ⟨k, l, hk, hl, -, e'⟩
    simp only [A, T, Mat.block] at *
    omega
  · intro i j k l hi hj hk hl e
    simp only [B, T, Mat.block] at *
    omega
  · rintro p ⟨i, j, hi, hj, -, e⟩ ⟨k, l, hk, hl, -, e'⟩
    simp only [A, B, Mat.block] at *
    omega
  · rintro w ⟨j, hj, hne⟩
    by_contra hno
    push Not at hno
    have h0 := hno 0 (by norm_num)
    have h1 := hno 1 (by norm_num)
    simp only [sum_range_succ, range_zero, sum_empty, mvals, T] at h0 h1
    norm_num at h0 h1
    have e0 : w 0 = 0 := by linarith
    have e1 : w 1 = 0 := by linarith
    interval_cases j
    · exact hne e0
    · exact hne e1

end StdBLAS

import Mathlib.Algebra.Order.Chebyshev
import Verif.Lemmas.LuRounding
import Verif.Props.Cholesky

/-!
# Lemmas: Cholesky factorisation in rounded arithmetic
-/

namespace StdBLAS
open Finset

section
variable {F : Type} [Add F] [Mul F] [Div F] {one minusOne : F} {root : F → F}
  {A : Mat} {n k : Nat} {h : Heap F} {s : Nat → Nat → F}

/-- The lower triangle after step `k` of the factorisation. -/
def cholStepF (one minusOne : F) (root : F → F) (s : Nat → Nat → F) (k i j : Nat) : F :=
  if i = k ∧ j = k then root (s k k)
  else if k < i ∧ j = k then s i k * (one / root (s k k))
  else if k < i ∧ k < j then
    s i j + minusOne * (s i k * (one / root (s k k))) * (s j k * (one / root (s k k)))
  else s i j

theorem ends_cholStepF (hA : A.HoldsOn h lowerTri s) (hr : A.rows = n) (hc : A.cols = n)
    (hu : A.UniqueOn lowerTri) (hk : k < n) :
    Ends (do
      let p ← A.get k k
      A.set k k (root p)
      scale1 (one / root p) (A.colPart k (k + 1) (n - (k + 1)))
      syrAlpha minusOne (A.colPart k (k + 1) (n - (k + 1))).view
        (A.block (k + 1) (k + 1) (n - (k + 1)) (n - (k + 1))) .lower) h fun _ h' =>
      A.BecomesOn h h' lowerTri (cholStepF one minusOne root s k) := by
  rw [ends_bind, ends_mat_get]
  have hkk := hA k k (by omega) (by omega) (show k ≤ k from le_rfl)
  refine ⟨⟨by omega, by omega⟩, s k k, hkk, ?_⟩
  rw [ends_bind, ends_mat_set]
  refine ⟨⟨by omega, by omega⟩, ⟨_, hkk⟩, ?_⟩
  set h1 := Function.update h (A.addr k k) (some (root (s k k))) with hh1
  have hch1 : OnlyChanges (fun a => a = A.addr k k) h h1 := fun a ha => by
    rw [hh1, Function.update_of_ne ha]
  have hA1 : A.HoldsOn h1 lowerTri
      (fun i j => if i = k ∧ j = k then root (s k k) else s i j) := by
    refine hA.patch hch1 _ (fun i j hi hj hij e => ?_) (fun i j hi hj hij e => ?_)
    · obtain ⟨rfl, rfl⟩ := hu i j k k hi hj hij (by omega) (by omega)
        (show k ≤ k from le_rfl) e
      rw [hh1, Function.update_self, if_pos ⟨rfl, rfl⟩]
    · exact if_neg fun q => e (by rw [q.1, q.2])
  rw [ends_bind]
  have hcol : (A.colPart k (k + 1) (n - (k + 1))).Holds h1 fun i => s (k + 1 + i) k := by
    intro i hi
    have hi : i < n - (k + 1) := hi
    exact (hA1 (k + 1 + i) k (by omega) (by omega) (show k ≤ k + 1 + i by omega)).trans
      (congrArg some (if_neg (by omega)))
  refine (C11_scale_vector (one / root (s k k)) _ h1 _ hcol ?_).mono ?_
  · intro i m hi hm e
    have hi : i < n - (k + 1) := hi
    have hm : m < n - (k + 1) := hm
    have := hu (k + 1 + i) k (k + 1 + m) k (by omega) (by omega) (show k ≤ k + 1 + i by omega)
      (by omega) (by omega) (show k ≤ k + 1 + m by omega) e
    omega
  rintro _ h2 ⟨hv2, hch2⟩
  have hA2 : A.HoldsOn h2 lowerTri (fun i j => if i = k ∧ j = k then root (s k k)
      else if k < i ∧ j = k then s i k * (one / root (s k k)) else s i j) := by
    refine hA1.patch hch2 _ (fun i j hi hj hij e => ?_) (fun i j hi hj hij e => ?_)
    · rw [lower_cell_col hu hr hc hk hi hj hij] at e
      obtain ⟨rfl, hki⟩ := e
      have := hv2 (i - (j + 1)) (show i - (j + 1) < n - (j + 1) by omega)
      rw [show (A.colPart j (j + 1) (n - (j + 1))).addr (i - (j + 1)) = A.addr i j by
        show A.addr (j + 1 + (i - (j + 1))) j = _
        rw [show j + 1 + (i - (j + 1)) = i by omega]] at this
      rw [this, if_neg (by omega), if_pos ⟨hki, rfl⟩]
      beta_reduce
      rw [show j + 1 + (i - (j + 1)) = i by omega]
    · rw [lower_cell_col hu hr hc hk hi hj hij] at e
      by_cases q : i = k ∧ j = k
      · rw [if_pos q, if_pos q]
      · rw [if_neg q, if_neg q, if_neg (by omega)]
  refine (C26_syrAlpha minusOne _ _ .lower h2 _ (fun i j => s (k + 1 + i) (k + 1 + j))
    hv2.asView ?_ rfl le_rfl ?_ ?_).mono ?_
  · intro i j hi hj hij
    have hi : i < n - (k + 1) := hi
    have hj : j < n - (k + 1) := hj
    have hij : j ≤ i := hij
    refine (hA2 (k + 1 + i) (k + 1 + j) (by omega) (by omega)
      (show k + 1 + j ≤ k + 1 + i by omega)).trans (congrArg some ?_)
    beta_reduce
    rw [if_neg (by omega), if_neg (by omega)]
  · intro i j p q hi hj hij hp hq hpq e
    have hi : i < n - (k + 1) := hi
    have hj : j < n - (k + 1) := hj
    have hij : j ≤ i := hij
    have hp : p < n - (k + 1) := hp
    have hq : q < n - (k + 1) := hq
    have hpq : q ≤ p := hpq
    have := hu (k + 1 + i) (k + 1 + j) (k + 1 + p) (k + 1 + q) (by omega) (by omega)
      (show k + 1 + j ≤ k + 1 + i by omega) (by omega) (by omega)
      (show k + 1 + q ≤ k + 1 + p by omega) e
    omega
  · rintro p ⟨i, hi, rfl⟩ hp
    have hi : i < n - (k + 1) := hi
    have := (lower_cell_block (k := k) hu hr hc (i := k + 1 + i) (j := k) (by omega) (by omega)
      (by omega)).1 hp
    omega
  · rintro _ h3 ⟨hv3, hch3⟩
    refine ⟨hA2.patch hch3 _ (fun i j hi hj hij e => ?_) (fun i j hi hj hij e => ?_), ?_⟩
    · have hij' : j ≤ i := hij
      rw [lower_cell_block hu hr hc hi hj hij] at e
      have := hv3 (i - (k + 1)) (j - (k + 1)) (show i - (k + 1) < n - (k + 1) by omega)
        (show j - (k + 1) < n - (k + 1) by omega) (show j - (k + 1) ≤ i - (k + 1) by omega)
      rw [show (A.block (k + 1) (k + 1) (n - (k + 1)) (n - (k + 1))).addr (i - (k + 1))
          (j - (k + 1)) = A.addr i j by
        show A.addr (k + 1 + (i - (k + 1))) (k + 1 + (j - (k + 1))) = _
        rw [show k + 1 + (i - (k + 1)) = i by omega, show k + 1 + (j - (k + 1)) = j by omega]]
        at this
      beta_reduce at this
      rw [show k + 1 + (i - (k + 1)) = i by omega, show k + 1 + (j - (k + 1)) = j by omega] at this
      rw [this, cholStepF, if_neg (by omega), if_neg (by omega), if_pos (by omega)]
    · have hij' : j ≤ i := hij
      rw [lower_cell_block hu hr hc hi hj hij] at e
      unfold cholStepF
      by_cases q : i = k ∧ j = k
      · rw [if_pos q, if_pos q]
      · rw [if_neg q, if_neg q]
        by_cases q' : k < i ∧ j = k
        · rw [if_pos q', if_pos q']
        · rw [if_neg q', if_neg q', if_neg (by omega)]
    · refine OnlyChanges.trans' (hch1.mono ?_) (OnlyChanges.trans' (hch2.mono ?_)
        (hch3.mono ?_))
      · rintro p rfl
        exact ⟨k, k, by omega, by omega, show k ≤ k from le_rfl, rfl⟩
      · rintro p ⟨i, hi, rfl⟩
        have hi : i < n - (k + 1) := hi
        exact ⟨k + 1 + i, k, by omega, by omega, show k ≤ k + 1 + i by omega, rfl⟩
      · rintro p ⟨i, j, hi, hj, hij, rfl⟩
        have hi : i < n - (k + 1) := hi
        have hj : j < n - (k + 1) := hj
        have hij : j ≤ i := hij
        exact ⟨k + 1 + i, k + 1 + j, by omega, by omega, show k + 1 + j ≤ k + 1 + i by omega, rfl⟩

end

/-! ## Backward error -/

variable {F : Type} [Zero F] [Add F] [Sub F] [Mul F] [Div F] {val : F → ℝ} {u : ℝ}

theorem tri_lower (l : Nat → Nat → ℝ) (i m : Nat) :
    triOf .lower .explicit l i m = if m ≤ i then l i m else 0 := by
  unfold triOf Triangle.region
  by_cases e : i = m
  · subst e; simp
  · rw [if_neg e]
    by_cases e' : m ≤ i
    · exact (if_pos e').trans (if_pos e').symm
    · exact (if_neg e').trans (if_neg e').symm

/-- The elements of the lower triangle of `a` are sums of products of the finished part of the factor,
each product changed by a few rounding errors, plus the unfinished rest. -/
def NearCholesky (val : F → ℝ) (ρ : ℝ) (n : Nat) (a s : Nat → Nat → F) (k : Nat) : Prop :=
  ∀ i j, i < n → j ≤ i → ∃ (θ : Nat → ℝ) (π : ℝ),
    (∀ m, m < k → Near (ρ ^ (m + 2)) (θ m)) ∧ Near (ρ ^ k) π ∧
    val (a i j) = (∑ m ∈ range k, triOf .lower .explicit (fun i j => val (s i j)) i m *
      triOf .lower .explicit (fun i j => val (s i j)) j m * θ m) +
        if k ≤ j then val (s i j) * π else 0

theorem NearCholesky.step (R : Rounded val u) (h1 : u < 1) {one minusOne : F} {root : F → F}
    (ho : val one = 1) (hmo : val minusOne = -1) {n k : Nat} {a s : Nat → Nat → F} {δ : ℝ}
    (hδ : ‖δ‖ ≤ u) (hroot : val (root (s k k)) = Real.sqrt (val (s k k)) * (1 + δ))
    (hp : 0 < val (s k k)) (H : NearCholesky val (growth u) n a s k) :
    NearCholesky val (growth u) n a (cholStepF one minusOne root s k) (k + 1) := by
  intro i j hi hij
  obtain ⟨g1, g2, g3⟩ := growth_facts R.nonneg h1
  have hδ0 := round_ne_zero h1 hδ
  have hq : val (root (s k k)) ≠ 0 := by
    rw [hroot]
    exact mul_ne_zero (Real.sqrt_pos.2 hp).ne' hδ0
  obtain ⟨θ, π, hθ, hπ, e⟩ := H i j hi hij
  have key : ∃ ε η : ℝ, Near (growth u ^ 2) ε ∧ Near (growth u) η ∧
      (if k ≤ j then val (s i j) else 0) =
        triOf .lower .explicit (fun i j => val (cholStepF one minusOne root s k i j)) i k *
          triOf .lower .explicit (fun i j => val (cholStepF one minusOne root s k i j)) j k * ε +
        (if k + 1 ≤ j then val (cholStepF one minusOne root s k i j) * η else 0) := by
    have one_near : Near (growth u) (1 : ℝ) := near_one.mono g1
    have one_near2 : Near (growth u ^ 2) (1 : ℝ) := near_one.mono (one_le_pow₀ g1)
    rw [tri_lower, tri_lower]
    rcases Nat.lt_trichotomy j k with w | w | w
    · refine ⟨1, 1, one_near2, one_near, ?_⟩
      rw [if_neg (c := k ≤ j) (by omega), if_neg (c := k ≤ j) (by omega),
        if_neg (c := k + 1 ≤ j) (by omega)]
      ring
    · subst w
      rw [if_pos le_rfl, if_pos hij, if_pos le_rfl]
      rw [show cholStepF one minusOne root s j j j = root (s j j) from if_pos ⟨rfl, rfl⟩]
      by_cases q : i = j
      · subst q
        refine ⟨(1 + δ)⁻¹ * (1 + δ)⁻¹, 1, ?_, one_near, ?_⟩
        · rw [pow_two]
          exact ((near_inv R.nonneg h1 hδ).mono g3).mul ((near_inv R.nonneg h1 hδ).mono g3)
        · rw [if_neg (by omega),
            show cholStepF one minusOne root s i i i = root (s i i) from if_pos ⟨rfl, rfl⟩, hroot]
          have := Real.mul_self_sqrt hp.le
          field_simp
          linarith
      · obtain ⟨ε, hε, eε⟩ := R.multiplier_back h1 ho (s i j) (root (s j j)) hq
        refine ⟨ε, 1, hε, one_near, ?_⟩
        rw [if_neg (by omega), cholStepF, if_neg (by omega), if_pos ⟨by omega, rfl⟩, add_zero]
        exact eε
    · obtain ⟨ε, η, hε, hη, e'⟩ := R.update_back h1 hmo (s i j) (s i k * (one / root (s k k)))
        (s j k * (one / root (s k k)))
      refine ⟨ε, η, hε, hη, ?_⟩
      rw [if_pos (by omega), if_pos (by omega), if_pos (by omega), if_pos (by omega)]
      rw [cholStepF, if_neg (by omega), if_pos ⟨by omega, rfl⟩, cholStepF, if_neg (by omega),
        if_pos ⟨by omega, rfl⟩, cholStepF, if_neg (by omega), if_neg (by omega),
        if_pos (by omega)]
      exact e'
  obtain ⟨ε, η, hε, hη, e'⟩ := key
  refine ⟨fun m => if m = k then ε * π else θ m, η * π, fun m hm => ?_, ?_, ?_⟩
  · by_cases q : m = k
    · subst q
      simp only [if_pos]
      rw [Nat.add_comm, pow_add]
      exact hε.mul hπ
    · simp only [if_neg q]
      exact hθ m (by omega)
  · rw [pow_succ']
    exact hη.mul hπ
  · have e2 : (if k ≤ j then val (s i j) * π else 0) =
        (if k ≤ j then val (s i j) else 0) * π := by rw [ite_mul, zero_mul]
    rw [e, e2, e', sum_range_succ, add_mul, ← add_assoc]
    congr 1
    · congr 1
      · refine sum_congr rfl fun m hm => ?_
        have hm := mem_range.1 hm
        have e : ∀ i, cholStepF one minusOne root s k i m = s i m := fun i => by
          rw [cholStepF, if_neg (by omega), if_neg (by omega), if_neg (by omega)]
        beta_reduce
        rw [if_neg (by omega), tri_lower, tri_lower, tri_lower, tri_lower, e, e]
      · beta_reduce
        rw [if_pos rfl]
        ring
    · rw [ite_mul, zero_mul]
      by_cases q : k + 1 ≤ j
      · rw [if_pos q, if_pos q]; ring
      · rw [if_neg q, if_neg q]

omit [Zero F] [Add F] [Sub F] [Mul F] [Div F] in
/-- The finished factor. -/
theorem NearCholesky.error {ρ : ℝ} (hρ : 1 ≤ ρ) {n : Nat} {a s : Nat → Nat → F}
    (H : NearCholesky val ρ n a s n) {i j : Nat} (hi : i < n) (hj : j < n) :
    ‖symOf .lower (fun i j => val (a i j)) i j -
        ∑ m ∈ range n, triOf .lower .explicit (fun i j => val (s i j)) i m *
          triOf .lower .explicit (fun i j => val (s i j)) j m‖ ≤
      (ρ ^ (n + 1) - 1) * ∑ m ∈ range n,
        ‖triOf .lower .explicit (fun i j => val (s i j)) i m‖ *
          ‖triOf .lower .explicit (fun i j => val (s i j)) j m‖ := by
  have key : ∀ i j, i < n → j ≤ i → ‖val (a i j) -
        ∑ m ∈ range n, triOf .lower .explicit (fun i j => val (s i j)) i m *
          triOf .lower .explicit (fun i j => val (s i j)) j m‖ ≤
      (ρ ^ (n + 1) - 1) * ∑ m ∈ range n,
        ‖triOf .lower .explicit (fun i j => val (s i j)) i m‖ *
          ‖triOf .lower .explicit (fun i j => val (s i j)) j m‖ := by
    intro i j hi hij
    obtain ⟨θ, π, hθ, -, e⟩ := H i j hi hij
    rw [e, if_neg (by omega), add_zero, ← sum_sub_distrib, mul_sum]
    refine (norm_sum_le _ _).trans (sum_le_sum fun m hm => ?_)
    have hm := mem_range.1 hm
    rw [← mul_sub_one, norm_mul, norm_mul, mul_comm]
    refine mul_le_mul_of_nonneg_right ?_ (by positivity)
    exact (hθ m hm).2.trans (by
      have := pow_le_pow_right₀ hρ (show m + 2 ≤ n + 1 by omega)
      linarith)
  rw [symOf_lower_eq]
  split_ifs with q
  · exact key i j hi q
  · have := key j i hj (by omega)
    rw [sum_congr rfl fun m _ => mul_comm _ _] at this
    refine this.trans (le_of_eq ?_)
    congr 1
    exact sum_congr rfl fun m _ => mul_comm _ _

omit [Zero F] [Add F] [Sub F] [Mul F] [Div F] in
/-- The rows of the factor are not longer than the diagonal allows. -/
theorem NearCholesky.row {ρ : ℝ} (hρ : 1 ≤ ρ) {n : Nat} {a s : Nat → Nat → F}
    (H : NearCholesky val ρ n a s n) (h2 : ρ ^ (n + 1) < 2) {i : Nat} (hi : i < n) :
    ∑ m ∈ range n, ‖triOf .lower .explicit (fun i j => val (s i j)) i m‖ ^ 2 ≤
      val (a i i) / (2 - ρ ^ (n + 1)) := by
  obtain ⟨θ, π, hθ, -, e⟩ := H i i hi le_rfl
  rw [le_div_iff₀ (by linarith), e, if_neg (by omega), add_zero, sum_mul]
  refine sum_le_sum fun m hm => ?_
  have hm := mem_range.1 hm
  have h3 := abs_le.1 (hθ m hm).2
  have h4 := pow_le_pow_right₀ hρ (show m + 2 ≤ n + 1 by omega)
  rw [Real.norm_eq_abs, sq_abs, ← pow_two]
  exact mul_le_mul_of_nonneg_left (by linarith) (sq_nonneg _)

/-! ## When the factorisation cannot break down -/

/-- A vector that the transposed factor maps to a multiple of the last unit vector. -/
theorem exists_null {k : Nat} {l : Nat → Nat → ℝ} (hl : ∀ m, m < k → l m m ≠ 0)
    (hz : ∀ i m, i < m → l i m = 0) (c : Nat) (hc : c ≤ k) :
    ∃ x : Nat → ℝ, x k = 1 ∧ ∀ m, k - c ≤ m → m < k → ∑ i ∈ range (k + 1), l i m * x i = 0 := by
  induction c with
  | zero => exact ⟨fun _ => 1, rfl, fun m h1 h2 => by omega⟩
  | succ c ih =>
    obtain ⟨x, hx, hs⟩ := ih (by omega)
    have hm : k - (c + 1) < k := by omega
    refine ⟨Function.update x (k - (c + 1)) (x (k - (c + 1)) -
      (∑ i ∈ range (k + 1), l i (k - (c + 1)) * x i) / l (k - (c + 1)) (k - (c + 1))), ?_, ?_⟩
    · rw [Function.update_of_ne (by omega), hx]
    · intro m h1 h2
      have split : ∀ t : ℝ, ∑ i ∈ range (k + 1), l i m *
          Function.update x (k - (c + 1)) t i = (∑ i ∈ range (k + 1), l i m * x i) +
            l (k - (c + 1)) m * (t - x (k - (c + 1))) := by
        intro t
        have hmem : k - (c + 1) ∈ range (k + 1) := mem_range.2 (by omega)
        rw [← add_sum_erase _ _ hmem, ← add_sum_erase (range (k + 1)) (fun i => l i m * x i) hmem,
          Function.update_self]
        rw [sum_congr rfl fun i hi => by rw [Function.update_of_ne (ne_of_mem_erase hi)]]
        ring
      rw [split]
      by_cases e : m = k - (c + 1)
      · rw [← e]
        have := hl m h2
        field_simp
        ring
      · rw [hs m (by omega) h2, hz _ m (by omega)]
        ring

/-- The error of a product of the factor with itself, on a vector. -/
theorem form_error {k : Nat} {l a : Nat → Nat → ℝ} {γ τ : ℝ} {x : Nat → ℝ} (hγ : 0 ≤ γ)
    (ha : ∀ i j, i ≤ k → j ≤ k → ∃ θ : Nat → ℝ, (∀ m, m < k → |θ m - 1| ≤ γ) ∧
      a i j = ∑ m ∈ range k, l i m * l j m * θ m - if i = k ∧ j = k then τ else 0)
    (hx : x k = 1) (h0 : ∀ m, m < k → ∑ i ∈ range (k + 1), l i m * x i = 0) :
    ∑ i ∈ range (k + 1), ∑ j ∈ range (k + 1), a i j * x i * x j ≤
      γ * (k + 1) * ∑ i ∈ range (k + 1), (∑ m ∈ range k, l i m ^ 2) * x i ^ 2 - τ := by
  have h1 : ∀ i ∈ range (k + 1), ∀ j ∈ range (k + 1), a i j * x i * x j ≤
      ∑ m ∈ range k, ((l i m * x i) * (l j m * x j) + γ * (|l i m * x i| * |l j m * x j|)) -
        if i = k ∧ j = k then τ else 0 := by
    intro i hi j hj
    have hi := mem_range.1 hi
    have hj := mem_range.1 hj
    obtain ⟨θ, hθ, e⟩ := ha i j (by omega) (by omega)
    rw [e, sub_mul, sub_mul, sum_mul, sum_mul]
    refine sub_le_sub (sum_le_sum fun m hm => ?_) (le_of_eq ?_)
    · have h3 := hθ m (mem_range.1 hm)
      have h4 : l i m * l j m * θ m * x i * x j =
          (l i m * x i) * (l j m * x j) + (θ m - 1) * ((l i m * x i) * (l j m * x j)) := by ring
      rw [h4]
      refine add_le_add le_rfl ((le_abs_self _).trans ?_)
      rw [abs_mul, abs_mul (l i m * x i)]
      exact mul_le_mul_of_nonneg_right h3 (by positivity)
    · by_cases q : i = k ∧ j = k
      · rw [if_pos q, q.1, q.2, hx]; ring
      · rw [if_neg q]; ring
  refine (sum_le_sum fun i hi => sum_le_sum fun j hj => h1 i hi j hj).trans ?_
  simp only [sum_sub_distrib]
  have h5 : ∑ i ∈ range (k + 1), ∑ j ∈ range (k + 1), (if i = k ∧ j = k then τ else 0) = τ := by
    rw [sum_eq_single k, sum_eq_single k]
    · rw [if_pos ⟨rfl, rfl⟩]
    · intro j _ q; rw [if_neg fun r => q r.2]
    · intro q; exact absurd (mem_range.2 (Nat.lt_succ_self k)) q
    · intro i _ q
      exact sum_eq_zero fun j _ => if_neg fun r => q r.1
    · intro q; exact absurd (mem_range.2 (Nat.lt_succ_self k)) q
  rw [h5]
  refine sub_le_sub ?_ le_rfl
  have h6 : ∑ i ∈ range (k + 1), ∑ j ∈ range (k + 1), ∑ m ∈ range k,
      ((l i m * x i) * (l j m * x j) + γ * (|l i m * x i| * |l j m * x j|)) =
      ∑ m ∈ range k, ((∑ i ∈ range (k + 1), l i m * x i) ^ 2 +
        γ * (∑ i ∈ range (k + 1), |l i m * x i|) ^ 2) := by
    rw [sum_congr rfl fun i _ => sum_comm, sum_comm]
    refine sum_congr rfl fun m _ => ?_
    simp only [sum_add_distrib, ← mul_sum]
    rw [pow_two, pow_two, sum_mul, sum_mul]
  have h7 : ∑ i ∈ range (k + 1), (∑ m ∈ range k, l i m ^ 2) * x i ^ 2 =
      ∑ m ∈ range k, ∑ i ∈ range (k + 1), |l i m * x i| ^ 2 := by
    rw [sum_comm]
    refine sum_congr rfl fun i _ => ?_
    rw [sum_mul]
    exact sum_congr rfl fun m _ => by rw [sq_abs]; ring
  rw [h6, h7, mul_sum]
  refine sum_le_sum fun m hm => ?_
  rw [h0 m (mem_range.1 hm), mul_assoc]
  have := sq_sum_le_card_mul_sum_sq (s := range (k + 1)) (f := fun i => |l i m * x i|)
  rw [card_range] at this
  push_cast at this
  have := mul_le_mul_of_nonneg_left this hγ
  linarith

theorem breakdown_arith {γ τ X P Q κ N : ℝ} (hγ : 0 ≤ γ) (hτ : 0 ≤ τ) (hP : 0 ≤ P) (hκ : κ ≤ N)
    (hκ0 : 0 ≤ κ) (hn : N * γ < 1 - γ) (hform : X ≤ γ * κ * P - τ) (hrows : (1 - γ) * P ≤ Q + τ)
    (hw : N * γ * Q < (1 - γ) * X) : False := by
  have hN : 0 ≤ N := hκ0.trans hκ
  have h1 : 0 ≤ N * γ := mul_nonneg hN hγ
  have hc : 0 < 1 - γ := by linarith
  have h2 : (1 - γ) * X ≤ γ * κ * (Q + τ) - (1 - γ) * τ := by
    have h3 := mul_le_mul_of_nonneg_left hform hc.le
    have h4 := mul_le_mul_of_nonneg_left hrows (mul_nonneg hγ hκ0)
    linarith
  have h5 : 0 ≤ Q + τ := (mul_nonneg hc.le hP).trans hrows
  have h6 : γ * κ * (Q + τ) ≤ N * γ * (Q + τ) := by
    rw [mul_comm N]
    exact mul_le_mul_of_nonneg_right (mul_le_mul_of_nonneg_left hκ hγ) h5
  have h7 : N * γ * τ ≤ (1 - γ) * τ := mul_le_mul_of_nonneg_right hn.le hτ
  linarith

omit [Zero F] [Add F] [Sub F] [Mul F] [Div F] in
/-- A step cannot meet a pivot that is not positive if the matrix is positive definite with some
margin. -/
theorem NearCholesky.no_breakdown {ρ : ℝ} (hρ : 1 ≤ ρ) {n k : Nat} {a s : Nat → Nat → F}
    (H : NearCholesky val ρ n a s k) (hk : k < n) (hd : ∀ m, m < k → 0 < val (s m m))
    (hs : val (s k k) ≤ 0) (hn : n * (ρ ^ (n + 1) - 1) < 2 - ρ ^ (n + 1))
    (hpd : ∀ w : Nat → ℝ, (∃ i, i < n ∧ w i ≠ 0) →
      n * (ρ ^ (n + 1) - 1) * ∑ i ∈ range n, val (a i i) * w i ^ 2 <
      (2 - ρ ^ (n + 1)) * ∑ i ∈ range n, ∑ j ∈ range n,
        symOf .lower (fun i j => val (a i j)) i j * w i * w j) : False := by
  set l := triOf .lower .explicit (fun i j => val (s i j)) with hl
  set γ := ρ ^ (n + 1) - 1 with hγ
  have hγ0 : 0 ≤ γ := by have := one_le_pow₀ (n := n + 1) hρ; linarith
  have hc : (2 : ℝ) - ρ ^ (n + 1) = 1 - γ := by rw [hγ]; ring
  rw [hc] at hn hpd
  have hn0 : (0 : ℝ) ≤ n * γ := by positivity
  obtain ⟨θk, π, hθk, hπ, ek⟩ := H k k hk le_rfl
  rw [if_pos le_rfl, ← hl] at ek
  have near : ∀ {θ : Nat → ℝ}, (∀ m, m < k → Near (ρ ^ (m + 2)) (θ m)) →
      ∀ m, m < k → |θ m - 1| ≤ γ := fun hθ m hm => (hθ m hm).2.trans (by
    have := pow_le_pow_right₀ hρ (show m + 2 ≤ n + 1 by omega)
    linarith)
  have hπ0 : 0 ≤ π := by
    have h3 := abs_le.1 hπ.2
    have h4 := pow_le_pow_right₀ hρ (show k ≤ n + 1 by omega)
    linarith
  have hτ : 0 ≤ -(val (s k k) * π) := by nlinarith
  have ek' : val (a k k) = ∑ m ∈ range k, l k m * l k m * θk m - -(val (s k k) * π) := by
    rw [ek]; ring
  generalize -(val (s k k) * π) = τ at hτ ek'
  have low : ∀ i j, i ≤ k → j ≤ i → ∃ θ : Nat → ℝ, (∀ m, m < k → |θ m - 1| ≤ γ) ∧
      val (a i j) = ∑ m ∈ range k, l i m * l j m * θ m - if i = k ∧ j = k then τ else 0 := by
    intro i j hi hij
    by_cases q : i = k ∧ j = k
    · rw [if_pos q, q.1, q.2]
      exact ⟨θk, near hθk, ek'⟩
    · obtain ⟨θ, π', hθ, -, e⟩ := H i j (by omega) hij
      rw [if_neg (by omega), add_zero] at e
      exact ⟨θ, near hθ, by rw [if_neg q, sub_zero]; exact e⟩
  have both : ∀ i j, i ≤ k → j ≤ k → ∃ θ : Nat → ℝ, (∀ m, m < k → |θ m - 1| ≤ γ) ∧
      symOf .lower (fun i j => val (a i j)) i j =
        ∑ m ∈ range k, l i m * l j m * θ m - if i = k ∧ j = k then τ else 0 := by
    intro i j hi hj
    rw [symOf_lower_eq]
    by_cases q : j ≤ i
    · rw [if_pos q]
      exact low i j hi q
    · rw [if_neg q]
      obtain ⟨θ, hθ, e⟩ := low j i hj (by omega)
      refine ⟨θ, hθ, e.trans ?_⟩
      rw [if_neg (by omega), if_neg (by omega)]
      congr 1
      exact sum_congr rfl fun m _ => by ring
  obtain ⟨x, hx, h0⟩ := exists_null (k := k) (l := l)
    (fun m hm => by rw [hl, tri_lower, if_pos le_rfl]; exact (hd m hm).ne')
    (fun i m him => by rw [hl, tri_lower, if_neg (by omega)]) k le_rfl
  have hform := form_error hγ0 both hx fun m hm => h0 m (by omega) hm
  have row : ∀ i, i ≤ k → (1 - γ) * ∑ m ∈ range k, l i m ^ 2 ≤
      val (a i i) + if i = k then τ else 0 := by
    intro i hi
    obtain ⟨θ, hθ, e⟩ := low i i hi le_rfl
    have e2 : val (a i i) + (if i = k then τ else 0) = ∑ m ∈ range k, l i m * l i m * θ m := by
      rw [e]
      by_cases q : i = k
      · rw [if_pos ⟨q, q⟩, if_pos q]; ring
      · rw [if_neg (fun r => q r.1), if_neg q]; ring
    rw [e2, mul_sum]
    refine sum_le_sum fun m hm => ?_
    have h3 := abs_le.1 (hθ m (mem_range.1 hm))
    nlinarith [sq_nonneg (l i m)]
  have hrows : (1 - γ) * ∑ i ∈ range (k + 1), (∑ m ∈ range k, l i m ^ 2) * x i ^ 2 ≤
      (∑ i ∈ range (k + 1), val (a i i) * x i ^ 2) + τ := by
    have e : ∑ i ∈ range (k + 1), (val (a i i) + if i = k then τ else 0) * x i ^ 2 =
        (∑ i ∈ range (k + 1), val (a i i) * x i ^ 2) + τ := by
      simp only [add_mul, sum_add_distrib]
      congr 1
      rw [sum_eq_single k, if_pos rfl, hx]
      · ring
      · intro i _ q; rw [if_neg q, zero_mul]
      · intro q; exact absurd (mem_range.2 (Nat.lt_succ_self k)) q
    rw [← e, mul_sum]
    refine sum_le_sum fun i hi => ?_
    rw [← mul_assoc]
    exact mul_le_mul_of_nonneg_right (row i (by have := mem_range.1 hi; omega)) (sq_nonneg _)
  have hP : 0 ≤ ∑ i ∈ range (k + 1), (∑ m ∈ range k, l i m ^ 2) * x i ^ 2 :=
    sum_nonneg fun i _ => mul_nonneg (sum_nonneg fun m _ => sq_nonneg _) (sq_nonneg _)
  have hw := hpd (fun i => if i ≤ k then x i else 0) ⟨k, hk, by
    rw [if_pos le_rfl, hx]; exact one_ne_zero⟩
  have shrink : ∀ f : Nat → ℝ, (∀ i, k < i → f i = 0) →
      ∑ i ∈ range n, f i = ∑ i ∈ range (k + 1), f i := fun f hf =>
    (sum_subset (range_subset_range.2 (by omega)) fun i _ hi =>
      hf i (by have := mt mem_range.2 hi; omega)).symm
  have inside : ∀ i ∈ range (k + 1), (if i ≤ k then x i else 0) = x i := fun i hi =>
    if_pos (by have := mem_range.1 hi; omega)
  have eQ : ∑ i ∈ range n, val (a i i) * (if i ≤ k then x i else 0) ^ 2 =
      ∑ i ∈ range (k + 1), val (a i i) * x i ^ 2 := by
    rw [shrink _ fun i hi => by rw [if_neg (by omega)]; ring]
    exact sum_congr rfl fun i hi => by rw [inside i hi]
  have eX : ∑ i ∈ range n, ∑ j ∈ range n, symOf .lower (fun i j => val (a i j)) i j *
        (if i ≤ k then x i else 0) * (if j ≤ k then x j else 0) =
      ∑ i ∈ range (k + 1), ∑ j ∈ range (k + 1),
        symOf .lower (fun i j => val (a i j)) i j * x i * x j := by
    rw [shrink _ fun i hi => sum_eq_zero fun j _ => by rw [if_neg (c := i ≤ k) (by omega)]; ring]
    refine sum_congr rfl fun i hi => ?_
    rw [shrink _ fun j hj => by rw [if_neg (c := j ≤ k) (by omega)]; ring]
    exact sum_congr rfl fun j hj => by rw [inside i hi, inside j hj]
  beta_reduce at hw
  rw [eQ, eX] at hw
  have hkn : (k : ℝ) + 1 ≤ n := by exact_mod_cast hk
  generalize ∑ i ∈ range (k + 1), ∑ j ∈ range (k + 1),
      symOf .lower (fun i j => val (a i j)) i j * x i * x j = X at hw hform
  generalize ∑ i ∈ range (k + 1), (∑ m ∈ range k, l i m ^ 2) * x i ^ 2 = P at hform hrows hP
  generalize ∑ i ∈ range (k + 1), val (a i i) * x i ^ 2 = Q at hw hrows
  exact breakdown_arith hγ0 hτ hP hkn (by positivity) hn hform hrows hw

end StdBLAS

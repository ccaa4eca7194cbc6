import Verif.Spec.Rounding
import Verif.Lemmas.Blas3Cols
import Mathlib.Algebra.BigOperators.Field
import Mathlib.Tactic.LinearCombination

/-!
# Error analysis of left-to-right sums and of one substitution row
-/

namespace StdBLAS
open Finset
variable {F K : Type} [Zero F] [Add F] [Sub F] [Mul F] [Div F] [NormedField K] {val : F → K} {u : ℝ}

/-! ## Sums -/

/-- `v` approximates `e` with at most `m` roundings of magnitude `w`. -/
def Close (u : ℝ) (m : ℕ) (v e : K) (w : ℝ) : Prop := ‖e‖ ≤ w ∧ ‖v - e‖ ≤ ((1 + u) ^ m - 1) * w

theorem Close.refl {v : K} (m : ℕ) (hu : 0 ≤ u) : Close u m v v ‖v‖ :=
  ⟨le_rfl, by
    rw [sub_self, norm_zero]
    exact mul_nonneg (sub_nonneg.2 (one_le_pow₀ (by linarith))) (norm_nonneg _)⟩

theorem Close.mono {m n : ℕ} {v e : K} {w : ℝ} (hu : 0 ≤ u) (hmn : m ≤ n) (c : Close u m v e w) :
    Close u n v e w :=
  ⟨c.1, c.2.trans (mul_le_mul_of_nonneg_right
    (sub_le_sub_right (pow_le_pow_right₀ (by linarith) hmn) 1) ((norm_nonneg _).trans c.1))⟩

/-- One more rounding. -/
theorem Close.round {m : ℕ} {v e δ : K} {w : ℝ} (hu : 0 ≤ u) (c : Close u m v e w) (hδ : ‖δ‖ ≤ u) :
    Close u (m + 1) (v * (1 + δ)) e w := by
  refine ⟨c.1, ?_⟩
  have e1 : v * (1 + δ) - e = (v - e) * (1 + δ) + e * δ := by ring
  have h1 : ‖(1 : K) + δ‖ ≤ 1 + u := (norm_add_le _ _).trans (by rw [norm_one]; linarith)
  have hw : 0 ≤ w := (norm_nonneg _).trans c.1
  have h0 : 0 ≤ ((1 + u) ^ m - 1) * w :=
    mul_nonneg (sub_nonneg.2 (one_le_pow₀ (by linarith))) hw
  rw [e1]
  calc ‖(v - e) * (1 + δ) + e * δ‖ ≤ ‖v - e‖ * ‖1 + δ‖ + ‖e‖ * ‖δ‖ := by
        refine (norm_add_le _ _).trans ?_
        rw [norm_mul, norm_mul]
    _ ≤ ((1 + u) ^ m - 1) * w * (1 + u) + w * u :=
        add_le_add (mul_le_mul c.2 h1 (norm_nonneg _) h0) (mul_le_mul c.1 hδ (norm_nonneg _) hw)
    _ = ((1 + u) ^ (m + 1) - 1) * w := by ring

theorem Close.add {m : ℕ} {v e v' e' : K} {w w' : ℝ} (c : Close u m v e w) (c' : Close u m v' e' w') :
    Close u m (v + v') (e + e') (w + w') := by
  refine ⟨(norm_add_le _ _).trans (add_le_add c.1 c'.1), ?_⟩
  rw [show v + v' - (e + e') = (v - e) + (v' - e') by ring, mul_add]
  exact (norm_add_le _ _).trans (add_le_add c.2 c'.2)

theorem Rounded.close_add (R : Rounded val u) {m : ℕ} {a b : F} {e e' : K} {w w' : ℝ}
    (c : Close u m (val a) e w) (c' : Close u m (val b) e' w') :
    Close u (m + 1) (val (a + b)) (e + e') (w + w') := by
  obtain ⟨δ, hδ, h⟩ := R.add a b
  rw [h]
  exact (c.add c').round R.nonneg hδ

theorem Rounded.close_mul (R : Rounded val u) (a b : F) :
    Close u 1 (val (a * b)) (val a * val b) (‖val a‖ * ‖val b‖) := by
  obtain ⟨δ, hδ, h⟩ := R.mul a b
  rw [h, ← norm_mul]
  simpa using (Close.refl (v := val a * val b) 0 R.nonneg).round R.nonneg hδ

/-- A product one factor of which is itself rounded. -/
theorem Rounded.close_mul_right (R : Rounded val u) {m : ℕ} {a b : F} {e : K} {w : ℝ}
    (c : Close u m (val a) e w) :
    Close u (m + 1) (val (a * b)) (e * val b) (w * ‖val b‖) := by
  obtain ⟨δ, hδ, h⟩ := R.mul a b
  rw [h]
  refine Close.round R.nonneg ⟨?_, ?_⟩ hδ
  · rw [norm_mul]; exact mul_le_mul_of_nonneg_right c.1 (norm_nonneg _)
  · rw [← sub_mul, norm_mul, ← mul_assoc]
    exact mul_le_mul_of_nonneg_right c.2 (norm_nonneg _)

/-- A left-to-right sum of rounded terms. -/
theorem Rounded.close_foldl (R : Rounded val u) {ι : Type} {t : ι → F} {e : ι → K} {w : ι → ℝ}
    {l : List ι} : ∀ {m : ℕ} {s : F} {S : K} {M : ℝ}, Close u m (val s) S M →
    (∀ k ∈ l, Close u m (val (t k)) (e k) (w k)) →
    Close u (m + l.length) (val (l.foldl (fun s k => s + t k) s)) (S + (l.map e).sum)
      (M + (l.map w).sum) := by
  induction l with
  | nil => intro m s S M c _; simpa using c
  | cons k l ih =>
    intro m s S M c ht
    have h1 := R.close_add c (ht k (by simp))
    have h2 := ih h1 fun j hj => (ht j (by simp [hj])).mono R.nonneg (Nat.le_succ m)
    simp only [List.foldl_cons, List.map_cons, List.sum_cons, List.length_cons]
    rw [show m + (l.length + 1) = m + 1 + l.length by omega, ← add_assoc S, ← add_assoc M]
    exact h2

theorem list_sum_range' {M : Type} [AddCommMonoid M] (n : ℕ) (f : ℕ → M) :
    ((List.range' 0 n).map f).sum = ∑ k ∈ range n, f k := by
  rw [← List.range_eq_range']
  exact (Finset.sum_range f).trans (by rw [← List.sum_ofFn, List.ofFn_eq_map, ← List.map_coe_finRange_eq_range, List.map_map]; rfl) |>.symm

/-- A left-to-right sum of products. -/
theorem Rounded.close_products (R : Rounded val u) (n : ℕ) (f g : ℕ → F) (init : F) :
    Close u (n + 1) (val ((List.range' 0 n).foldl (fun s k => s + f k * g k) init))
      (val init + ∑ k ∈ range n, val (f k) * val (g k))
      (‖val init‖ + ∑ k ∈ range n, ‖val (f k)‖ * ‖val (g k)‖) := by
  have := R.close_foldl (l := List.range' 0 n) (Close.refl (v := val init) 1 R.nonneg)
    fun k _ => R.close_mul (f k) (g k)
  rw [list_sum_range', list_sum_range', List.length_range', Nat.add_comm] at this
  exact this

/-! ## Substitution -/

/-- `x` is a product of factors whose deviation from 1 is bounded by `A`. -/
def Near (A : ℝ) (x : K) : Prop := 1 ≤ A ∧ ‖x - 1‖ ≤ A - 1

theorem Near.mul {A B : ℝ} {x y : K} (hx : Near A x) (hy : Near B y) : Near (A * B) (x * y) := by
  obtain ⟨hA, hx⟩ := hx
  obtain ⟨hB, hy⟩ := hy
  refine ⟨one_le_mul_of_one_le_of_one_le hA hB, ?_⟩
  rw [show x * y - 1 = (x - 1) * (y - 1) + ((x - 1) + (y - 1)) by ring]
  calc ‖(x - 1) * (y - 1) + ((x - 1) + (y - 1))‖
      ≤ ‖x - 1‖ * ‖y - 1‖ + (‖x - 1‖ + ‖y - 1‖) := by
        refine (norm_add_le _ _).trans (add_le_add (norm_mul_le _ _) (norm_add_le _ _))
    _ ≤ (A - 1) * (B - 1) + ((A - 1) + (B - 1)) :=
        add_le_add (mul_le_mul hx hy (norm_nonneg _) (by linarith)) (add_le_add hx hy)
    _ = A * B - 1 := by ring

theorem Near.mono {A B : ℝ} {x : K} (hx : Near A x) (h : A ≤ B) : Near B x :=
  ⟨hx.1.trans h, hx.2.trans (by linarith)⟩

theorem near_one : Near 1 (1 : K) := ⟨le_rfl, by simp⟩

theorem near_round {δ : K} (hu : 0 ≤ u) (hδ : ‖δ‖ ≤ u) : Near (1 + u) (1 + δ) :=
  ⟨by linarith, by simpa using hδ⟩

theorem round_ne_zero {δ : K} (h1 : u < 1) (hδ : ‖δ‖ ≤ u) : 1 + δ ≠ 0 := by
  intro h
  have : δ = -1 := by linear_combination h
  rw [this, norm_neg, norm_one] at hδ
  linarith

theorem near_inv {δ : K} (hu : 0 ≤ u) (h1 : u < 1) (hδ : ‖δ‖ ≤ u) : Near (1 / (1 - u)) (1 + δ)⁻¹ := by
  have h0 := round_ne_zero h1 hδ
  have hpos : 0 < 1 - u := by linarith
  refine ⟨(one_le_div hpos).2 (by linarith), ?_⟩
  have e : (1 + δ)⁻¹ - 1 = -δ * (1 + δ)⁻¹ := by field_simp; ring
  have hn : 1 - u ≤ ‖1 + δ‖ := by
    have := norm_sub_norm_le (1 : K) (-δ)
    rw [norm_neg, norm_one, sub_neg_eq_add] at this
    linarith
  rw [e, norm_mul, norm_neg, norm_inv]
  calc ‖δ‖ * ‖1 + δ‖⁻¹ ≤ u * (1 - u)⁻¹ :=
        mul_le_mul hδ (inv_anti₀ hpos hn) (inv_nonneg.2 (norm_nonneg _)) hu
    _ = 1 / (1 - u) - 1 := by field_simp; ring

/-- The subtractions of one row: the computed value solves a perturbed equation. -/
theorem Rounded.sub_products (R : Rounded val u) (h1 : u < 1) (f g : ℕ → F) {l : List ℕ} :
    l.Nodup → ∀ s : F, ∃ (e : K) (c : ℕ → K), Near ((1 / (1 - u)) ^ l.length) e ∧
      (∀ j ∈ l, Near ((1 + u) * (1 / (1 - u)) ^ l.length) (c j)) ∧
      e * val (l.foldl (fun s j => s - f j * g j) s) =
        val s - ∑ j ∈ l.toFinset, c j * val (f j) * val (g j) := by
  have hq : (1 : ℝ) ≤ 1 / (1 - u) := (one_le_div (by linarith)).2 (by linarith [R.nonneg])
  induction l with
  | nil => intro _ s; exact ⟨1, fun _ => 1, by simpa using near_one, by simp, by simp⟩
  | cons j l ih =>
    intro hn s
    rw [List.nodup_cons] at hn
    obtain ⟨δ, hδ, eδ⟩ := R.mul (f j) (g j)
    obtain ⟨ε, hε, eε⟩ := R.sub s (f j * g j)
    obtain ⟨e, c, he, hc, heq⟩ := ih hn.2 (s - f j * g j)
    have h0 := round_ne_zero h1 hε
    have hη := near_inv R.nonneg h1 hε
    refine ⟨(1 + ε)⁻¹ * e, fun k => if k = j then 1 + δ else (1 + ε)⁻¹ * c k, ?_, ?_, ?_⟩
    · rw [List.length_cons, pow_succ']
      exact hη.mul he
    · intro k hk
      have hlen : (1 + u) * (1 / (1 - u)) ^ (j :: l).length =
          1 / (1 - u) * ((1 + u) * (1 / (1 - u)) ^ l.length) := by
        rw [List.length_cons, pow_succ']; ring
      by_cases hkj : k = j
      · simp only [if_pos hkj]
        refine (near_round R.nonneg hδ).mono ?_
        exact le_mul_of_one_le_right (by linarith [R.nonneg]) (one_le_pow₀ hq)
      · simp only [if_neg hkj]
        rw [hlen]
        refine hη.mul (hc k ?_)
        simpa [hkj] using hk
    · rw [List.foldl_cons, mul_assoc, heq, eε, eδ, List.toFinset_cons,
        sum_insert (by simpa using hn.1)]
      beta_reduce
      rw [if_pos rfl]
      have e2 : ∑ k ∈ l.toFinset, (if k = j then 1 + δ else (1 + ε)⁻¹ * c k) * val (f k) * val (g k) =
          (1 + ε)⁻¹ * ∑ k ∈ l.toFinset, c k * val (f k) * val (g k) := by
        rw [mul_sum]
        refine sum_congr rfl fun k hk => ?_
        have : k ≠ j := by rintro rfl; exact hn.1 (by simpa using hk)
        rw [if_neg this]; ring
      rw [e2]
      field_simp
      ring

theorem restOf_length {t : Triangle} {n i : ℕ} (hi : i < n) : (restOf t n i).length + 1 ≤ n := by
  cases t <;> simp only [restOf, List.length_range'] <;> omega

/-- One row of a substitution: the computed value satisfies the row of a perturbed triangle. -/
theorem Rounded.subRow_backward (R : Rounded val u) (h1 : u < 1) {t : Triangle} {d : Diag} {n i : ℕ}
    {a : ℕ → ℕ → F} {g v : ℕ → F} (hi : i < n) (hd : d = .explicit → val (a i i) ≠ 0)
    (hv : v i = subRow (· / ·) t d n a g v i) :
    ∃ r : ℕ → K, (∀ j, j < n →
        ‖r j - triOf t d (fun i j => val (a i j)) i j‖ ≤
          (((1 + u) / (1 - u)) ^ n - 1) * ‖triOf t d (fun i j => val (a i j)) i j‖) ∧
      ∑ j ∈ range n, r j * val (v j) = val (g i) := by
  have hu0 := R.nonneg
  have hpos : 0 < 1 - u := by linarith
  have hq : (1 : ℝ) ≤ 1 / (1 - u) := (one_le_div hpos).2 (by linarith)
  have hq2 : 1 / (1 - u) ≤ (1 + u) / (1 - u) := div_le_div_of_nonneg_right (by linarith) hpos.le
  set q := (1 + u) / (1 - u) with hqdef
  have hlen := restOf_length (t := t) hi
  obtain ⟨e, c, he, hc, heq⟩ := R.sub_products h1 (fun j => a i j) v (restOf_nodup (t := t) (n := n) (i := i)) (g i)
  have hpow : (1 / (1 - u)) ^ (restOf t n i).length ≤ q ^ (restOf t n i).length :=
    pow_le_pow_left₀ (by linarith) hq2 _
  have hq1 : 1 ≤ q := hq.trans hq2
  have hle : (1 + u) * (1 / (1 - u)) ^ (restOf t n i).length ≤ q ^ n := by
    have : 1 + u ≤ q := by
      rw [hqdef, le_div_iff₀ hpos]; nlinarith
    calc (1 + u) * (1 / (1 - u)) ^ (restOf t n i).length
        ≤ q * q ^ (restOf t n i).length := mul_le_mul this hpow (by positivity) (by linarith)
      _ = q ^ ((restOf t n i).length + 1) := (pow_succ' _ _).symm
      _ ≤ q ^ n := pow_le_pow_right₀ hq1 hlen
  -- the factor on the diagonal
  have hdiag : ∃ x : K, Near (q ^ n) x ∧
      x * triOf t d (fun i j => val (a i j)) i i * val (v i) =
        val (g i) - ∑ j ∈ (restOf t n i).toFinset, c j * val (a i j) * val (v j) := by
    cases d with
    | explicit =>
      have hne := hd rfl
      simp only [subRow, if_true] at hv
      obtain ⟨η, hη, eη⟩ := R.div ((restOf t n i).foldl (fun s j => s - a i j * v j) (g i)) (a i i) hne
      have h0 := round_ne_zero h1 hη
      refine ⟨e * (1 + η)⁻¹, (he.mul (near_inv hu0 h1 hη)).mono ?_, ?_⟩
      · rw [← pow_succ]
        exact (pow_le_pow_left₀ (by linarith) hq2 _).trans (pow_le_pow_right₀ hq1 hlen)
      · rw [triOf_diag_explicit, ← heq, hv, eη]
        field_simp
    | implicitUnit =>
      simp only [subRow, reduceCtorEq, if_false] at hv
      refine ⟨e, he.mono (hpow.trans (pow_le_pow_right₀ hq1 (by omega))), ?_⟩
      rw [triOf_diag_unit, ← heq, ← hv, mul_one]
  obtain ⟨x, hx, hxe⟩ := hdiag
  classical
  refine ⟨fun j => if j = i then x * triOf t d (fun i j => val (a i j)) i i
    else if j ∈ restOf t n i then c j * val (a i j) else 0, ?_, ?_⟩
  · intro j hj
    by_cases hji : j = i
    · subst hji
      simp only [if_true]
      rw [show ∀ y : K, x * y - y = (x - 1) * y from fun y => by ring, norm_mul]
      exact mul_le_mul_of_nonneg_right hx.2 (norm_nonneg _)
    · simp only [if_neg hji]
      by_cases hm : j ∈ restOf t n i
      · rw [if_pos hm]
        have : triOf t d (fun i j => val (a i j)) i j = val (a i j) := by
          unfold triOf
          rw [if_neg (Ne.symm hji), if_pos ((mem_restOf hi).1 hm).2.2]
        rw [this, show c j * val (a i j) - val (a i j) = (c j - 1) * val (a i j) by ring, norm_mul]
        exact mul_le_mul_of_nonneg_right ((hc j hm).mono hle).2 (norm_nonneg _)
      · rw [if_neg hm]
        have : triOf t d (fun i j => val (a i j)) i j = 0 := by
          unfold triOf
          rw [if_neg (Ne.symm hji), if_neg fun hr => hm ((mem_restOf hi).2 ⟨hj, hji, hr⟩)]
        rw [this]; simp
  · rw [← Finset.add_sum_erase _ _ (mem_range.2 hi)]
    beta_reduce
    rw [if_pos rfl, hxe]
    have e3 : ∑ j ∈ (range n).erase i, (if j = i then x * triOf t d (fun i j => val (a i j)) i i
        else if j ∈ restOf t n i then c j * val (a i j) else 0) * val (v j) =
        ∑ j ∈ (restOf t n i).toFinset, c j * val (a i j) * val (v j) := by
      have hsub : (restOf t n i).toFinset ⊆ (range n).erase i := by
        intro j hj
        have := (mem_restOf hi).1 (List.mem_toFinset.1 hj)
        exact mem_erase.2 ⟨this.2.1, mem_range.2 this.1⟩
      rw [← sum_subset hsub]
      · refine sum_congr rfl fun j hj => ?_
        have hj' := List.mem_toFinset.1 hj
        rw [if_neg ((mem_restOf hi).1 hj').2.1, if_pos hj']
      · intro j hj hnj
        rw [if_neg (mem_erase.1 hj).1, if_neg fun h => hnj (List.mem_toFinset.2 h), zero_mul]
    rw [e3]
    ring

end StdBLAS

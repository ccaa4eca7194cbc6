import Verif.Lemmas.Rounding
import Verif.Lemmas.Ordered

/-! # Rounding errors of the sums of `Spec/Order` -/

namespace StdBLAS
open Finset
variable {F K : Type} [Zero F] [Add F] [Sub F] [Mul F] [Div F] [NormedField K]
variable {val : F → K} {u : ℝ}

theorem Rounded.close_leftSum (R : Rounded val u) {m n : ℕ} {s : F} {t : ℕ → F} {S : K} {M : ℝ}
    {e : ℕ → K} {w : ℕ → ℝ} (c : Close u m (val s) S M)
    (ct : ∀ k, k < n → Close u m (val (t k)) (e k) (w k)) :
    Close u (m + n) (val (leftSum s n t)) (S + ∑ k ∈ range n, e k) (M + ∑ k ∈ range n, w k) := by
  induction n with
  | zero => simpa [leftSum] using c
  | succ n ih =>
    rw [sum_range_succ, sum_range_succ, ← add_assoc, ← add_assoc, ← add_assoc]
    exact R.close_add (ih fun k hk => ct k (by omega))
      ((ct n (by omega)).mono R.nonneg (by omega))

theorem Rounded.close_leftProducts (R : Rounded val u) (n : ℕ) (f g : ℕ → F) (init : F) :
    Close u (n + 1) (val (leftSum init n fun k => f k * g k))
      (val init + ∑ k ∈ range n, val (f k) * val (g k))
      (‖val init‖ + ∑ k ∈ range n, ‖val (f k)‖ * ‖val (g k)‖) := by
  rw [Nat.add_comm]
  exact R.close_leftSum (Close.refl 1 R.nonneg) fun k _ => R.close_mul (f k) (g k)

theorem triOf_diag {α : Type} [Zero α] [One α] (t : Triangle) (d : Diag) (a : ℕ → ℕ → α) (i : ℕ) :
    triOf t d a i i = match d with | .implicitUnit => 1 | .explicit => a i i := by
  unfold triOf; rw [if_pos rfl]; cases d <;> rfl

theorem triOf_inside {α : Type} [Zero α] [One α] {t : Triangle} {d : Diag} {a : ℕ → ℕ → α} {i j : ℕ}
    (hij : i ≠ j) (q : t.region i j) : triOf t d a i j = a i j := by
  unfold triOf; rw [if_neg hij, if_pos q]

theorem triOf_outside {α : Type} [Zero α] [One α] {t : Triangle} {d : Diag} {a : ℕ → ℕ → α} {i j : ℕ}
    (hij : i ≠ j) (q : ¬ t.region i j) : triOf t d a i j = 0 := by
  unfold triOf; rw [if_neg hij, if_neg q]

theorem Rounded.close_triTerm (R : Rounded val u) {t : Triangle} {d : Diag} {a : ℕ → ℕ → F}
    {f : ℕ → F} {r c : ℕ} (q : t.region r c ∨ r = c) :
    Close u 1 (val (triTerm d a f r c)) (triOf t d (fun i j => val (a i j)) r c * val (f c))
      (‖triOf t d (fun i j => val (a i j)) r c‖ * ‖val (f c)‖) := by
  by_cases e : r = c
  · subst e
    rw [triOf_diag]
    unfold triTerm
    cases d
    · rw [if_pos ⟨rfl, rfl⟩]
      simpa using Close.refl (v := val (f r)) 1 R.nonneg
    · rw [if_neg (by simp)]
      exact R.close_mul _ _
  · rw [triOf_inside e (q.resolve_right e)]
    unfold triTerm
    rw [if_neg fun h => e h.2.symm]
    exact R.close_mul _ _

/-- Sums of a row of a lower triangular matrix stop at the diagonal. -/
theorem sum_lower {M : Type} [AddCommMonoid M] {n r : ℕ} (hr : r < n) (g : ℕ → M)
    (hz : ∀ k, k < n → r < k → g k = 0) : ∑ k ∈ range n, g k = ∑ k ∈ range (r + 1), g k := by
  obtain ⟨m, rfl⟩ := Nat.exists_eq_add_of_lt hr
  rw [show r + m + 1 = r + 1 + m by omega, sum_range_add]
  rw [sum_eq_zero (s := range m) fun k hk => hz _ (by rw [mem_range] at hk; omega) (by omega),
    add_zero]

/-- Sums of a row of an upper triangular matrix start at the diagonal. -/
theorem sum_upper {M : Type} [AddCommMonoid M] {n r : ℕ} (hr : r < n) (g : ℕ → M)
    (hz : ∀ k, k < r → g k = 0) : ∑ k ∈ range n, g k = ∑ k ∈ range (n - r), g (r + k) := by
  conv_lhs => rw [show n = r + (n - r) by omega, sum_range_add]
  rw [sum_eq_zero (s := range r) fun k hk => hz _ (mem_range.mp hk), zero_add]

theorem sum_upper' {M : Type} [AddCommMonoid M] {n r : ℕ} (hr : r < n) (g : ℕ → M)
    (hz : ∀ k, k < r → g k = 0) :
    ∑ k ∈ range n, g k = g r + ∑ k ∈ range (n - 1 - r), g (r + 1 + k) := by
  rw [sum_upper hr g hz, show n - r = (n - 1 - r) + 1 by omega, sum_range_succ', add_comm]
  refine congrArg₂ _ rfl (sum_congr rfl fun k _ => ?_)
  rw [show r + (k + 1) = r + 1 + k by omega]

theorem Rounded.close_triSeq (R : Rounded val u) (t : Triangle) (d : Diag) {n : ℕ}
    (a : ℕ → ℕ → F) (f : ℕ → F) (s : F) {r : ℕ} (hr : r < n) :
    Close u (n + 1) (val (triSeq t d n a f s r))
      (val s + ∑ k ∈ range n, triOf t d (fun i j => val (a i j)) r k * val (f k))
      (‖val s‖ + ∑ k ∈ range n, ‖triOf t d (fun i j => val (a i j)) r k‖ * ‖val (f k)‖) := by
  cases t with
  | lower =>
    have out : ∀ k, k < n → r < k → triOf .lower d (fun i j => val (a i j)) r k = 0 :=
      fun k _ hk => triOf_outside (by omega) (fun h => by have : k ≤ r := h; omega)
    rw [sum_lower hr _ fun k hk h => by rw [out k hk h, zero_mul],
      sum_lower hr _ fun k hk h => by rw [out k hk h, norm_zero, zero_mul]]
    refine Close.mono R.nonneg (m := 1 + (r + 1)) (by omega) ?_
    exact R.close_leftSum (Close.refl 1 R.nonneg) fun k hk =>
      R.close_triTerm (t := .lower) (Or.inl (show k ≤ r by omega))
  | upper =>
    have out : ∀ k, k < r → triOf .upper d (fun i j => val (a i j)) r k = 0 :=
      fun k hk => triOf_outside (by omega) (fun h => by have : r ≤ k := h; omega)
    rw [sum_upper hr _ fun k hk => by rw [out k hk, zero_mul],
      sum_upper hr _ fun k hk => by rw [out k hk, norm_zero, zero_mul]]
    refine Close.mono R.nonneg (m := 1 + (n - r)) (by omega) ?_
    exact R.close_leftSum (Close.refl 1 R.nonneg) fun k hk =>
      R.close_triTerm (t := .upper) (Or.inl (show r ≤ r + k by omega))

/-- The in-place product: the diagonal term first, then the strict triangle. -/
theorem Rounded.close_triSeqInPlace (R : Rounded val u) (t : Triangle) (d : Diag) {n : ℕ}
    (a : ℕ → ℕ → F) (f : ℕ → F) {s : F} {r : ℕ} (hr : r < n)
    (hs : Close u 1 (val s) (triOf t d (fun i j => val (a i j)) r r * val (f r))
      (‖triOf t d (fun i j => val (a i j)) r r‖ * ‖val (f r)‖)) :
    Close u n (val (triSeqInPlace t n a f s r))
      (∑ k ∈ range n, triOf t d (fun i j => val (a i j)) r k * val (f k))
      (∑ k ∈ range n, ‖triOf t d (fun i j => val (a i j)) r k‖ * ‖val (f k)‖) := by
  cases t with
  | lower =>
    have out : ∀ k, k < n → r < k → triOf .lower d (fun i j => val (a i j)) r k = 0 :=
      fun k _ hk => triOf_outside (by omega) (fun h => by have : k ≤ r := h; omega)
    rw [sum_lower hr _ fun k hk h => by rw [out k hk h, zero_mul],
      sum_lower hr _ fun k hk h => by rw [out k hk h, norm_zero, zero_mul], sum_range_succ,
      sum_range_succ, add_comm (∑ x ∈ range r, triOf _ _ _ _ _ * _), add_comm (∑ x ∈ range r, ‖_‖ * _),
      ← sum_range_reflect _ r, ← sum_range_reflect (fun k => ‖_‖ * _) r]
    refine Close.mono R.nonneg (m := 1 + r) (by omega) ?_
    refine R.close_leftSum hs fun k hk => ?_
    rw [triOf_inside (t := .lower) (by omega) (show r - 1 - k ≤ r by omega)]
    exact R.close_mul _ _
  | upper =>
    have out : ∀ k, k < r → triOf .upper d (fun i j => val (a i j)) r k = 0 :=
      fun k hk => triOf_outside (by omega) (fun h => by have : r ≤ k := h; omega)
    rw [sum_upper' hr _ fun k hk => by rw [out k hk, zero_mul],
      sum_upper' hr _ fun k hk => by rw [out k hk, norm_zero, zero_mul]]
    refine Close.mono R.nonneg (m := 1 + (n - 1 - r)) (by omega) ?_
    refine R.close_leftSum hs fun k hk => ?_
    rw [triOf_inside (t := .upper) (by omega) (show r ≤ r + 1 + k by omega)]
    exact R.close_mul _ _

/-- An element of a product with a triangular matrix, in terms of a row of exact terms `e` that
vanish outside the triangle. -/
theorem Rounded.close_triElement (R : Rounded val u) {before : Bool} {d : Diag} {n i : ℕ}
    {t : ℕ → F} {diag s : F} {e : ℕ → K} {w : ℕ → ℝ} (hi : i < n)
    (hd : Close u 1 (val diag) (e i) (w i))
    (hb : before = true → ∀ k, k < n →
      (k < i → Close u 1 (val (t k)) (e k) (w k)) ∧ (i < k → e k = 0 ∧ w k = 0))
    (ha : before = false → ∀ k, k < n →
      (i < k → Close u 1 (val (t k)) (e k) (w k)) ∧ (k < i → e k = 0 ∧ w k = 0)) :
    Close u (n + 1) (val (triElement before d n i t diag s)) (val s + ∑ k ∈ range n, e k)
      (‖val s‖ + ∑ k ∈ range n, w k) := by
  cases before with
  | true =>
    rw [sum_lower hi _ fun k hk h => ((hb rfl k hk).2 h).1,
      sum_lower hi _ fun k hk h => ((hb rfl k hk).2 h).2, sum_range_succ, sum_range_succ,
      ← add_assoc, ← add_assoc]
    unfold triElement
    refine Close.mono R.nonneg (m := 1 + i + 1) (by omega) ?_
    exact R.close_add (R.close_leftSum (Close.refl 1 R.nonneg)
      fun k hk => (hb rfl k (by omega)).1 hk) (hd.mono R.nonneg (by omega))
  | false =>
    rw [sum_upper' hi _ fun k hk => ((ha rfl k (by omega)).2 hk).1,
      sum_upper' hi _ fun k hk => ((ha rfl k (by omega)).2 hk).2]
    cases d with
    | explicit =>
      unfold triElement
      rw [← add_assoc, ← add_assoc]
      refine Close.mono R.nonneg (m := 1 + 1 + (n - 1 - i)) (by omega) ?_
      exact R.close_leftSum (R.close_add (Close.refl 1 R.nonneg) hd) fun k hk =>
        ((ha rfl (i + 1 + k) (by omega)).1 (by omega)).mono R.nonneg (by omega)
    | implicitUnit =>
      unfold triElement
      rw [add_comm (e i), add_comm (w i), ← add_assoc, ← add_assoc]
      refine Close.mono R.nonneg (m := 1 + (n - 1 - i) + 1) (by omega) ?_
      exact R.close_add (R.close_leftSum (Close.refl 1 R.nonneg)
        fun k hk => (ha rfl (i + 1 + k) (by omega)).1 (by omega)) (hd.mono R.nonneg (by omega))

end StdBLAS

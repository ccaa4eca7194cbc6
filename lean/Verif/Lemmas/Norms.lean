import Verif.Lemmas.Blas1
import Mathlib.Algebra.Order.BigOperators.Group.Finset

/-! # Lemmas for norms -/

namespace StdBLAS
open Finset
variable {α : Type} {h : Heap α}

/-- `frobStep` as a function of the running state (no division by zero can happen). -/
noncomputable def frobFn (s : SumOfSquares) (a : ℝ) : SumOfSquares :=
  open Classical in
  if a ≠ 0 then
    if s.scalingFactor < a then
      ⟨a, 1 + s.scaledSumOfSquares * (s.scalingFactor / a) * (s.scalingFactor / a)⟩
    else ⟨s.scalingFactor, s.scaledSumOfSquares + (s.scalingFactor / a) * (s.scalingFactor / a)⟩
  else s

theorem ends_frobStep (s : SumOfSquares) (a : ℝ) :
    Ends (frobStep s a) h (fun s' h' => s' = frobFn s a ∧ h' = h) := by
  unfold frobStep frobFn
  split
  · next hne =>
    simp only [ends_bind, ends_divChecked]
    refine ⟨hne, ?_⟩
    split <;> simp
  · simp

/-- The row-major list of magnitudes. -/
def rowMajor (r c : Nat) (m : Nat → Nat → ℝ) : List ℝ :=
  (List.range r).flatMap fun i => (List.range c).map fun j => m i j

theorem foldl_rowMajor {σ : Type} (r c : Nat) (m : Nat → Nat → ℝ) (g : σ → ℝ → σ) (s : σ) :
    (rowMajor r c m).foldl g s =
      (List.range' 0 r).foldl (fun s i => (List.range' 0 c).foldl (fun s j => g s (m i j)) s) s := by
  unfold rowMajor
  simp only [List.foldl_flatMap, List.foldl_map, List.range_eq_range']

theorem sum_rowMajor (r c : Nat) (m : Nat → Nat → ℝ) (g : ℝ → ℝ) :
    ((rowMajor r c m).map g).sum = ∑ i ∈ range r, ∑ j ∈ range c, g (m i j) := by
  unfold rowMajor
  induction r with
  | zero => simp
  | succ r ih =>
    rw [List.range_succ, List.flatMap_append, List.map_append, List.sum_append, ih,
      sum_range_succ]
    congr 1
    simp only [List.flatMap_cons, List.flatMap_nil, List.append_nil, List.map_map]
    clear ih
    induction c with
    | zero => simp
    | succ c ih =>
      rw [List.range_succ, List.map_append, List.sum_append, ih, sum_range_succ]
      simp

theorem frob_run [AbsOps α] (A : MatV α) (init : ℝ) (h : Heap α) (f : Nat → Nat → α)
    (hA : A.Holds h f) (h0 : ¬ (A.rows = 0 ∨ A.cols = 0)) (h1 : ¬ (A.rows = 1 ∧ A.cols = 1)) :
    Ends (matrixFrobNorm A init) h (fun r h' =>
      (r = init + ((rowMajor A.rows A.cols fun i j => AbsOps.abs (f i j)).foldl frobFn
          ⟨0, 1⟩).scalingFactor * Real.sqrt ((rowMajor A.rows A.cols fun i j =>
            AbsOps.abs (f i j)).foldl frobFn ⟨0, 1⟩).scaledSumOfSquares) ∧ h' = h) := by
  unfold matrixFrobNorm
  rw [if_neg h0, if_neg h1, ends_bind, foldl_rowMajor]
  refine Ends.mono (Q := fun s h' => s = (List.range' 0 A.rows).foldl (fun s i =>
    (List.range' 0 A.cols).foldl (fun s j => frobFn s (AbsOps.abs (f i j))) s) ⟨0, 1⟩ ∧ h' = h) ?_ ?_
  · refine ends_foldEach_read _ ?_
    intro i hi s
    have hi' : i < A.rows := by simpa using hi
    refine ends_foldEach_read (fun s j => frobFn s (AbsOps.abs (f i j))) ?_
    intro j hj s
    have hj' : j < A.cols := by simpa using hj
    obtain ⟨v, hv, ev⟩ := hA i j hi' hj' trivial
    simp only [ends_bind, ends_matV_get]
    refine ⟨⟨hi', hj'⟩, v, hv, ?_⟩
    rw [ev]
    exact ends_frobStep s _
  · rintro s h' ⟨rfl, rfl⟩
    simp

theorem frobFn_scale (s : SumOfSquares) (a : ℝ) (hs : 0 ≤ s.scalingFactor) :
    (frobFn s a).scalingFactor = max s.scalingFactor a := by
  unfold frobFn
  split
  · split
    · next h => simp [max_eq_right h.le]
    · next h => simp [max_eq_left (not_lt.1 h)]
  · next hne =>
    have : a = 0 := by simpa using hne
    simp [this, hs]

theorem frobFn_total_ge (s : SumOfSquares) (a : ℝ) (ha : 0 ≤ a) :
    s.total + a ^ 2 ≤ (frobFn s a).total := by
  unfold frobFn SumOfSquares.total
  split
  · next hne =>
    have hpos : 0 < a := lt_of_le_of_ne ha (Ne.symm hne)
    split
    · apply le_of_eq; field_simp; ring
    · next hlt =>
      have hs : a ≤ s.scalingFactor := not_lt.1 hlt
      have h1 : 1 ≤ s.scalingFactor / a := by rw [le_div_iff₀ hpos]; linarith
      have h2 : 1 ≤ (s.scalingFactor / a) * (s.scalingFactor / a) := by nlinarith
      have h3 : a ^ 2 ≤ s.scalingFactor ^ 2 := by nlinarith
      simp only
      nlinarith [sq_nonneg s.scalingFactor]
  · next hne =>
    have : a = 0 := by simpa using hne
    simp [this]

/-- The step is exact unless a nonzero magnitude is smaller than the running maximum. -/
theorem frobFn_total_eq_iff (s : SumOfSquares) (a : ℝ) (ha : 0 ≤ a) :
    (frobFn s a).total = s.total + a ^ 2 ↔ (a = 0 ∨ s.scalingFactor ≤ a) := by
  unfold frobFn SumOfSquares.total
  split
  · next hne =>
    have hpos : 0 < a := lt_of_le_of_ne ha (Ne.symm hne)
    split
    · next hlt =>
      constructor
      · intro _; exact Or.inr hlt.le
      · intro _; field_simp; ring
    · next hlt =>
      have hs : a ≤ s.scalingFactor := not_lt.1 hlt
      have hsp : 0 < s.scalingFactor := by linarith
      simp only [hne, false_or]
      constructor
      · intro e
        have e2 : s.scalingFactor ^ 2 * ((s.scalingFactor / a) * (s.scalingFactor / a)) = a ^ 2 := by
          linarith
        have e3 : (s.scalingFactor ^ 2) ^ 2 = (a ^ 2) ^ 2 := by
          field_simp at e2; linarith
        by_contra hcon
        push Not at hcon
        have : a ^ 2 < s.scalingFactor ^ 2 := by nlinarith
        nlinarith [sq_nonneg a]
      · intro hle
        have : s.scalingFactor = a := le_antisymm hle hs
        rw [this]; field_simp
  · next hne =>
    have : a = 0 := by simpa using hne
    simp [this]

/-- Running maximum from below. -/
theorem frob_fold_ge (l : List ℝ) (hl : ∀ a ∈ l, 0 ≤ a) (s : SumOfSquares) :
    s.total + (l.map (· ^ 2)).sum ≤ (l.foldl frobFn s).total := by
  induction l generalizing s with
  | nil => simp
  | cons a l ih =>
    have h1 := frobFn_total_ge s a (hl a (by simp))
    have h2 := ih (fun b hb => hl b (by simp [hb])) (frobFn s a)
    simp only [List.map_cons, List.sum_cons, List.foldl_cons]
    linarith

/-- Exactness of the whole fold: each nonzero magnitude is at least all earlier ones
(and at least the initial scale). -/
theorem frob_fold_eq_iff (l : List ℝ) (hl : ∀ a ∈ l, 0 ≤ a) (s : SumOfSquares)
    (hs : 0 ≤ s.scalingFactor) :
    (l.foldl frobFn s).total = s.total + (l.map (· ^ 2)).sum ↔
      (∀ a ∈ l, a ≠ 0 → s.scalingFactor ≤ a) ∧ l.Pairwise (fun a b => b ≠ 0 → a ≤ b) := by
  induction l generalizing s with
  | nil => simp
  | cons a l ih =>
    have ha := hl a (by simp)
    have h1 := frobFn_total_ge s a ha
    have h1' := frobFn_total_eq_iff s a ha
    have hl' : ∀ b ∈ l, 0 ≤ b := fun b hb => hl b (by simp [hb])
    have h2 := frob_fold_ge l hl' (frobFn s a)
    have hsc := frobFn_scale s a hs
    have h3 := ih hl' (frobFn s a) (by rw [hsc]; exact le_max_of_le_left hs)
    simp only [List.map_cons, List.sum_cons, List.foldl_cons, List.pairwise_cons,
      List.mem_cons, forall_eq_or_imp]
    rw [hsc] at h3
    constructor
    · intro e
      have e1 : (frobFn s a).total = s.total + a ^ 2 := by linarith
      have e2 : (l.foldl frobFn (frobFn s a)).total = (frobFn s a).total + (l.map (· ^ 2)).sum := by
        linarith
      obtain ⟨b1, b2⟩ := h3.1 e2
      refine ⟨⟨fun hne => ?_, fun b hb hne => (le_max_left _ _).trans (b1 b hb hne)⟩,
        fun b hb hne => (le_max_right _ _).trans (b1 b hb hne), b2⟩
      rcases h1'.1 e1 with e0 | e0
      · exact absurd e0 hne
      · exact e0
    · rintro ⟨⟨c1, c2⟩, c3, c4⟩
      have e1 : (frobFn s a).total = s.total + a ^ 2 := by
        rw [h1']
        by_cases ha0 : a = 0
        · exact Or.inl ha0
        · exact Or.inr (c1 ha0)
      have e2 := h3.2 ⟨fun b hb hne => max_le (c2 b hb hne) (c3 b hb hne), c4⟩
      linarith

theorem frob_fold_nonneg (l : List ℝ) (s : SumOfSquares)
    (hs : 0 ≤ s.scalingFactor ∧ 0 ≤ s.scaledSumOfSquares) :
    0 ≤ (l.foldl frobFn s).scalingFactor ∧ 0 ≤ (l.foldl frobFn s).scaledSumOfSquares := by
  refine foldl_inv (fun s : SumOfSquares => 0 ≤ s.scalingFactor ∧ 0 ≤ s.scaledSumOfSquares) hs ?_
  rintro s a _ ⟨h1, h2⟩
  refine ⟨by rw [frobFn_scale s a h1]; exact le_max_of_le_left h1, ?_⟩
  unfold frobFn
  split
  · split
    · simp only; rw [mul_assoc]
      have := mul_self_nonneg (s.scalingFactor / a)
      positivity
    · simp only
      have := mul_self_nonneg (s.scalingFactor / a)
      linarith
  · exact h2

theorem scale_mul_sqrt (s q : ℝ) (hs : 0 ≤ s) : s * Real.sqrt q = Real.sqrt (s ^ 2 * q) := by
  rw [Real.sqrt_mul (sq_nonneg s), Real.sqrt_sq hs]

end StdBLAS

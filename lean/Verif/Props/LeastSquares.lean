import Verif.Props.Solver
import Verif.Props.Givens
import Mathlib.Tactic.LinearCombination

/-!
# Property C75: QR factorisation by Givens rotations and least squares
-/

namespace StdBLAS
open Finset Witness
variable {α : Type}

/-! ## The rotations -/

/-- `rot f g` is what `setup_givens_rotation(f, g)` returns. -/
def ReturnsGivens (safmn2 : ℝ) (rot : ℝ → ℝ → ℝ × ℝ × ℝ) : Prop :=
  ∀ f g, ∃ N, ∀ fuel, N ≤ fuel → setupGivensReal fuel safmn2 f g = some (rot f g)

theorem rescaleLoop_more {keep : ℝ → Prop} {k : ℝ} : ∀ (fuel : Nat) (f g : ℝ) (count : Nat)
    (v : ℝ × ℝ × Nat), rescaleLoop keep k fuel f g count = some v →
    ∀ fuel', fuel ≤ fuel' → rescaleLoop keep k fuel' f g count = some v := by
  intro fuel
  induction fuel with
  | zero => intro f g count v e; cases e
  | succ m ih =>
    intro f g count v e fuel' hf
    obtain ⟨m', rfl⟩ : ∃ m', fuel' = m' + 1 := ⟨fuel' - 1, by omega⟩
    unfold rescaleLoop at e ⊢
    dsimp only at e ⊢
    split_ifs at e ⊢ with c
    · exact ih _ _ _ _ e _ (by omega)
    · exact e

theorem setupGivensReal_more {safmn2 f g : ℝ} {fuel fuel' : Nat} {v : ℝ × ℝ × ℝ}
    (e : setupGivensReal fuel safmn2 f g = some v) (hf : fuel ≤ fuel') :
    setupGivensReal fuel' safmn2 f g = some v := by
  unfold setupGivensReal at e ⊢
  by_cases hg : g = 0
  · rw [if_pos hg] at e ⊢; exact e
  · rw [if_neg hg] at e ⊢
    by_cases hf0 : f = 0
    · rw [if_pos hf0] at e ⊢; exact e
    · rw [if_neg hf0] at e ⊢
      dsimp only at e ⊢
      split_ifs at e ⊢ with c1 c2
      · cases hl : rescaleLoop (fun s => s ≥ 1 / safmn2) safmn2 fuel f g 0 with
        | none => rw [hl] at e; cases e
        | some w => rw [rescaleLoop_more _ _ _ _ _ hl _ hf, ← hl]; exact e
      · cases hl : rescaleLoop (fun s => s ≤ safmn2) (1 / safmn2) fuel f g 0 with
        | none => rw [hl] at e; cases e
        | some w => rw [rescaleLoop_more _ _ _ _ _ hl _ hf, ← hl]; exact e
      · exact e

/-- `setup_givens_rotation` is a function (it returns, and always the same). -/
theorem returnsGivens_exists {safmn2 : ℝ} (h0 : 0 < safmn2) (h1 : safmn2 < 1) :
    ∃ rot, ReturnsGivens safmn2 rot := by
  choose N hN using fun f g => C13_setup_givens_real safmn2 f g h0 h1
  choose c s r hc _ using fun f g => hN f g (N f g) le_rfl
  exact ⟨fun f g => (c f g, s f g, r f g), fun f g => ⟨N f g, fun fuel hf =>
    setupGivensReal_more (hc f g) hf⟩⟩

theorem ReturnsGivens.rotates {safmn2 : ℝ} {rot : ℝ → ℝ → ℝ × ℝ × ℝ}
    (H : ReturnsGivens safmn2 rot) (h0 : 0 < safmn2) (h1 : safmn2 < 1) (f g : ℝ) :
    (rot f g).1 ^ 2 + (rot f g).2.1 ^ 2 = 1 ∧ (rot f g).1 * g - (rot f g).2.1 * f = 0 := by
  obtain ⟨N, hN⟩ := C13_setup_givens_real safmn2 f g h0 h1
  obtain ⟨M, hM⟩ := H f g
  obtain ⟨c, s, r, e, e1, -, e2, -⟩ := hN (max N M) (le_max_left _ _)
  have := (hM (max N M) (le_max_right _ _)).symm.trans e
  have e' : rot f g = (c, s, r) := Option.some.inj this
  rw [e']
  exact ⟨e1, by linear_combination e2⟩

/-! ## One rotation of two rows -/

/-- The matrix after rotating rows `j` and `i`. -/
def rotated (r : Nat → Nat → ℝ) (j i : Nat) (c s : ℝ) (p q : Nat) : ℝ :=
  if p = j then c * r j q + s * r i q else if p = i then c * r i q - s * r j q else r p q

theorem ends_rotRows {A : Mat} {h : Heap ℝ} {r : Nat → Nat → ℝ} {j i : Nat} (c s : ℝ)
    (hA : A.Holds h r) (hu : A.Unique) (hj : j < A.rows) (hi : i < A.rows) (hne : j ≠ i) :
    Ends (applyGivens (A.rowPart j 0 A.cols) (A.rowPart i 0 A.cols) c s) h fun _ h' =>
      A.Becomes h h' (rotated r j i c s) := by
  have hA' : ∀ i, i < A.rows → (A.rowPart i 0 A.cols).Holds h fun j => r i j := fun i hi => by
    have := hA.rowPart (i := i) (j0 := 0) (m := A.cols) hi (by omega)
    simpa only [Nat.zero_add] using this
  refine (C15_apply_givens _ _ h _ _ c s (hA' j hj) (hA' i hi) rfl (hu.rowPart hj (by omega))
    (hu.rowPart hi (by omega)) ?_).mono ?_
  · rintro p ⟨k, hk, rfl⟩ ⟨l, hl, e⟩
    have := (hu i (0 + l) j (0 + k) hi (by have : l < A.cols := hl; omega) trivial hj
      (by have : k < A.cols := hk; omega) trivial e).1
    exact hne this.symm
  · rintro _ h' ⟨hx, hy, hc⟩
    refine ⟨hA.patch hc _ (fun p q hp hq hP => ?_) (fun p q hp hq hP => ?_), hc.mono ?_⟩
    · rw [Mat.cell_rowPart hu hj (by omega) hp hq, Mat.cell_rowPart hu hi (by omega) hp hq] at hP
      by_cases e : p = j
      · subst e
        have := hx q hq
        rw [show (A.rowPart p 0 A.cols).addr q = A.addr p q from congrArg _ (Nat.zero_add q)]
          at this
        rw [this, rotated, if_pos rfl]
      · have e' : p = i := by omega
        subst e'
        have := hy q hq
        rw [show (A.rowPart p 0 A.cols).addr q = A.addr p q from congrArg _ (Nat.zero_add q)]
          at this
        rw [this, rotated, if_neg e, if_pos rfl]
    · rw [Mat.cell_rowPart hu hj (by omega) hp hq, Mat.cell_rowPart hu hi (by omega) hp hq] at hP
      rw [rotated, if_neg (by omega), if_neg (by omega)]
    · rintro p (e | e)
      · exact Mat.rowPart_sub hj (by omega) p e
      · exact Mat.rowPart_sub hi (by omega) p e

theorem sum_two_changed {m j i : Nat} (hj : j < m) (hi : i < m) (hne : j ≠ i) (F F' : Nat → ℝ)
    (hoff : ∀ p, p ≠ j → p ≠ i → F' p = F p) (htwo : F' j + F' i = F j + F i) :
    ∑ p ∈ range m, F' p = ∑ p ∈ range m, F p := by
  have hij : i ∈ (range m).erase j := mem_erase.2 ⟨hne.symm, mem_range.2 hi⟩
  rw [← add_sum_erase _ F' (mem_range.2 hj), ← add_sum_erase _ F (mem_range.2 hj),
    ← add_sum_erase _ F' hij, ← add_sum_erase _ F hij, ← add_assoc, ← add_assoc, htwo]
  congr 1
  refine sum_congr rfl fun p hp => ?_
  have h1 := mem_erase.1 hp
  exact hoff p (mem_erase.1 h1.2).1 h1.1

theorem rotated_gram {m j i : Nat} (hj : j < m) (hi : i < m) (hne : j ≠ i) {c s : ℝ}
    (hcs : c ^ 2 + s ^ 2 = 1) (r d : Nat → Nat → ℝ) (p q : Nat) :
    ∑ k ∈ range m, rotated r j i c s k p * rotated d j i c s k q =
      ∑ k ∈ range m, r k p * d k q := by
  refine sum_two_changed hj hi hne _ _ (fun k h1 h2 => ?_) ?_
  · rw [rotated, if_neg h1, if_neg h2, rotated, if_neg h1, if_neg h2]
  · rw [rotated, if_pos rfl, rotated, if_pos rfl, rotated, if_neg hne.symm, if_pos rfl, rotated,
      if_neg hne.symm, if_pos rfl]
    linear_combination (r j p * d j q + r i p * d i q) * hcs

/-- **C75** QR factorisation by `setup_givens_rotation` and `apply_givens_rotation` on pairs of
rows: for every real matrix the array holds an upper triangular `R` afterwards, and the
transformation of `A` and `B` is orthogonal: all inner products of columns are those
before. -/
theorem C75_qr (safmn2 : ℝ) (h0 : 0 < safmn2) (h1 : safmn2 < 1) (rot : ℝ → ℝ → ℝ × ℝ × ℝ)
    (hrot : ReturnsGivens safmn2 rot) (A B : Mat) (h : Heap ℝ) (a b : Nat → Nat → ℝ)
    (hA : A.Holds h a) (hB : B.Holds h b) (hBr : B.rows = A.rows)
    (hu : A.Unique) (huB : B.Unique) (hAB : Apart A.Cell B.Cell) :
    Ends (givensQR rot A B) h fun _ h' => ∃ r d, A.Holds h' r ∧ B.Holds h' d ∧
      OnlyChanges (fun p => A.Cell p ∨ B.Cell p) h h' ∧
      (∀ i j, i < A.rows → j < A.cols → j < i → r i j = 0) ∧
      (∀ p q, ∑ i ∈ range A.rows, r i p * r i q = ∑ i ∈ range A.rows, a i p * a i q) ∧
      (∀ p q, ∑ i ∈ range A.rows, r i p * d i q = ∑ i ∈ range A.rows, a i p * b i q) ∧
      ∀ p q, ∑ i ∈ range A.rows, d i p * d i q = ∑ i ∈ range A.rows, b i p * b i q := by
  let I : Nat → Nat → Heap ℝ → Prop := fun j i h' => ∃ r d, A.Holds h' r ∧ B.Holds h' d ∧
      OnlyChanges (fun p => A.Cell p ∨ B.Cell p) h h' ∧
      (∀ p q, p < A.rows → q < A.cols → q < p → (q < j ∨ (q = j ∧ p < i)) → r p q = 0) ∧
      (∀ p q, ∑ i ∈ range A.rows, r i p * r i q = ∑ i ∈ range A.rows, a i p * a i q) ∧
      (∀ p q, ∑ i ∈ range A.rows, r i p * d i q = ∑ i ∈ range A.rows, a i p * b i q) ∧
      ∀ p q, ∑ i ∈ range A.rows, d i p * d i q = ∑ i ∈ range A.rows, b i p * b i q
  refine (ends_forUp_inv (fun j h' => I j (j + 1) h') (Nat.zero_le _) ?_ ?_).mono ?_
  · intro j _ hj h1' hI
    refine (ends_forUp_inv' (fun i h' => I j i h') ?_ hI).mono ?_
    · rintro i hji hi h2 ⟨r, d, hA2, hB2, hch, hz, g1, g2, g3⟩
      have hne : j ≠ i := by omega
      rw [ends_bind, ends_mat_get]
      refine ⟨⟨by omega, hj⟩, r j j, hA2 j j (by omega) hj trivial, ?_⟩
      rw [ends_bind, ends_mat_get]
      refine ⟨⟨hi, hj⟩, r i j, hA2 i j hi hj trivial, ?_⟩
      obtain ⟨hcs, hzero⟩ := hrot.rotates h0 h1 (r j j) (r i j)
      generalize (rot (r j j) (r i j)).1 = c at hcs hzero ⊢
      generalize (rot (r j j) (r i j)).2.1 = s at hcs hzero ⊢
      rw [ends_bind]
      refine (ends_rotRows c s hA2 hu (by omega) hi hne).mono ?_
      rintro _ h3 ⟨hA3, hch3⟩
      have hB3 : B.Holds h3 d := fun p q hp hq _ => by
        rw [hch3 _ fun e => hAB _ e ⟨p, q, hp, hq, trivial, rfl⟩, hB2 p q hp hq trivial]
      refine (ends_rotRows c s hB3 huB (by omega) (by omega) hne).mono ?_
      rintro _ h4 ⟨hB4, hch4⟩
      refine ⟨rotated r j i c s, rotated d j i c s, fun p q hp hq _ => ?_, hB4, ?_, ?_, ?_, ?_, ?_⟩
      · rw [hch4 _ fun e => hAB _ ⟨p, q, hp, hq, trivial, rfl⟩ e, hA3 p q hp hq trivial]
      · exact hch.trans' ((hch3.mono fun _ => Or.inl).trans' (hch4.mono fun _ => Or.inr))
      · intro p q hp hq hqp hor
        unfold rotated
        by_cases e : p = j
        · subst e
          rw [if_pos rfl, hz p q hp hq hqp (by omega), hz i q hi hq (by omega) (by omega)]
          ring
        · rw [if_neg e]
          by_cases e' : p = i
          · subst e'
            rw [if_pos rfl]
            by_cases e'' : q = j
            · subst e''; exact hzero
            · rw [hz p q hp hq hqp (by omega), hz j q (by omega) hq (by omega) (by omega)]
              ring
          · rw [if_neg e']
            exact hz p q hp hq hqp (by omega)
      · intro p q; rw [rotated_gram (by omega) hi hne hcs, g1]
      · intro p q; rw [rotated_gram (by omega) hi hne hcs, g2]
      · intro p q; rw [rotated_gram (by omega) hi hne hcs, g3]
    · rintro _ h' ⟨r, d, hA', hB', hch, hz, g⟩
      refine ⟨r, d, hA', hB', hch, fun p q hp hq hqp hor => hz p q hp hq hqp ?_, g⟩
      have := le_max_right (j + 1) A.rows
      omega
  · exact ⟨a, b, hA, hB, fun _ _ => rfl, fun p q _ _ _ _ => by omega, fun _ _ => rfl,
      fun _ _ => rfl, fun _ _ => rfl⟩
  · rintro _ h' ⟨r, d, hA', hB', hch, hz, g⟩
    exact ⟨r, d, hA', hB', hch, fun p q hp hq hqp => hz p q hp hq hqp (Or.inl hq), g⟩

/-- `T` (3 x 2) with the columns of `A` as right-hand sides. -/
example : ∃ rot, ReturnsGivens (1 / 2 ^ 485) rot ∧
    Ends (givensQR rot T A) (heap ℝ) fun _ h' => ∃ r d, T.Holds h' r ∧ A.Holds h' d ∧
      OnlyChanges (fun p => T.Cell p ∨ A.Cell p) (heap ℝ) h' ∧
      (∀ i j, i < 3 → j < 2 → j < i → r i j = 0) ∧
      (∀ p q, ∑ i ∈ range 3, r i p * r i q = ∑ i ∈ range 3, mvals ℝ T i p * mvals ℝ T i q) ∧
      (∀ p q, ∑ i ∈ range 3, r i p * d i q = ∑ i ∈ range 3, mvals ℝ T i p * mvals ℝ A i q) ∧
      ∀ p q, ∑ i ∈ range 3, d i p * d i q = ∑ i ∈ range 3, mvals ℝ A i p * mvals ℝ A i q := by
  have h0 : (0 : ℝ) < 1 / 2 ^ 485 := by positivity
  have h1 : (1 : ℝ) / 2 ^ 485 < 1 := by
    rw [div_lt_one (by positivity)]; exact one_lt_pow₀ (by norm_num) (by norm_num)
  obtain ⟨rot, hrot⟩ := returnsGivens_exists h0 h1
  exact ⟨rot, hrot, C75_qr _ h0 h1 rot hrot T A _ _ _ (mholds bT) (mholds bA) rfl (by view_facts)
    (by view_facts) (by view_facts)⟩

/-! ## Least squares -/

theorem least_squares_of_normal {m n : Nat} (a : Nat → Nat → ℝ) (b v : Nat → ℝ)
    (H : ∀ p, p < n → ∑ k ∈ range n, (∑ i ∈ range m, a i p * a i k) * v k =
      ∑ i ∈ range m, a i p * b i) (w : Nat → ℝ) :
    ∑ i ∈ range m, (b i - mulVec n a v i) ^ 2 ≤ ∑ i ∈ range m, (b i - mulVec n a w i) ^ 2 := by
  have orth : ∀ p, p < n → ∑ i ∈ range m, a i p * (b i - mulVec n a v i) = 0 := by
    intro p hp
    simp only [mul_sub, sum_sub_distrib]
    rw [← H p hp, sub_eq_zero]
    simp only [mulVec, mul_sum, sum_mul]
    rw [sum_comm]
    exact sum_congr rfl fun i _ => sum_congr rfl fun k _ => by ring
  have cross : ∑ i ∈ range m, (b i - mulVec n a v i) * (mulVec n a v i - mulVec n a w i) = 0 := by
    have : ∀ i, mulVec n a v i - mulVec n a w i = ∑ k ∈ range n, a i k * (v k - w k) := by
      intro i
      simp only [mulVec, ← sum_sub_distrib, mul_sub]
    simp only [this, mul_sum]
    rw [sum_comm]
    refine sum_eq_zero fun k hk => ?_
    have := orth k (mem_range.1 hk)
    calc ∑ i ∈ range m, (b i - mulVec n a v i) * (a i k * (v k - w k))
        = (∑ i ∈ range m, a i k * (b i - mulVec n a v i)) * (v k - w k) := by
          rw [sum_mul]; exact sum_congr rfl fun i _ => by ring
      _ = 0 := by rw [this, zero_mul]
  have : ∑ i ∈ range m, (b i - mulVec n a w i) ^ 2 =
      ∑ i ∈ range m, (b i - mulVec n a v i) ^ 2 +
      2 * ∑ i ∈ range m, (b i - mulVec n a v i) * (mulVec n a v i - mulVec n a w i) +
      ∑ i ∈ range m, (mulVec n a v i - mulVec n a w i) ^ 2 := by
    rw [mul_sum, ← sum_add_distrib, ← sum_add_distrib]
    exact sum_congr rfl fun i _ => by ring
  rw [this, cross]
  have : 0 ≤ ∑ i ∈ range m, (mulVec n a v i - mulVec n a w i) ^ 2 :=
    sum_nonneg fun i _ => sq_nonneg _
  linarith

/-- **C75** Least squares by Givens rotations and a `triangular_matrix_matrix_left_solve` with
parts of `A` and `B`: for every real matrix of full column rank and all right-hand sides, the
first rows of `B` hold afterwards, column by column, the vectors that minimise the Euclidean
norm of `b - A x`. -/
theorem C75_least_squares (safmn2 : ℝ) (h0 : 0 < safmn2) (h1 : safmn2 < 1)
    (rot : ℝ → ℝ → ℝ × ℝ × ℝ) (hrot : ReturnsGivens safmn2 rot) (A B : Mat) (h : Heap ℝ)
    (a b : Nat → Nat → ℝ) (hA : A.Holds h a) (hB : B.Holds h b) (hBr : B.rows = A.rows)
    (hle : A.cols ≤ A.rows) (hu : A.Unique) (huB : B.Unique) (hAB : Apart A.Cell B.Cell)
    (hrank : ∀ w : Nat → ℝ, (∀ i, i < A.rows → mulVec A.cols a w i = 0) →
      ∀ j, j < A.cols → w j = 0) :
    Ends (leastSquares rot A B) h fun _ h' => ∃ v : Nat → Nat → ℝ,
      (∀ j q, j < A.cols → q < B.cols → h' (B.addr j q) = some (v j q)) ∧
      (∀ q, q < B.cols → ∀ w : Nat → ℝ,
        ∑ i ∈ range A.rows, (b i q - mulVec A.cols a (fun j => v j q) i) ^ 2 ≤
          ∑ i ∈ range A.rows, (b i q - mulVec A.cols a w i) ^ 2) ∧
      OnlyChanges (fun p => A.Cell p ∨ B.Cell p) h h' := by
  unfold leastSquares
  rw [ends_bind]
  refine (C75_qr safmn2 h0 h1 rot hrot A B h a b hA hB hBr hu huB hAB).mono ?_
  rintro _ h2 ⟨r, d, hA2, hB2, hch, hz, g1, g2, -⟩
  have hR : ∀ i k, i < A.cols → k < A.cols → triOf .upper .explicit r i k = r i k := by
    intro i k hi hk
    rw [tri_upper]
    split_ifs with e
    · rfl
    · exact (hz i k (by omega) hk (by omega)).symm
  have hnz : ∀ k, k < A.cols → r k k ≠ 0 := by
    refine triangular_diag_ne_zero r fun w hw => hrank w fun i hi => ?_
    -- `R w = 0`, so `‖A w‖² = ‖R w‖² = 0`
    have hRw : ∀ i, i < A.rows → mulVec A.cols r w i = 0 := by
      intro i hi
      by_cases e : i < A.cols
      · rw [← hw i e]
        exact sum_congr rfl fun k hk => by rw [hR i k e (mem_range.1 hk)]
      · exact sum_eq_zero fun k hk => by
          rw [hz i k hi (mem_range.1 hk) (by have := mem_range.1 hk; omega), zero_mul]
    have quad : ∀ c : Nat → Nat → ℝ, ∑ i ∈ range A.rows, mulVec A.cols c w i ^ 2 =
        ∑ p ∈ range A.cols, ∑ q ∈ range A.cols,
          (∑ i ∈ range A.rows, c i p * c i q) * (w p * w q) := by
      intro c
      simp only [sum_mul]
      rw [sum_congr rfl fun p _ => sum_comm, sum_comm]
      refine sum_congr rfl fun i _ => ?_
      rw [sq, mulVec, sum_mul_sum]
      exact sum_congr rfl fun p _ => sum_congr rfl fun q _ => by ring
    have hsq : ∑ i ∈ range A.rows, mulVec A.cols a w i ^ 2 = 0 := by
      rw [quad a, sum_congr rfl fun p _ => sum_congr rfl fun q _ => by rw [← g1 p q], ← quad r]
      exact sum_eq_zero fun i hi => by rw [hRw i (mem_range.1 hi)]; ring
    have := (sum_eq_zero_iff_of_nonneg fun i _ => sq_nonneg _).1 hsq i (mem_range.2 hi)
    exact pow_eq_zero_iff (two_ne_zero) |>.1 this
  refine (C37_trsm_left (A.block 0 0 A.cols A.cols).view .upper .explicit
    (B.block 0 0 A.cols B.cols).view (B.block 0 0 A.cols B.cols) h2 r d ?_ ?_ ?_ rfl rfl rfl rfl
    (Mat.Unique.block huB (by omega) (by omega)) ?_ ?_ ?_).mono ?_
  · intro i j hi hj _
    have hi : i < A.cols := hi
    have hj : j < A.cols := hj
    have := hA2 (0 + i) (0 + j) (by omega) (by omega) trivial
    exact ⟨_, this, by rw [Nat.zero_add, Nat.zero_add]; rfl⟩
  · intro i j hi hj _
    have hi : i < A.cols := hi
    have hj : j < B.cols := hj
    have := hB2 (0 + i) (0 + j) (by omega) (by omega) trivial
    exact ⟨_, this, by rw [Nat.zero_add, Nat.zero_add]; rfl⟩
  · intro i j hi hj _
    have hi : i < A.cols := hi
    have hj : j < B.cols := hj
    exact ⟨_, hB2 (0 + i) (0 + j) (by omega) (by omega) trivial⟩
  · rintro p ⟨i, j, hi, hj, -, rfl⟩ hp
    have hi : i < A.cols := hi
    have hj : j < A.cols := hj
    exact hAB _ ⟨0 + i, 0 + j, by omega, by omega, trivial, rfl⟩
      (Mat.block_sub (by omega) (by omega) _ hp)
  · intro i j k l hi hj hk hl e
    exact Mat.Unique.block huB (by omega) (by omega) i j k l hi hj trivial hk hl trivial e
  · exact fun _ i hi s => ⟨mul_div_cancel₀ s (hnz i hi), mul_div_cancel_left₀ s (hnz i hi)⟩
  · rintro _ h' ⟨v, hv, hs, -⟩
    refine ⟨v, fun j q hj hq => ?_, fun q hq => least_squares_of_normal a (fun i => b i q)
      (fun j => v j q) fun p hp => ?_, hch.trans' (hv.2.mono fun p hp => Or.inr
        (Mat.block_sub (by omega) (by omega) _ hp))⟩
    · have := hv.1 j q hj hq trivial
      rwa [show (B.block 0 0 A.cols B.cols).addr j q = B.addr j q by
        show B.addr (0 + j) (0 + q) = _
        rw [Nat.zero_add, Nat.zero_add]] at this
    · rw [← g2 p q, sum_congr rfl fun k _ => by rw [← g1 p k]]
      simp only [sum_mul]
      rw [sum_comm]
      refine sum_congr rfl fun i hi => ?_
      have hi := mem_range.1 hi
      by_cases e : i < A.cols
      · have : mulMat A.cols (triOf .upper .explicit r) v i q = d i q := hs i q e hq
        rw [← this, mulMat, mul_sum]
        refine sum_congr rfl fun k hk => ?_
        rw [hR i k e (mem_range.1 hk)]
        ring
      · rw [hz i p hi hp (by omega)]
        simp

/-- `T`: three equations, two unknowns, 103 104 / 105 106 / 107 108; three right-hand sides. -/
example : ∃ rot, ReturnsGivens (1 / 2 ^ 485) rot ∧
    Ends (leastSquares rot T A) (heap ℝ) fun _ h' => ∃ v : Nat → Nat → ℝ,
      (∀ j q, j < 2 → q < 3 → h' (A.addr j q) = some (v j q)) ∧
      (∀ q, q < 3 → ∀ w : Nat → ℝ,
        ∑ i ∈ range 3, (mvals ℝ A i q - mulVec 2 (mvals ℝ T) (fun j => v j q) i) ^ 2 ≤
          ∑ i ∈ range 3, (mvals ℝ A i q - mulVec 2 (mvals ℝ T) w i) ^ 2) ∧
      OnlyChanges (fun p => T.Cell p ∨ A.Cell p) (heap ℝ) h' := by
  have h0 : (0 : ℝ) < 1 / 2 ^ 485 := by positivity
  have h1 : (1 : ℝ) / 2 ^ 485 < 1 := by
    rw [div_lt_one (by positivity)]; exact one_lt_pow₀ (by norm_num) (by norm_num)
  obtain ⟨rot, hrot⟩ := returnsGivens_exists h0 h1
  refine ⟨rot, hrot, C75_least_squares _ h0 h1 rot hrot T A _ _ _ (mholds bT) (mholds bA) rfl
    (by decide) (by view_facts) (by view_facts) (by view_facts) fun w hw => ?_⟩
  have e0 := hw 0 (by decide)
  have e1 := hw 1 (by decide)
  simp only [mulVec, T, sum_range_succ, range_zero, sum_empty, mvals] at e0 e1
  norm_num at e0 e1
  intro j hj
  have hj : j < 2 := hj
  interval_cases j <;> linarith

end StdBLAS

import Verif.Props.KokkosAccurateReductions
import Verif.Props.Overflow

/-!
# Properties C65 and C66: what the Kokkos backend does not guarantee

Sums depend on the schedule, and the norms that are computed from squares overflow and underflow.
-/

namespace StdBLAS
open Finset Witness

namespace Witness
open FP

/-- `2 ^ 1023`, more than half of the largest number of `double`. -/
noncomputable def huge : ℝ := (2 : ℝ) ^ (1023 : ℤ)

/-- Cells 0, 1, 2 hold `huge`, `huge`, `-huge`; cells 10, 11, 12 hold 1. -/
noncomputable def hugeHeap : Heap D := fun a =>
  if a = 0 ∨ a = 1 then some (fin huge) else if a = 2 then some (fin (-huge))
  else if 10 ≤ a ∧ a < 13 then some (fin 1) else none

theorem huge_sum : (fin huge : D) + fin huge = inf false := by
  have e : huge + huge = (2 : ℝ) ^ (1024 : ℤ) := by
    unfold huge
    rw [← mul_two, ← zpow_add_one₀ two_ne_zero]; norm_num
  change ofReal binary64 (huge + huge) = _
  rw [e]
  unfold ofReal
  rw [binary64_pow 1024 (by norm_num), abs_of_pos (Binary.pow_pos' _),
    if_neg (not_le.2 binary64_big_bounds.2), decide_eq_false (not_lt.2 (Binary.pow_pos' _).le)]

theorem huge_valid : (fin huge : D).Valid :=
  ⟨binary64_pow 1023 (by norm_num), by
    rw [show |huge| = huge from abs_of_pos (Binary.pow_pos' _)]; exact binary64_big_bounds.1⟩

theorem huge_neg : (fin huge : D) + fin (-huge) = fin 0 := by
  change ofReal binary64 (huge + -huge) = _
  rw [add_neg_cancel, ofReal_nonneg le_rfl (by rw [binary64.zero]; linarith [binary64.one_le_big]),
    binary64.zero]

/-- The products are `huge`, `huge`, `-huge`. -/
noncomputable def hugeTerm (i : ℕ) : D := fin (if i = 2 then -huge else huge)

theorem hugeTerm_valid (i : ℕ) : (hugeTerm i).Valid := by
  unfold hugeTerm
  split_ifs
  · exact huge_valid.neg binary64_errors
  · exact huge_valid

theorem huge_body (i : ℕ) (hi : i < 3) (s : D) : (do
    let a ← kx.view.look i
    let b ← ky.view.look i
    pure (s + a * b) : Rd D D) hugeHeap = .ok (s + hugeTerm i) := by
  have h1 : kx.view.look i hugeHeap = .ok (hugeTerm i) := by
    unfold Vec.look
    rw [if_pos (show i < kx.view.ext from hi)]
    have : i = 0 ∨ i = 1 ∨ i = 2 := by omega
    rcases this with rfl | rfl | rfl <;> simp [Rd.cell, kx, KVec.view, hugeHeap, hugeTerm]
  have h2 : ky.view.look i hugeHeap = .ok (fin 1) := by
    unfold Vec.look
    rw [if_pos (show i < ky.view.ext from hi)]
    have : i = 0 ∨ i = 1 ∨ i = 2 := by omega
    rcases this with rfl | rfl | rfl <;> simp [Rd.cell, ky, KVec.view, hugeHeap]
  rw [Rd.bind_ok h1, Rd.bind_ok h2]
  have e : hugeTerm i * fin 1 = hugeTerm i := by
    have v := hugeTerm_valid i
    unfold hugeTerm at v ⊢
    change ofReal binary64 (_ * 1) = _
    rw [mul_one, ofReal_fin (by rw [v.1]; exact v.2), v.1]
  rw [e]; rfl

end Witness

section
open FP

/-- **C65** (negative) `dot(exec, x, y, 0.0)` with `x = [2^1023, 2^1023, -2^1023]` and `y = [1, 1, 1]`
in `double`: one schedule ends with infinity, another with the exact result `2^1023`.  The evaluation
order of a sum is not determined. -/
theorem C65_dot_false :
    kkDot kx ky (0 : D) hugeHeap (.ok (inf false, hugeHeap)) ∧
    kkDot kx ky (0 : D) hugeHeap (.ok (fin huge, hugeHeap)) := by
  have h0 : hugeTerm 0 = fin huge := rfl
  have h1 : hugeTerm 1 = fin huge := rfl
  have h2 : hugeTerm 2 = fin (-huge) := rfl
  have z : (0 : D) + fin huge = fin huge := valid_zero_add huge_valid
  constructor
  · refine sched_bind_ok.2 ⟨(), _, by rfl, sched_bind_ok.2 ⟨inf false, hugeHeap, ⟨.chunk [0, 1, 2],
      List.Perm.refl _, ?_⟩, rfl⟩⟩
    have e := Rd.foldlM_ok (h := hugeHeap) (l := [0, 1, 2]) (s := (0 : D)) (fun s i => s + hugeTerm i)
      fun i hi s => huge_body i (by simp at hi; omega) s
    rw [show [0, 1, 2].foldl (fun s i => s + hugeTerm i) (0 : D) = inf false by
      simp only [List.foldl_cons, List.foldl_nil, z, h0, h1, h2, huge_sum]; rfl] at e
    exact (congrArg (Except.map fun b => (b, hugeHeap)) e).symm
  · refine sched_bind_ok.2 ⟨(), _, by rfl, sched_bind_ok.2 ⟨fin huge, hugeHeap,
      ⟨.join (.chunk [0]) (.chunk [1, 2]), List.Perm.refl _, ?_⟩, ?_⟩⟩
    · have e := Rd.foldlM_ok (h := hugeHeap) (l := [0]) (s := (0 : D)) (fun s i => s + hugeTerm i)
        fun i hi s => huge_body i (by simp at hi; omega) s
      have e' := Rd.foldlM_ok (h := hugeHeap) (l := [1, 2]) (s := (0 : D)) (fun s i => s + hugeTerm i)
        fun i hi s => huge_body i (by simp at hi; omega) s
      rw [show [0].foldl (fun s i => s + hugeTerm i) (0 : D) = fin huge by
        simp only [List.foldl_cons, List.foldl_nil, z, h0]] at e
      rw [show [1, 2].foldl (fun s i => s + hugeTerm i) (0 : D) = fin 0 by
        simp only [List.foldl_cons, List.foldl_nil, z, h1, h2, huge_neg]] at e'
      have e2 := (Rd.bind_ok (f := fun a => do let b ← _; pure (a + b)) e).trans (Rd.bind_ok e')
      rw [show (fin huge + fin 0 : D) = fin huge from valid_add_zero huge_valid] at e2
      exact (congrArg (Except.map fun b => (b, hugeHeap)) e2).symm
    · rw [valid_add_zero huge_valid]; rfl

/-- **C66** (negative) `vector_norm2(exec, x, 0.0)` of the vector `[2^600]` in `double` is infinite under
every schedule, although the norm `2^600` is a number of the format. -/
theorem C66_vector_norm2_overflow_false (x : KVec) (h : Heap D)
    (hx : x.mdspan.Holds h fun _ => fin ((2 : ℝ) ^ (600 : ℤ))) (cx : x.stride = 1) (h1 : x.ext = 1) :
    Surely (kkNorm2Of x (0 : D)) h fun r h' => h' = h ∧ r = inf false := by
  unfold kkNorm2Of
  rw [KVec.view_eq cx]
  have hm : (2 : ℝ) ^ (600 : ℤ) * (2 : ℝ) ^ (600 : ℤ) = (2 : ℝ) ^ (1200 : ℤ) := by
    rw [← zpow_add₀ two_ne_zero]; norm_num
  have h1200 : (2 : ℝ) ^ (1024 : ℤ) ≤ (2 : ℝ) ^ (1200 : ℤ) :=
    zpow_le_zpow_right₀ one_le_two (by norm_num)
  have e : (FP.abs (fin ((2 : ℝ) ^ (600 : ℤ))) * FP.abs (fin ((2 : ℝ) ^ (600 : ℤ))) : D) = inf false := by
    change ofReal binary64 (|(2 : ℝ) ^ (600 : ℤ)| * |(2 : ℝ) ^ (600 : ℤ)|) = _
    rw [abs_of_pos (Binary.pow_pos' _), hm]
    unfold ofReal
    rw [binary64_pow 1200 (by norm_num), abs_of_pos (Binary.pow_pos' _),
      if_neg (not_le.2 (lt_of_lt_of_le binary64_big_bounds.2 h1200)),
      decide_eq_false (not_lt.2 (Binary.pow_pos' _).le)]
  refine surely_bind (surely_one binary64_errors h1 (inf false) (fun i hi s => ?_) trivial ?_)
  · rw [Rd.bind_ok (hx.look hi)]
    exact congrArg (fun t : D => Except.ok (s + t)) e
  · exact surely_pure.2 ⟨rfl, rfl⟩

example := C66_vector_norm2_overflow_false ⟨1, 0, 1⟩ (fun _ => some (fin ((2 : ℝ) ^ (600 : ℤ))))
  (fun _ _ => rfl) rfl rfl

/-- **C66** (negative) `vector_norm2(exec, x, 0.0)` of the vector `[2^-600]` in `double` is 0 under every
schedule, although the norm `2^-600` is a number of the format. -/
theorem C66_vector_norm2_underflow_false (x : KVec) (h : Heap D)
    (hx : x.mdspan.Holds h fun _ => fin ((2 : ℝ) ^ (-600 : ℤ))) (cx : x.stride = 1) (h1 : x.ext = 1) :
    Surely (kkNorm2Of x (0 : D)) h fun r h' => h' = h ∧ r = 0 := by
  unfold kkNorm2Of
  rw [KVec.view_eq cx]
  have hm : (2 : ℝ) ^ (-600 : ℤ) * (2 : ℝ) ^ (-600 : ℤ) = (2 : ℝ) ^ (-1200 : ℤ) := by
    rw [← zpow_add₀ two_ne_zero]; norm_num
  have e : (FP.abs (fin ((2 : ℝ) ^ (-600 : ℤ))) * FP.abs (fin ((2 : ℝ) ^ (-600 : ℤ))) : D) = 0 := by
    change ofReal binary64 (|(2 : ℝ) ^ (-600 : ℤ)| * |(2 : ℝ) ^ (-600 : ℤ)|) = _
    rw [abs_of_pos (Binary.pow_pos' _), hm]
    have e : binary64.rnd ((2 : ℝ) ^ (-1200 : ℤ)) = 0 := by
      have hu : Binary.ulpExp 53 (-1074) ((2 : ℝ) ^ (-1200 : ℤ)) = -1074 := by
        unfold Binary.ulpExp
        rw [abs_of_pos (Binary.pow_pos' _), Binary.log_pow]
        norm_num
      change Binary.rnd 53 (-1074) _ = 0
      unfold Binary.rnd
      rw [hu, ← zpow_sub₀ two_ne_zero, show (-1200 - -1074 : ℤ) = -126 by norm_num,
        round_eq_zero_iff.2 ⟨by linarith [Binary.pow_pos' (-126)], ?_⟩, Int.cast_zero, zero_mul]
      norm_num
    rw [ofReal_fin (by rw [e, abs_zero]; linarith [binary64.one_le_big]), e]; rfl
  refine surely_bind (surely_one binary64_errors h1 0 (fun i hi s => ?_) zero_valid ?_)
  · rw [Rd.bind_ok (hx.look hi)]
    exact congrArg (fun t : D => Except.ok (s + t)) e
  · refine surely_pure.2 ⟨rfl, ?_⟩
    rw [valid_add_zero zero_valid, sqrt_def, zero_def]
    simp only [FP.sqrt, lt_irrefl, if_false, Real.sqrt_zero]
    rw [ofReal_fin (by rw [binary64.zero, abs_zero]; linarith [binary64.one_le_big]), binary64.zero]

example := C66_vector_norm2_underflow_false ⟨1, 0, 1⟩ (fun _ => some (fin ((2 : ℝ) ^ (-600 : ℤ))))
  (fun _ _ => rfl) rfl rfl

/-- **C66** (negative) `matrix_frob_norm(exec, A, init)` of a zero matrix with more than one element is
NaN under every schedule. -/
theorem C66_matrix_frob_norm_zero_false {F : Format} {u η : ℝ} (H : F.Errors u η) (l : ℝ) (A : KMat)
    (init : FP F) (h : Heap (FP F)) (hA : A.toMat.Holds h fun _ _ => (0 : FP F))
    (cA : A.transposed = false) (hl : l ≤ 0) (hmore : 1 < A.rows * A.cols) :
    Surely (kkFrobNormOf (FP.fin l) A init) h fun r h' => h' = h ∧ r = nan := by
  unfold kkFrobNormOf
  rw [if_neg (by rintro (e | e) <;> simp [e] at hmore),
    if_neg (by rintro ⟨e1, e2⟩; rw [e1, e2] at hmore; omega), KMat.view_eq cA]
  refine surely_bind (surely_max (by simp) (fun _ => 0) (fun k hk s => ?_) fun M hM => ?_)
  · obtain ⟨h1, h2⟩ := div_mod_lt hk
    rw [Rd.bind_ok (hA.look h1 h2), mag_def, show FP.abs (0 : FP F) = 0 by simp [zero_def, FP.abs]]; rfl
  have hM0 : M = 0 := by
    refine hM.unique ⟨by simp [zero_def], .inr ⟨0, by omega, rfl⟩, ?_,
      fun i _ => ?_⟩
    · exact decide_eq_false (not_lt.2 hl)
    · exact decide_eq_false (lt_irrefl _)
  subst hM0
  have e0 : (0 : FP F) / 0 = nan := by
    change FP.div (fin 0) (fin 0) = nan
    simp [FP.div]
  refine surely_bind (surely_nan H (fun _ => nan) (fun k hk s => ?_) (fun _ _ => trivial)
    ⟨0, by omega, rfl⟩ ?_)
  · obtain ⟨h1, h2⟩ := div_mod_lt hk
    rw [Rd.bind_ok (hA.look h1 h2), mag_def, show FP.abs (0 : FP F) = 0 by simp [zero_def, FP.abs], e0]
    rfl
  · refine surely_pure.2 ⟨rfl, ?_⟩
    rw [show (0 * 0 * nan : FP F) = nan from mul_nan _, show init + nan = nan from add_nan _]
    rfl

example := C66_matrix_frob_norm_zero_false binary64_errors (-1000) kT ((5 : ℤ) : D) (fun _ => some 0)
  (fun _ _ _ _ _ => rfl) rfl (by norm_num) (by decide)

/-- **C66** (negative) `vector_sum_of_squares(exec, x, init)` of a zero vector, with the usual `init`
(scaling factor 1, sum 0), has the sum of squares NaN under every schedule. -/
theorem C66_vector_sum_of_squares_zero_false {F : Format} {u η : ℝ} (H : F.Errors u η) (l : ℝ) (x : KVec)
    (h : Heap (FP F)) (hx : x.mdspan.Holds h fun _ => (0 : FP F))
    (cx : x.stride = 1) (hl : l ≤ 0) (h0 : 0 < x.ext) :
    Surely (kkSumOfSquaresOf (FP.fin l : FP F) x ⟨1, 0⟩) h fun r h' => h' = h ∧
      r.scaledSumOfSquares = nan := by
  unfold kkSumOfSquaresOf
  rw [KVec.view_eq cx]
  have ha : FP.abs (0 : FP F) = 0 := by simp [zero_def, FP.abs]
  have z0 : ofReal F 0 = fin 0 := by
    rw [ofReal_nonneg le_rfl (by rw [F.zero]; linarith [F.one_le_big]), F.zero]
  refine surely_bind (surely_max (by simp) (fun _ => 0) (fun k hk s => ?_) fun M hM => ?_)
  · rw [Rd.bind_ok (hx.look hk), mag_def, ha]; rfl
  have hM0 : M = 0 := by
    refine hM.unique ⟨by simp [zero_def], .inr ⟨0, h0, rfl⟩, ?_, fun i _ => ?_⟩
    · exact decide_eq_false (not_lt.2 hl)
    · exact decide_eq_false (lt_irrefl _)
  subst hM0
  refine surely_bind ((nanBounds H).surely (m := 0) (y := fun _ => 0) (w := fun _ => 0)
    (J := fun _ => True) (e := fun _ => 0)
    (fun _ => ((0 : FP F) / stdMax 0 1) * (0 / stdMax 0 1)) (fun k hk s => ?_)
    (fun k _ => ⟨(acc_mul H _ _).valid, fun h => absurd trivial h⟩) fun r _ _ => ?_)
  · rw [Rd.bind_ok (hx.look hk), mag_def, ha]; rfl
  · refine surely_pure.2 ⟨rfl, ?_⟩
    have e : (1 * 1 * 0 / (0 * 0) : FP F) = nan := by
      rw [show (0 * 0 : FP F) = 0 by change ofReal F (0 * 0) = _; rw [mul_zero, z0]; rfl]
      rw [show (1 * 1 * 0 : FP F) = 0 by
        change FP.mul (ofReal F (1 * 1)) (fin 0) = _
        rw [one_mul, ofReal_nonneg zero_le_one (by rw [F.one]; exact F.one_le_big), F.one]
        change ofReal F (1 * 0) = _
        rw [mul_zero, z0]; rfl]
      change FP.div (fin 0) (fin 0) = nan
      simp [FP.div]
    change r + 1 * 1 * 0 / (0 * 0) = nan
    rw [e, add_nan]

example := C66_vector_sum_of_squares_zero_false binary64_errors (-1000) ⟨3, 0, 1⟩ (fun _ => some (0 : D))
  (fun _ _ => rfl) rfl (by norm_num) (by decide)

/-- **C66** (negative) `matrix_inf_norm(exec, A, init)` and `matrix_one_norm(exec, A, init)` of a matrix
of NaN return `init` plus the identity value of the maximum: the NaN are lost, and the result is not even
a norm. -/
theorem C66_matrix_inf_norm_nan_false {F : Format} (low : FP F) (A : KMat) (init : FP F)
    (h : Heap (FP F)) (hA : A.toMat.Holds h fun _ _ => (nan : FP F)) (cA : A.transposed = false)
    (hlow : low ≠ nan) (hr : A.rows ≠ 0) (hc : A.cols ≠ 0) :
    Surely (kkInfNormOf low A init) h (fun r h' => h' = h ∧ r = init + low) ∧
    Surely (kkOneNormOf low A init) h (fun r h' => h' = h ∧ r = init + low) := by
  have key : ∀ n k : ℕ, 0 < n → ∀ M, LargestOf low n
      (fun _ => leftSum (FP.abs (nan : FP F)) k fun _ => FP.abs nan) M → M = low := by
    intro n k _ M hM
    have e : leftSum (FP.abs (nan : FP F)) k (fun _ => FP.abs nan) = nan := by
      induction k with
      | zero => rfl
      | succ k ih => exact add_nan _
    simp only [e] at hM
    exact hM.unique ⟨hlow,  .inl rfl, by cases low <;> simp [lt] at hlow ⊢, fun i _ => lt_nan _⟩
  obtain ⟨M, hM, S⟩ := C65_matrix_inf_norm low A init h _ hA cA hlow hr hc
  obtain ⟨M', hM', S'⟩ := C65_matrix_one_norm low A init h _ hA cA hlow hr hc
  rw [key _ _ (Nat.pos_of_ne_zero hr) M hM] at S
  rw [key _ _ (Nat.pos_of_ne_zero hc) M' hM'] at S'
  exact ⟨S, S'⟩

example := C66_matrix_inf_norm_nan_false (FP.fin (-1000) : D) kT ((5 : ℤ) : D) (fun _ => some nan)
  (fun _ _ _ _ _ => rfl) rfl (by simp) (by decide) (by decide)

end

end StdBLAS

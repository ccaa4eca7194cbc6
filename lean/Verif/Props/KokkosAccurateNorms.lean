import Verif.Lemmas.KokkosAccurateNorms
import Verif.Props.KokkosAccurateDiffer

/-!
# Property C66: the scaled norms of the Kokkos backend on floating-point numbers

`matrix_frob_norm` and `vector_sum_of_squares` first look for the largest magnitude `M` and divide every
element by it.  For finite elements that are not all zero the result can be trusted; the remaining cases
are the negative theorems of `Props/KokkosAccurateDiffer` and the last one here.
-/

namespace StdBLAS
open Finset Witness FP

/-- **C66** `matrix_frob_norm(exec, A, init)` of a finite matrix with more than one element, whose largest
magnitude `M` is not zero: under every schedule the square root of a number that is accurate.  Underflow
of a quotient costs at most `M²` times the smallest unit. -/
theorem C66_matrix_frob_norm {F : Format} {u η : ℝ} (H : F.Errors u η) (hη1 : η ≤ 1) (l : ℝ) (A : KMat)
    (init : FP F) (h : Heap (FP F)) (f : Nat → Nat → FP F) (hA : A.toMat.Holds h f)
    (cA : A.transposed = false) (hl : l ≤ 0) (hmore : 1 < A.rows * A.cols) (vi : init.Valid)
    (hf : ∀ i j, i < A.rows → j < A.cols → (f i j).Finite) (M : ℝ) (hM0 : 0 < M)
    (hM : IsGreatest {y | ∃ i j, i < A.rows ∧ j < A.cols ∧ y = |(f i j).val|} M)
    (hbig : (1 + u) ^ (A.rows * A.cols + 2) * ((A.rows * A.cols : ℕ) * (1 + 4 * η)) ≤ F.big) :
    Surely (kkFrobNormOf (FP.fin l) A init) h fun r h' => h' = h ∧ ∃ s, r = FP.sqrt s ∧
      FP.Accurate u (A.rows * A.cols + 5)
        (η * (4 * (A.rows * A.cols : ℕ) * M ^ 2 + 5 * (A.rows * A.cols : ℕ) + 1))
        init.Finite
        s
        (init.val + ∑ i ∈ range A.rows, ∑ j ∈ range A.cols, (f i j).val ^ 2)
        (|init.val| + ∑ i ∈ range A.rows, ∑ j ∈ range A.cols, (f i j).val ^ 2) := by
  have hu := H.u_nonneg
  have hη := H.eta_nonneg
  unfold kkFrobNormOf
  rw [if_neg (by rintro (e | e) <;> simp [e] at hmore),
    if_neg (by rintro ⟨e1, e2⟩; rw [e1, e2] at hmore; omega), KMat.view_eq cA]
  set n := A.rows * A.cols with hn
  let x : ℕ → ℝ := fun k => (f (k / A.cols) (k % A.cols)).val
  have hx : ∀ k, k < n → FP.abs (f (k / A.cols) (k % A.cols)) = fin |x k| := fun k hk => by
    obtain ⟨h1, h2⟩ := div_mod_lt hk
    rw [(hf _ _ h1 h2).eq]; rfl
  have hMx : IsGreatest {y | ∃ k, k < n ∧ y = |x k|} M := by
    obtain ⟨⟨i, j, hi, hj, e⟩, ub⟩ := hM
    refine ⟨⟨A.cols * i + j, ?_, ?_⟩, ?_⟩
    · calc A.cols * i + j < A.cols * i + A.cols := by omega
        _ = A.cols * (i + 1) := by ring
        _ ≤ A.cols * A.rows := Nat.mul_le_mul_left _ hi
        _ = n := Nat.mul_comm _ _
    · have hc : 0 < A.cols := by omega
      simp only [x, Nat.mul_add_div hc, Nat.mul_add_mod, Nat.div_eq_of_lt hj, Nat.mod_eq_of_lt hj,
        Nat.add_zero]
      exact e
    · rintro y ⟨k, hk, rfl⟩
      obtain ⟨h1, h2⟩ := div_mod_lt hk
      exact ub ⟨_, _, h1, h2, rfl⟩
  have hle : ∀ k, k < n → |x k| ≤ M := fun k hk => hMx.2 ⟨k, hk, rfl⟩
  refine surely_bind (surely_max (by simp) (fun k => fin |x k|) (fun k hk s => ?_) fun M' hM' => ?_)
  · obtain ⟨h1, h2⟩ := div_mod_lt hk
    rw [Rd.bind_ok (hA.look h1 h2), mag_def, hx k hk]; rfl
  rw [largest_eq hl hMx hM']
  refine surely_bind ((FP.bounds H).surely (fun k => (fin |x k| / fin M) * (fin |x k| / fin M)) ?_
    (fun k hk => acc_quot_sq H hη1 (abs_nonneg (x k)) hM0 (hle k hk)) fun r _ c =>
      surely_pure.2 ⟨rfl, _, rfl, ?_⟩)
  · intro k hk s
    obtain ⟨h1, h2⟩ := div_mod_lt hk
    rw [Rd.bind_ok (hA.look h1 h2), mag_def, hx k hk]; rfl
  change FP.Acc u (3 + (n - 1)) _ _ r _ _ at c
  rw [show 3 + (n - 1) = n + 2 by omega] at c
  have hsum : ∑ i ∈ range A.rows, ∑ j ∈ range A.cols, (f i j).val ^ 2 = ∑ k ∈ range n, x k ^ 2 :=
    (sum_div_mod A.rows A.cols fun i j => (f i j).val ^ 2).symm
  rw [hsum]
  set T := ∑ k ∈ range n, (|x k| / M) ^ 2 with hT
  have hT0 : 0 ≤ T := Finset.sum_nonneg fun _ _ => sq_nonneg _
  have hTn : T ≤ n := by
    calc T ≤ ∑ k ∈ range n, (1 : ℝ) := Finset.sum_le_sum fun k hk => by
          have h1 := (div_le_one hM0).2 (hle k (mem_range.1 hk))
          have h0 : 0 ≤ |x k| / M := div_nonneg (abs_nonneg _) hM0.le
          exact pow_le_one₀ h0 h1
      _ = n := by simp
  have hMT : M * M * T = ∑ k ∈ range n, x k ^ 2 := by
    rw [hT, Finset.mul_sum]
    refine Finset.sum_congr rfl fun k _ => ?_
    rw [div_pow, sq_abs]
    field_simp
  have hz : ∑ _k ∈ range n, 4 * η = n * (4 * η) := by simp
  rw [hz] at c
  have hrf : r.Finite := by
    refine c.finite (fun _ _ => trivial) (hbig.trans' ?_)
    refine mul_le_mul_of_nonneg_left ?_ (by positivity)
    linarith
  have cM := acc_mul H (fin M) (fin M)
  have c2 := Acc.mul_acc H cM c
  simp only [FP.val, abs_of_pos hM0] at c2 cM
  rw [hMT] at c2
  have hn1 : (1 : ℝ) < n := by exact_mod_cast hmore
  have c3 := c2.mono_z hu (z' := η * (4 * n * M ^ 2 + 5 * n + 1)) (by
    have h1 := mul_le_mul_of_nonneg_left hTn hη
    have h2 : η * (n * (4 * η)) ≤ η * (4 * n) :=
      mul_le_mul_of_nonneg_left (by nlinarith) hη
    nlinarith)
  have c4 := (acc_input hu _ vi).add H c3
  rw [show 1 + (n + 2) + 1 + 1 = n + 5 by omega, zero_add] at c4
  refine ⟨fun hs => ⟨(c4.error hs).1.1, (c4.error hs).2⟩, fun hi hb => c4.finite ⟨hi, ?_, hrf⟩ hb⟩
  refine cM.finite ⟨trivial, trivial⟩ (hb.trans' ?_)
  have hM2 : M * M ≤ ∑ k ∈ range n, x k ^ 2 := by
    obtain ⟨k, hk, e⟩ := hMx.1
    have := Finset.single_le_sum (f := fun k => x k ^ 2) (fun _ _ => sq_nonneg _) (mem_range.2 hk)
    rw [e, ← pow_two, sq_abs]
    exact this
  have hpow : (1 + u) ^ 1 ≤ (1 + u) ^ (n + 5) := pow_le_pow_right₀ (by linarith) (by omega)
  refine mul_le_mul hpow ?_ (by positivity) (by positivity)
  have h3 : 0 ≤ η * (4 * n * M ^ 2 + 5 * n) := by positivity
  linarith [abs_nonneg init.val]

namespace Witness

theorem ones_abs : |(FP.fin 1 : D).val| = 1 := abs_one

theorem small_sums (k m : ℕ) (hk : k ≤ 8) (hm : m ≤ 8) :
    (1 + (2 : ℝ) ^ (-53 : ℤ)) ^ k * ((m : ℕ) * (1 + 4 * (2 : ℝ) ^ (-1075 : ℤ))) ≤ binary64.big := by
  refine le_trans ?_ binary64_big_bounds.1
  have h1 : (2 : ℝ) ^ (-53 : ℤ) ≤ 1 := zpow_le_one_of_nonpos₀ one_le_two (by norm_num)
  have h2 : (2 : ℝ) ^ (-1075 : ℤ) ≤ 1 := zpow_le_one_of_nonpos₀ one_le_two (by norm_num)
  have h3 : (0 : ℝ) < (2 : ℝ) ^ (-53 : ℤ) := Binary.pow_pos' _
  have h4 : (0 : ℝ) < (2 : ℝ) ^ (-1075 : ℤ) := Binary.pow_pos' _
  have hm' : (m : ℝ) ≤ 8 := by exact_mod_cast hm
  calc (1 + (2 : ℝ) ^ (-53 : ℤ)) ^ k * ((m : ℕ) * (1 + 4 * (2 : ℝ) ^ (-1075 : ℤ)))
      ≤ (1 + (2 : ℝ) ^ (-53 : ℤ)) ^ 8 * ((m : ℕ) * (1 + 4 * (2 : ℝ) ^ (-1075 : ℤ))) :=
        mul_le_mul_of_nonneg_right (pow_le_pow_right₀ (by linarith) hk) (by positivity)
    _ ≤ 2 ^ 8 * (8 * 5) := by
        refine mul_le_mul (pow_le_pow_left₀ (by linarith) (by linarith) 8) ?_ (by positivity) (by norm_num)
        exact mul_le_mul hm' (by linarith) (by linarith) (by norm_num)
    _ ≤ (2 : ℝ) ^ (14 : ℤ) := by norm_num
    _ ≤ (2 : ℝ) ^ (1023 : ℤ) := zpow_le_zpow_right₀ one_le_two (by norm_num)

end Witness

example := C66_matrix_frob_norm binary64_errors (zpow_le_one_of_nonpos₀ one_le_two (by norm_num)) (-1000) kT
  ((5 : ℤ) : D) (fun _ => some (FP.fin 1)) (fun _ _ => FP.fin 1) (fun _ _ _ _ _ => rfl) rfl (by norm_num)
  (by decide) (int_valid 5) (fun _ _ _ _ => trivial) 1 one_pos
  ⟨⟨0, 0, by decide, by decide, ones_abs.symm⟩, fun _ ⟨_, _, _, _, e⟩ => (e.trans ones_abs).le⟩
  (small_sums (3 * 2 + 2) (3 * 2) (by norm_num) (by norm_num))

/-- **C66** `matrix_frob_norm(exec, A, init)` with an infinite element or a NaN among several elements is
NaN under every schedule: nothing that is not finite is lost. -/
theorem C66_matrix_frob_norm_not_finite {F : Format} {u η : ℝ} (H : F.Errors u η) (l : ℝ) (A : KMat)
    (init : FP F) (h : Heap (FP F)) (f : Nat → Nat → FP F) (hA : A.toMat.Holds h f)
    (cA : A.transposed = false) (hmore : 1 < A.rows * A.cols) (i0 j0 : ℕ) (hi0 : i0 < A.rows)
    (hj0 : j0 < A.cols) (hf : ¬ (f i0 j0).Finite) :
    Surely (kkFrobNormOf (FP.fin l) A init) h fun r h' => h' = h ∧ r = nan := by
  unfold kkFrobNormOf
  rw [if_neg (by rintro (e | e) <;> simp [e] at hmore),
    if_neg (by rintro ⟨e1, e2⟩; rw [e1, e2] at hmore; omega), KMat.view_eq cA]
  have hk0 : A.cols * i0 + j0 < A.rows * A.cols := by
    calc A.cols * i0 + j0 < A.cols * i0 + A.cols := by omega
      _ = A.cols * (i0 + 1) := by ring
      _ ≤ A.cols * A.rows := Nat.mul_le_mul_left _ hi0
      _ = A.rows * A.cols := Nat.mul_comm _ _
  have hc : 0 < A.cols := by omega
  have e0 : f ((A.cols * i0 + j0) / A.cols) ((A.cols * i0 + j0) % A.cols) = f i0 j0 := by
    simp only [Nat.mul_add_div hc, Nat.mul_add_mod, Nat.div_eq_of_lt hj0, Nat.mod_eq_of_lt hj0,
      Nat.add_zero]
  refine surely_bind (surely_max (by simp) (fun k => FP.abs (f (k / A.cols) (k % A.cols)))
    (fun k hk s => ?_) fun M hM => ?_)
  · obtain ⟨h1, h2⟩ := div_mod_lt hk
    rw [Rd.bind_ok (hA.look h1 h2), mag_def]; rfl
  have hq : FP.abs (f i0 j0) / M = nan := by
    have hle := hM.le _ hk0
    beta_reduce at hle
    rw [e0] at hle
    have hnum := hM.number
    generalize f i0 j0 = a at hf hle
    rcases a with x | s | _
    · exact absurd trivial hf
    · have : M = inf false := by
        rcases M with y | t | _
        · simp [FP.abs, lt] at hle
        · cases t
          · rfl
          · simp [FP.abs, lt] at hle
        · exact absurd rfl hnum
      rw [this]; rfl
    · cases M <;> rfl
  refine surely_bind (surely_nan H (fun k => (FP.abs (f (k / A.cols) (k % A.cols)) / M) *
    (FP.abs (f (k / A.cols) (k % A.cols)) / M)) (fun k hk s => ?_) (fun k _ => mul_valid _ _)
    ⟨_, hk0, ?_⟩ ?_)
  · obtain ⟨h1, h2⟩ := div_mod_lt hk
    rw [Rd.bind_ok (hA.look h1 h2), mag_def]; rfl
  · rw [e0, hq]; rfl
  · refine surely_pure.2 ⟨rfl, ?_⟩
    rw [show M * M * nan = nan from mul_nan _, show init + nan = nan from add_nan _]
    rfl

example := C66_matrix_frob_norm_not_finite binary64_errors (-1000) kT ((5 : ℤ) : D)
  (fun a => some (if a = kT.toMat.addr 1 1 then FP.inf true else FP.fin 3))
  (fun i j => if kT.toMat.addr i j = kT.toMat.addr 1 1 then FP.inf true else FP.fin 3)
  (fun _ _ _ _ _ => rfl) rfl (by decide) 1 1 (by decide) (by decide) (by rw [if_pos rfl]; exact id)

/-- **C66** `vector_sum_of_squares(exec, x, init)` of a finite vector whose largest magnitude `M` is not
zero: under every schedule the scaling factor is the larger of `M` and the old one, and the sum of squares
is an accurate value of the sum of the scaled squares, plus the old part. -/
theorem C66_vector_sum_of_squares {F : Format} {u η : ℝ} (H : F.Errors u η) (hη1 : η ≤ 1) (l : ℝ)
    (x : KVec) (s₀ : ℝ) (q₀ : FP F) (h : Heap (FP F)) (f : Nat → FP F) (hx : x.mdspan.Holds h f)
    (cx : x.stride = 1) (hl : l ≤ 0) (hf : ∀ k, k < x.ext → (f k).Finite) (M : ℝ) (hM0 : 0 < M)
    (hM : IsGreatest {y | ∃ k, k < x.ext ∧ y = |(f k).val|} M) :
    Surely (kkSumOfSquaresOf (FP.fin l) x ⟨FP.fin s₀, q₀⟩) h fun r h' => h' = h ∧
      r.scalingFactor = FP.fin (max M s₀) ∧
      ∃ t, r.scaledSumOfSquares =
          t + (FP.fin s₀ * FP.fin s₀ * q₀) / (FP.fin M * FP.fin M) ∧
        t.Valid ∧ FP.Accurate u (x.ext + 2) (4 * x.ext * η) True t
          (∑ k ∈ range x.ext, ((f k).val / max M s₀) ^ 2)
          (∑ k ∈ range x.ext, ((f k).val / max M s₀) ^ 2) := by
  unfold kkSumOfSquaresOf
  rw [KVec.view_eq cx]
  have hS : 0 < max M s₀ := lt_max_of_lt_left hM0
  have ha : ∀ k, k < x.ext → FP.abs (f k) = FP.fin |(f k).val| := fun k hk => by
    conv_lhs => rw [(hf k hk).eq]
    rfl
  have hle : ∀ k, k < x.ext → |(f k).val| ≤ max M s₀ := fun k hk =>
    (hM.2 ⟨k, hk, rfl⟩).trans (le_max_left _ _)
  have h0 : 0 < x.ext := by
    obtain ⟨k, hk, _⟩ := hM.1
    omega
  refine surely_bind (surely_max (by simp) (fun k => FP.fin |(f k).val|) (fun k hk s => ?_) fun M' hM' => ?_)
  · rw [Rd.bind_ok (hx.look hk), mag_def, ha k hk]; rfl
  rw [largest_eq hl hM hM']
  dsimp only
  rw [stdMax_fin]
  refine surely_bind ((FP.bounds H).surely (fun k => (FP.fin |(f k).val| / FP.fin (max M s₀)) *
    (FP.fin |(f k).val| / FP.fin (max M s₀))) ?_
    (fun k hk => acc_quot_sq H hη1 (abs_nonneg (f k).val) hS (hle k hk)) fun r _ c =>
      surely_pure.2 ⟨rfl, rfl, r, rfl, FP.Acc.valid c, ?_⟩)
  · intro k hk s
    rw [Rd.bind_ok (hx.look hk), mag_def, ha k hk]; rfl
  change FP.Acc u (3 + (x.ext - 1)) _ _ r _ _ at c
  rw [show 3 + (x.ext - 1) = x.ext + 2 by omega] at c
  have e : ∑ k ∈ range x.ext, ((f k).val / max M s₀) ^ 2 =
      ∑ k ∈ range x.ext, (|(f k).val| / max M s₀) ^ 2 :=
    Finset.sum_congr rfl fun k _ => by rw [div_pow, div_pow, sq_abs]
  rw [e]
  exact (c.congr ⟨fun _ _ _ => trivial, fun _ => trivial⟩ rfl rfl (by
    rw [sum_const, card_range, nsmul_eq_mul]; change 4 * (x.ext : ℝ) * η = x.ext * (4 * η); ring)).toAccurate

example := C66_vector_sum_of_squares binary64_errors (zpow_le_one_of_nonpos₀ one_le_two (by norm_num)) (-1000)
  kx 2 ((5 : ℤ) : D) (fun _ => some (FP.fin 1)) (fun _ => FP.fin 1) (fun _ _ => rfl) rfl (by norm_num)
  (fun _ _ => trivial) 1 one_pos ⟨⟨0, by decide, ones_abs.symm⟩, fun _ ⟨_, _, e⟩ => (e.trans ones_abs).le⟩

/-- **C66** `vector_sum_of_squares(exec, x, init)` where `init` is the sum 0 with any positive scaling
factor: if the square of the largest magnitude does not underflow to zero, then the sum of squares is
accurate under every schedule. -/
theorem C66_vector_sum_of_squares_from_zero {F : Format} {u η : ℝ} (H : F.Errors u η) (hη1 : η ≤ 1)
    (l : ℝ) (x : KVec) (s₀ : ℝ) (h : Heap (FP F)) (f : Nat → FP F) (hx : x.mdspan.Holds h f)
    (cx : x.stride = 1) (hl : l ≤ 0) (hf : ∀ k, k < x.ext → (f k).Finite) (M : ℝ) (hM0 : 0 < M)
    (hM : IsGreatest {y | ∃ k, k < x.ext ∧ y = |(f k).val|} M) (hMM : F.rnd (M * M) ≠ 0)
    (hs : F.rnd (s₀ * s₀) ≤ F.big) :
    Surely (kkSumOfSquaresOf (FP.fin l : FP F) x ⟨FP.fin s₀, 0⟩) h fun r h' => h' = h ∧
      r.scalingFactor = FP.fin (max M s₀) ∧
      FP.Accurate u (x.ext + 2) (4 * x.ext * η) True r.scaledSumOfSquares
        (∑ k ∈ range x.ext, ((f k).val / max M s₀) ^ 2)
        (∑ k ∈ range x.ext, ((f k).val / max M s₀) ^ 2) := by
  have z0 : ofReal F 0 = FP.fin 0 := by
    rw [ofReal_nonneg le_rfl (by rw [F.zero]; linarith [F.one_le_big]), F.zero]
  refine (C66_vector_sum_of_squares H hη1 l x s₀ 0 h f hx cx hl hf M hM0 hM).mono
    fun r h' ⟨e, e1, t, e2, vt, a⟩ => ⟨e, e1, ?_⟩
  have e3 : (FP.fin s₀ * FP.fin s₀ * 0 : FP F) = 0 := by
    have : (FP.fin s₀ * FP.fin s₀ : FP F) = FP.fin (F.rnd (s₀ * s₀)) :=
      ofReal_nonneg (mul_self_nonneg s₀) hs
    rw [this]
    change ofReal F (_ * 0) = _
    rw [mul_zero, z0]; rfl
  have e4 : (0 : FP F) / (FP.fin M * FP.fin M) = 0 := by
    by_cases hb : F.rnd (M * M) ≤ F.big
    · have : (FP.fin M * FP.fin M : FP F) = FP.fin (F.rnd (M * M)) :=
        ofReal_nonneg (mul_self_nonneg M) hb
      rw [this]
      change FP.div (FP.fin 0) _ = _
      simp only [FP.div, hMM, if_false, zero_div, z0]; rfl
    · have : (FP.fin M * FP.fin M : FP F) = FP.inf (decide (M * M < 0)) := by
        refine if_neg ?_
        rwa [abs_of_nonneg (rnd_nonneg (mul_self_nonneg M))]
      rw [this]; rfl
  rw [e2, e3, e4, valid_add_zero vt]
  exact a

example := C66_vector_sum_of_squares_from_zero binary64_errors
  (zpow_le_one_of_nonpos₀ one_le_two (by norm_num)) (-1000)
  kx 1 (fun _ => some (FP.fin 1)) (fun _ => (FP.fin 1 : D)) (fun _ _ => rfl) rfl (by norm_num)
  (fun _ _ => trivial) 1 one_pos ⟨⟨0, by decide, ones_abs.symm⟩, fun _ ⟨_, _, e⟩ => (e.trans ones_abs).le⟩
  (by rw [mul_one, binary64.one]; exact one_ne_zero)
  (by rw [mul_one, binary64.one]; exact binary64.one_le_big)

/-- **C66** (negative) `vector_sum_of_squares(exec, x, init)` of the vector `[2^-600]` in `double`, with
the usual `init` (scaling factor 1, sum 0), has the sum of squares NaN under every schedule: the square by
which the old part is divided underflows. -/
theorem C66_vector_sum_of_squares_underflow_false (l : ℝ) (x : KVec) (h : Heap D)
    (hx : x.mdspan.Holds h fun _ => FP.fin ((2 : ℝ) ^ (-600 : ℤ))) (cx : x.stride = 1) (hl : l ≤ 0)
    (h1 : x.ext = 1) :
    Surely (kkSumOfSquaresOf (FP.fin l : D) x ⟨FP.fin 1, 0⟩) h fun r h' => h' = h ∧
      r.scaledSumOfSquares = nan := by
  have hp : (0 : ℝ) < (2 : ℝ) ^ (-600 : ℤ) := Binary.pow_pos' _
  have habs : |(FP.fin ((2 : ℝ) ^ (-600 : ℤ)) : D).val| = (2 : ℝ) ^ (-600 : ℤ) := abs_of_pos hp
  refine (C66_vector_sum_of_squares binary64_errors (zpow_le_one_of_nonpos₀ one_le_two (by norm_num)) l x
    1 0 h _ hx cx hl (fun _ _ => trivial) ((2 : ℝ) ^ (-600 : ℤ)) hp
    ⟨⟨0, by omega, habs.symm⟩, fun _ ⟨_, _, e⟩ => (e.trans habs).le⟩).mono
    fun r h' ⟨e, _, t, e2, _⟩ => ⟨e, ?_⟩
  have hm : (2 : ℝ) ^ (-600 : ℤ) * (2 : ℝ) ^ (-600 : ℤ) = (2 : ℝ) ^ (-1200 : ℤ) := by
    rw [← zpow_add₀ two_ne_zero]; norm_num
  have e3 : (FP.fin ((2 : ℝ) ^ (-600 : ℤ)) * FP.fin ((2 : ℝ) ^ (-600 : ℤ)) : D) = FP.fin 0 := by
    change ofReal binary64 _ = _
    rw [hm]
    have e : binary64.rnd ((2 : ℝ) ^ (-1200 : ℤ)) = 0 := by
      have hu : Binary.ulpExp 53 (-1074) ((2 : ℝ) ^ (-1200 : ℤ)) = -1074 := by
        unfold Binary.ulpExp
        rw [abs_of_pos (Binary.pow_pos' _), Binary.log_pow]
        norm_num
      change Binary.rnd 53 (-1074) _ = 0
      unfold Binary.rnd
      rw [hu, ← zpow_sub₀ two_ne_zero, show (-1200 - -1074 : ℤ) = -126 by norm_num,
        round_eq_zero_iff.2 ⟨by linarith [Binary.pow_pos' (-126)], ?_⟩, Int.cast_zero, zero_mul]
      norm_num
    rw [ofReal_fin (by rw [e, abs_zero]; linarith [binary64.one_le_big]), e]
  have e4 : (FP.fin 1 * FP.fin 1 * 0 : D) = FP.fin 0 := by
    change FP.mul (ofReal binary64 (1 * 1)) (FP.fin 0) = _
    rw [one_mul, ofReal_nonneg zero_le_one (by rw [binary64.one]; exact binary64.one_le_big), binary64.one]
    change ofReal binary64 (1 * 0) = _
    rw [mul_zero, ofReal_nonneg le_rfl (by rw [binary64.zero]; linarith [binary64.one_le_big]), binary64.zero]
  rw [e2, e3, e4, show (FP.fin 0 / FP.fin 0 : D) = nan by
    change FP.div (FP.fin 0) (FP.fin 0) = nan
    simp [FP.div], add_nan]

example := C66_vector_sum_of_squares_underflow_false (-1000) ⟨1, 0, 1⟩
  (fun _ => some (FP.fin ((2 : ℝ) ^ (-600 : ℤ)))) (fun _ _ => rfl) rfl (by norm_num) rfl

end StdBLAS

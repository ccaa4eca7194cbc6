import Mathlib.Order.Bounds.Basic
import Verif.Spec.BinaryFormat
import Verif.Props.NanReductions

/-!
# Property C56: overflow, underflow and infinities in the reductions

`f.rnd` is the rounding of the format and `f.big` its largest finite number (`Spec/Ieee.lean`);
`binary64` and `binary32` are the formats of `double` and `float`.
-/

namespace StdBLAS
open Witness
open FP hiding abs
variable {f : Format}

theorem FP.mul_fin (a b : ℝ) : (fin a * fin b : FP f) = ofReal f (a * b) := rfl
theorem FP.add_fin (a b : ℝ) : (fin a + fin b : FP f) = ofReal f (a + b) := rfl
theorem FP.div_fin (a : ℝ) {b : ℝ} (hb : b ≠ 0) : (fin a / fin b : FP f) = ofReal f (a / b) := by
  rw [div_def]
  simp [div, hb]

theorem rnd_le_int {N : ℕ} (hN : ∀ j : ℕ, j ≤ N → f.rnd j = j) {x : ℝ} {k : ℕ} (hk : k ≤ N)
    (h : x ≤ k) : f.rnd x ≤ k := (f.mono h).trans (hN k hk).le

theorem one_le_rnd {x : ℝ} (h : 1 ≤ x) : 1 ≤ f.rnd x := by
  have := f.mono h
  rwa [f.one] at this

theorem rnd_le_one {x : ℝ} (h : x ≤ 1) : f.rnd x ≤ 1 := (f.mono h).trans f.one.le

theorem quotient_fin {a b : ℝ} (ha : 0 ≤ a) (hb : 0 < b) (h : a ≤ b) :
    ∃ c, (fin a / fin b : FP f) = fin c ∧ 0 ≤ c ∧ c ≤ 1 ∧ (a = 0 → c = 0) := by
  have h0 : 0 ≤ a / b := div_nonneg ha hb.le
  have h1 : f.rnd (a / b) ≤ 1 := rnd_le_one ((div_le_one hb).2 h)
  refine ⟨f.rnd (a / b), ?_, rnd_nonneg h0, h1, ?_⟩
  · rw [div_fin a hb.ne', ofReal_nonneg h0 (h1.trans f.one_le_big)]
  · rintro rfl; rw [zero_div, f.zero]

/-- One step with finite numbers: no overflow, and the scaled sum grows by at most one. -/
theorem ssqStepOf_fin {N k : ℕ} (hN : ∀ j : ℕ, j ≤ N → f.rnd j = j) (hbig : (N : ℝ) ≤ f.big)
    (hk : k < N) {M q q0 a : ℝ} (hM : 0 ≤ M) (ha : 0 ≤ a)
    (h0 : M = 0 → q = q0) (h1 : 0 < M → 1 ≤ q ∧ q ≤ k) :
    ∃ q', ssqStepOf (⟨fin M, fin q⟩ : SumOfSquaresOf (FP f)) (fin a) = ⟨fin (max M a), fin q'⟩ ∧
      (max M a = 0 → q' = q0) ∧ (0 < max M a → 1 ≤ q' ∧ q' ≤ (k + 1 : ℕ)) := by
  have hkN : ((k + 1 : ℕ) : ℝ) ≤ f.big := le_trans (by exact_mod_cast hk) hbig
  have hkb : (k : ℝ) ≤ f.big := le_trans (by exact_mod_cast hk.le) hbig
  unfold ssqStepOf
  simp only [ne_def, lt_def, zero_def]
  by_cases hz : a = 0
  · subst hz
    rw [if_neg (by simp [FP.ne]), max_eq_left hM]
    refine ⟨q, rfl, h0, fun h => ⟨(h1 h).1, (h1 h).2.trans (by push_cast; linarith)⟩⟩
  rw [if_pos (by simp [FP.ne, hz])]
  have ha' : 0 < a := lt_of_le_of_ne ha (Ne.symm hz)
  by_cases hlt : M < a
  · rw [if_pos (by simpa [lt] using hlt), max_eq_right hlt.le]
    obtain ⟨c, ec, c0, c1, cz⟩ := quotient_fin (f := f) hM ha' hlt.le
    rw [ec, mul_fin]
    have hq : 0 ≤ q * c ∧ q * c ≤ k ∧ (M = 0 → q * c = 0) := by
      rcases hM.eq_or_lt with e | e
      · rw [cz e.symm, mul_zero]; exact ⟨le_rfl, Nat.cast_nonneg k, fun _ => rfl⟩
      · obtain ⟨q1, q2⟩ := h1 e
        exact ⟨by nlinarith, by nlinarith, fun h => absurd h e.ne'⟩
    have r1 : f.rnd (q * c) ≤ k := rnd_le_int hN hk.le hq.2.1
    have r0 := rnd_nonneg (f := f) hq.1
    rw [ofReal_nonneg hq.1 (r1.trans hkb), mul_fin]
    have hq2 : 0 ≤ f.rnd (q * c) * c ∧ f.rnd (q * c) * c ≤ k :=
      ⟨mul_nonneg r0 c0, by nlinarith⟩
    have t1 : f.rnd (f.rnd (q * c) * c) ≤ k := rnd_le_int hN hk.le hq2.2
    have t0 := rnd_nonneg (f := f) hq2.1
    rw [ofReal_nonneg hq2.1 (t1.trans hkb), one_def, add_fin]
    have u1 : f.rnd (1 + f.rnd (f.rnd (q * c) * c)) ≤ (k + 1 : ℕ) :=
      rnd_le_int hN hk (by push_cast; linarith)
    refine ⟨_, by rw [ofReal_nonneg (by linarith) (u1.trans hkN)], fun h => absurd h hz, fun _ =>
      ⟨one_le_rnd (by linarith), u1⟩⟩
  · rw [if_neg (by simpa [lt] using hlt), max_eq_left (not_lt.1 hlt)]
    have hM' : 0 < M := lt_of_lt_of_le ha' (not_lt.1 hlt)
    obtain ⟨c, ec, c0, c1, cz⟩ := quotient_fin (f := f) ha hM' (not_lt.1 hlt)
    obtain ⟨q1, q2⟩ := h1 hM'
    rw [ec, mul_fin]
    have r1 : f.rnd (c * c) ≤ 1 := rnd_le_one (by nlinarith)
    have r0 := rnd_nonneg (f := f) (mul_nonneg c0 c0)
    rw [ofReal_nonneg (mul_nonneg c0 c0) (r1.trans f.one_le_big), add_fin]
    have u1 : f.rnd (q + f.rnd (c * c)) ≤ (k + 1 : ℕ) :=
      rnd_le_int hN hk (by push_cast; linarith)
    refine ⟨_, by rw [ofReal_nonneg (by linarith) (u1.trans hkN)], fun h => absurd h hM'.ne',
      fun _ => ⟨one_le_rnd (by linarith), u1⟩⟩

theorem ssq_fin {m n : ℕ} (hN : ∀ j : ℕ, j ≤ m + n → f.rnd j = j)
    (hbig : ((m + n : ℕ) : ℝ) ≤ f.big) {s0 q0 : ℝ} (hs : 0 ≤ s0) (hq : 0 < s0 → 1 ≤ q0 ∧ q0 ≤ m)
    (v : Nat → ℝ) :
    ∃ M q, foldUp n (fun s k => ssqStepOf s (MagOps.abs (fin (v k) : FP f)))
        (⟨fin s0, fin q0⟩ : SumOfSquaresOf (FP f)) = ⟨fin M, fin q⟩ ∧
      IsGreatest (insert s0 {a | ∃ i, i < n ∧ a = |v i|}) M ∧ (M = 0 → q = q0) ∧
      (0 < M → 1 ≤ q ∧ q ≤ (m + n : ℕ)) := by
  refine foldUp_inv (n := n) (step := fun s k => ssqStepOf s (MagOps.abs (fin (v k) : FP f)))
    (s := (⟨fin s0, fin q0⟩ : SumOfSquaresOf (FP f)))
    (fun k s => ∃ M q, s = ⟨fin M, fin q⟩ ∧
      IsGreatest (insert s0 {a | ∃ i, i < k ∧ a = |v i|}) M ∧ (M = 0 → q = q0) ∧
      (0 < M → 1 ≤ q ∧ q ≤ (m + k : ℕ))) ?_ ?_
  · refine ⟨s0, q0, rfl, ⟨Or.inl rfl, ?_⟩, fun _ => rfl, hq⟩
    rintro a (rfl | ⟨i, hi, _⟩)
    · exact le_rfl
    · exact absurd hi (by omega)
  · rintro k _ hk ⟨M, q, rfl, hM, h0, h1⟩
    have hM0 : 0 ≤ M := hs.trans (hM.2 (Or.inl rfl))
    obtain ⟨q', e, h0', h1'⟩ := ssqStepOf_fin hN hbig (show m + k < m + n by omega) hM0
      (abs_nonneg (v k)) h0 h1
    refine ⟨max M |v k|, q', e, ⟨?_, ?_⟩, h0', h1'⟩
    · rcases le_total M |v k| with h | h
      · rw [max_eq_right h]; exact Or.inr ⟨k, by omega, rfl⟩
      · rw [max_eq_left h]
        exact hM.1.imp id fun ⟨i, hi, e⟩ => ⟨i, by omega, e⟩
    · rintro a (rfl | ⟨i, hi, rfl⟩)
      · exact (hM.2 (Or.inl rfl)).trans (le_max_left _ _)
      · by_cases q : i = k
        · rw [q]; exact le_max_right _ _
        · exact (hM.2 (Or.inr ⟨i, by omega, rfl⟩)).trans (le_max_left _ _)

namespace Witness
/-- `n` elements in cells 0, 1, ... -/
def row (f : Format) (n : Nat) : VecV (FP f) := (⟨n, fun i => i⟩ : Vec).view
/-- Two rows and `n` columns in cells 0, 1, ... -/
def mat2 (f : Format) (n : Nat) : MatV (FP f) := (⟨2, n, fun i j => i + 2 * j⟩ : Mat).view
/-- A vector in a memory given by the values of its cells. -/
theorem rowHolds (n : Nat) (g : Nat → FP f) :
    (row f n).Holds (fun a => some (g a)) g :=
  fun i _ => ⟨g i, rfl, rfl⟩
/-- A matrix with two rows in a memory given by the values of its cells. -/
theorem matHolds (n : Nat) (g : Nat → FP f) :
    (mat2 f n).Holds (fun a => some (g a))
      fun i j => g (i + 2 * j) :=
  fun i j _ _ _ => ⟨g (i + 2 * j), rfl, rfl⟩
end Witness

/-! ## Finite elements -/

/-- **C56** `vector_sum_of_squares(x, init)` of finite numbers never overflows: the new scaling
factor is exactly the largest magnitude, and the scaled sum of squares lies between 1 and the number
of elements seen so far (`m` of them before this call).  Needed: the integers up to `m + n` are
numbers of the format. -/
theorem C56_vector_sum_of_squares (x : VecV (FP f)) (h : Heap (FP f)) (v : Nat → ℝ)
    (hx : x.Holds h fun i => fin (v i)) (m : ℕ) (s0 q0 : ℝ) (hs : 0 ≤ s0)
    (hq : 0 < s0 → 1 ≤ q0 ∧ q0 ≤ m) (hN : ∀ j : ℕ, j ≤ m + x.ext → f.rnd j = j)
    (hbig : ((m + x.ext : ℕ) : ℝ) ≤ f.big) :
    Ends (vectorSumOfSquaresOf x (⟨fin s0, fin q0⟩ : SumOfSquaresOf (FP f))) h fun r h' =>
      h' = h ∧ ∃ M q, r = ⟨fin M, fin q⟩ ∧
        IsGreatest (insert s0 {a | ∃ i, i < x.ext ∧ a = |v i|}) M ∧ (M = 0 → q = q0) ∧
        (0 < M → 1 ≤ q ∧ q ≤ (m + x.ext : ℕ)) := by
  refine (ssqOf_run hx _).mono ?_
  rintro _ _ ⟨rfl, rfl⟩
  exact ⟨rfl, ssq_fin hN hbig hs hq v⟩

theorem binary64_int (j : ℕ) (hj : j ≤ 2 ^ 53) : binary64.rnd j = j := by
  have := Binary.rnd_int (p := 53) (q := -1074) (by norm_num) (by norm_num) (j : ℤ)
    (by rw [abs_of_nonneg (Int.natCast_nonneg j)]; exact_mod_cast hj)
  exact_mod_cast this

theorem binary32_int (j : ℕ) (hj : j ≤ 2 ^ 24) : binary32.rnd j = j := by
  have := Binary.rnd_int (p := 24) (q := -149) (by norm_num) (by norm_num) (j : ℤ)
    (by rw [abs_of_nonneg (Int.natCast_nonneg j)]; exact_mod_cast hj)
  exact_mod_cast this

theorem big_format (p : ℕ) (q r : ℤ) (hp : 1 ≤ p) (hq : q ≤ 0) (hr : 1 ≤ r) (j : ℕ)
    (hj : j ≤ 2 ^ p) : (j : ℝ) ≤ (Binary.format p q r hp hq (by omega)).big := by
  change (j : ℝ) ≤ (2 ^ p - 1) * (2 : ℝ) ^ r
  have h1 : (2 : ℝ) ≤ (2 : ℝ) ^ r := by
    calc (2 : ℝ) = (2 : ℝ) ^ (1 : ℤ) := by norm_num
      _ ≤ (2 : ℝ) ^ r := zpow_le_zpow_right₀ one_le_two hr
  have h2 : (j : ℝ) ≤ 2 ^ p := by exact_mod_cast hj
  have h3 : (2 : ℝ) ≤ 2 ^ p := by
    calc (2 : ℝ) = 2 ^ 1 := by norm_num
      _ ≤ 2 ^ p := pow_le_pow_right₀ (by norm_num) hp
  nlinarith

/-- The condition on the integers holds for `double` and up to `2 ^ 53` elements. -/
theorem binary64_big (j : ℕ) (hj : j ≤ 2 ^ 53) : (j : ℝ) ≤ binary64.big :=
  big_format 53 (-1074) 971 _ _ (by norm_num) j hj

/-- The condition on the integers holds for `float` and up to `2 ^ 24` elements. -/
theorem binary32_big (j : ℕ) (hj : j ≤ 2 ^ 24) : (j : ℝ) ≤ binary32.big :=
  big_format 24 (-149) 104 _ _ (by norm_num) j hj

/-- Four million elements of type `double`, of any magnitude. -/
example (v : Nat → ℝ) : Ends (vectorSumOfSquaresOf (row binary64 4000000)
      (⟨fin 0, fin 1⟩ : SumOfSquaresOf (FP binary64))) (fun a => some (fin (v a))) fun r h' =>
      h' = (fun a => some (fin (v a))) ∧ ∃ M q, r = ⟨fin M, fin q⟩ ∧
        IsGreatest (insert 0 {a | ∃ i, i < 4000000 ∧ a = |v i|}) M ∧ (M = 0 → q = 1) ∧
        (0 < M → 1 ≤ q ∧ q ≤ (0 + 4000000 : ℕ)) :=
  C56_vector_sum_of_squares _ _ v (rowHolds _ _) 0 0 1 le_rfl (fun h => absurd h (lt_irrefl _))
    (fun j hj => binary64_int j (le_trans hj (by norm_num [row, Vec.view])))
    (binary64_big _ (by norm_num [row, Vec.view]))

theorem binary64_pow (e : ℤ) (he : -1074 ≤ e) : binary64.rnd ((2 : ℝ) ^ e) = (2 : ℝ) ^ e := by
  refine Binary.rnd_eq (Binary.on_pow ?_)
  unfold Binary.ulpExp
  rw [abs_of_pos (Binary.pow_pos' e), Binary.log_pow]
  omega

theorem binary64_big_bounds : (2 : ℝ) ^ (1023 : ℤ) ≤ binary64.big ∧
    binary64.big < (2 : ℝ) ^ (1024 : ℤ) := by
  have e : binary64.big = (2 ^ 53 - 1) * (2 : ℝ) ^ (971 : ℤ) := rfl
  rw [e]
  have h1 : (2 : ℝ) ^ (1023 : ℤ) = 2 ^ 52 * (2 : ℝ) ^ (971 : ℤ) := by
    rw [← zpow_natCast, ← zpow_add₀ two_ne_zero]; norm_num
  have h2 : (2 : ℝ) ^ (1024 : ℤ) = 2 ^ 53 * (2 : ℝ) ^ (971 : ℤ) := by
    rw [← zpow_natCast, ← zpow_add₀ two_ne_zero]; norm_num
  rw [h1, h2]
  have := Binary.pow_pos' 971
  exact ⟨mul_le_mul_of_nonneg_right (by norm_num) this.le,
    mul_lt_mul_of_pos_right (by norm_num) this⟩

/-- **C56** `vector_two_norm(x)` of finite numbers, with largest magnitude `M`, is finite and lies
between `M` and `M * sqrt n` (rounded), provided this upper bound does not itself overflow.  In
particular squares are never formed that overflow or underflow. -/
theorem C56_vector_two_norm (x : VecV (FP f)) (h : Heap (FP f)) (v : Nat → ℝ)
    (hx : x.Holds h fun i => fin (v i)) (hv : ∀ i, i < x.ext → f.rnd |v i| = |v i|)
    (M : ℝ) (hM : IsGreatest {a | ∃ i, i < x.ext ∧ a = |v i|} M)
    (hN : ∀ j : ℕ, j ≤ x.ext → f.rnd j = j) (hbig : (x.ext : ℝ) ≤ f.big)
    (hfit : f.rnd (M * f.rnd (Real.sqrt x.ext)) ≤ f.big) :
    Ends (vectorTwoNormOf x (0 : FP f)) h fun r h' => h' = h ∧
      ∃ s, r = fin s ∧ M ≤ s ∧ s ≤ f.rnd (M * f.rnd (Real.sqrt x.ext)) := by
  refine (normOf_run hx _).mono ?_
  rintro _ _ ⟨rfl, rfl⟩
  refine ⟨rfl, ?_⟩
  obtain ⟨M', q, e, g, h0, h1⟩ := ssq_fin (f := f) (m := 0) (n := x.ext) (s0 := 0) (q0 := 1)
    (by simpa using hN) (by simpa using hbig) le_rfl (fun h => absurd h (lt_irrefl _)) v
  obtain ⟨i0, hi0, eM⟩ := hM.1
  have hM0 : 0 ≤ M := eM ▸ abs_nonneg _
  have eMM : M' = M := by
    refine le_antisymm ?_ (g.2 (Or.inr hM.1))
    rcases g.1 with rfl | hm
    · exact hM0
    · exact hM.2 hm
  subst eMM
  have hrep : f.rnd M' = M' := by rw [eM]; exact hv i0 hi0
  have hn1 : (1 : ℝ) ≤ x.ext := by
    have : 1 ≤ x.ext := by omega
    exact_mod_cast this
  have hq : 1 ≤ q ∧ q ≤ x.ext := by
    rcases hM0.eq_or_lt with e | e
    · rw [h0 e.symm]; exact ⟨le_rfl, hn1⟩
    · simpa using h1 e
  have s1 : 1 ≤ Real.sqrt q := Real.one_le_sqrt.2 hq.1
  have s2 : Real.sqrt q ≤ Real.sqrt x.ext := Real.sqrt_le_sqrt hq.2
  have s3 : Real.sqrt x.ext ≤ x.ext := Real.sqrt_le_iff.2 ⟨by linarith, by nlinarith⟩
  have t1 : 1 ≤ f.rnd (Real.sqrt q) := one_le_rnd s1
  have t2 : f.rnd (Real.sqrt q) ≤ f.rnd (Real.sqrt x.ext) := f.mono s2
  have t3 : f.rnd (Real.sqrt x.ext) ≤ f.big :=
    ((f.mono s3).trans (hN _ le_rfl).le).trans hbig
  have u1 : M' ≤ f.rnd (M' * f.rnd (Real.sqrt q)) := by
    conv_lhs => rw [← hrep]
    exact f.mono (by nlinarith)
  have u2 : f.rnd (M' * f.rnd (Real.sqrt q)) ≤ f.rnd (M' * f.rnd (Real.sqrt x.ext)) :=
    f.mono (by nlinarith)
  refine ⟨f.rnd (M' * f.rnd (Real.sqrt q)), ?_, u1, u2⟩
  change 0 + (foldUp x.ext (fun s k => ssqStepOf s (MagOps.abs (fin (v k) : FP f)))
    (⟨fin 0, fin 1⟩ : SumOfSquaresOf (FP f))).scalingFactor *
    FloatOps.sqrt (foldUp x.ext (fun s k => ssqStepOf s (MagOps.abs (fin (v k) : FP f)))
    (⟨fin 0, fin 1⟩ : SumOfSquaresOf (FP f))).scaledSumOfSquares = _
  rw [e]
  have es : FloatOps.sqrt (fin q : FP f) = fin (f.rnd (Real.sqrt q)) := by
    rw [sqrt_def]
    simp only [FP.sqrt]
    rw [if_neg (by linarith), ofReal_nonneg (by linarith) (t2.trans t3)]
  simp only []
  rw [es, mul_fin, ofReal_nonneg (mul_nonneg hM0 (by linarith)) (u2.trans hfit), zero_def,
    add_fin, zero_add, ofReal_nonneg (hM0.trans u1) (by rw [f.idem]; exact u2.trans hfit), f.idem]

/-- Two elements of type `double` whose squares overflow. -/
example : Ends (vectorTwoNormOf (row binary64 2) (0 : FP binary64))
    (fun _ => some (fin ((2 : ℝ) ^ (1022 : ℤ)))) fun r h' =>
    h' = (fun _ => some (fin ((2 : ℝ) ^ (1022 : ℤ)))) ∧ ∃ s, r = fin s ∧
      (2 : ℝ) ^ (1022 : ℤ) ≤ s ∧
      s ≤ binary64.rnd ((2 : ℝ) ^ (1022 : ℤ) * binary64.rnd (Real.sqrt (2 : ℕ))) := by
  have hp := Binary.pow_pos' 1022
  refine C56_vector_two_norm _ _ (fun _ => (2 : ℝ) ^ (1022 : ℤ)) (rowHolds _ _) ?_ _ ?_ ?_ ?_ ?_
  · intro i _
    rw [abs_of_pos hp, binary64_pow _ (by norm_num)]
  · refine ⟨⟨0, (show 0 < 2 by decide), (abs_of_pos hp).symm⟩, ?_⟩
    rintro a ⟨i, _, rfl⟩
    rw [abs_of_pos hp]
  · exact fun j hj => binary64_int j (le_trans hj (by norm_num [row, Vec.view]))
  · exact binary64_big _ (by norm_num [row, Vec.view])
  · have h2 : binary64.rnd (Real.sqrt (2 : ℕ)) ≤ 2 := by
      have h := binary64_int 2 (by norm_num)
      refine (binary64.mono (b := ((2 : ℕ) : ℝ)) ?_).trans (by rw [h]; norm_num)
      exact Real.sqrt_le_iff.2 ⟨by norm_num, by norm_num⟩
    refine (binary64.mono (b := (2 : ℝ) ^ (1023 : ℤ)) ?_).trans ?_
    · have e : (2 : ℝ) ^ (1023 : ℤ) = (2 : ℝ) ^ (1022 : ℤ) * 2 := by
        rw [← zpow_add_one₀ two_ne_zero]; norm_num
      rw [e]
      exact mul_le_mul_of_nonneg_left h2 hp.le
    · rw [binary64_pow _ (by norm_num)]
      exact binary64_big_bounds.1

/-! ## Infinite elements -/

namespace Witness
/-- 1, -inf, 1, 1, ... -/
noncomputable def oneInf (k : Nat) : FP f := if k = 1 then .inf true else .fin 1
theorem oneInf_ne (k : Nat) : (oneInf k : FP f) ≠ nan := by
  unfold oneInf
  split <;> simp
end Witness

theorem lt_inf {a : FP f} (ha : a ≠ nan) (h : a ≠ inf false) : lt a (inf false) = true := by
  cases a with
  | fin x => rfl
  | inf s => cases s
             · exact absurd rfl h
             · rfl
  | nan => exact absurd rfl ha

theorem inf_lt (a : FP f) : lt (inf false) a = false := by
  cases a <;> rfl

theorem stdMax_inf_left (r : FP f) : stdMax (inf false) r = inf false := by
  unfold stdMax
  rw [lt_def, inf_lt]
  rfl

theorem stdMax_inf_right {s : FP f} (hs : s ≠ nan) : stdMax s (inf false) = inf false := by
  unfold stdMax
  by_cases q : s = inf false
  · rw [q]; exact ite_self _
  · rw [lt_def, lt_inf hs q]; rfl

theorem add_abs_inf {s a : FP f} (hs : Nonneg s) (ha : a ≠ nan)
    (h : s = inf false ∨ ∃ b, a = inf b) :
    s + MagOps.abs a = inf false := by
  rw [mag_def, add_def]
  obtain ⟨h1, h2⟩ := hs
  rcases h with rfl | ⟨b, rfl⟩
  · cases a with
    | fin x => rfl
    | inf b => simp [FP.abs, add]
    | nan => exact absurd rfl ha
  · cases s with
    | fin x => rfl
    | inf t =>
      have ht : t = false := by cases t <;> simp_all [lt]
      subst ht
      simp [FP.abs, add]
    | nan => exact absurd rfl h1

theorem sum_inf {n : Nat} {g : Nat → FP f} {init : FP f} (hi : Nonneg init)
    (hn : ∀ k, k < n → g k ≠ nan) (hinf : ∃ k b, k < n ∧ g k = inf b) :
    foldUp n (fun s k => s + MagOps.abs (g k)) init = inf false := by
  have key := foldUp_inv (n := n) (step := fun s k => s + MagOps.abs (g k)) (s := init)
    (fun k s => Nonneg s ∧ ((∃ j b, j < k ∧ g j = inf b) → s = inf false))
    ⟨hi, fun ⟨j, _, hj, _⟩ => absurd hj (by omega)⟩ (by
      rintro k s hk ⟨h1, h2⟩
      refine ⟨nonneg_add_abs h1 (hn k hk), ?_⟩
      rintro ⟨j, b, hj, e⟩
      refine add_abs_inf h1 (hn k hk) ?_
      by_cases q : j = k
      · exact Or.inr ⟨b, q ▸ e⟩
      · exact Or.inl (h2 ⟨j, b, by omega, e⟩))
  exact key.2 hinf

/-- **C56** `vector_abs_sum(v, init)` is `inf` if an element is infinite, no element is NaN and
`init` is not negative. -/
theorem C56_vector_abs_sum_inf (v : VecV (FP f)) (init : FP f) (h : Heap (FP f)) (g : Nat → FP f)
    (hv : v.Holds h g) (hn : ∀ k, k < v.ext → g k ≠ nan)
    (hi : init ≠ nan ∧ lt init 0 = false) (hinf : ∃ k b, k < v.ext ∧ g k = inf b) :
    Ends (vectorAbsSumOf v init) h fun r h' => r = inf false ∧ h' = h := by
  refine (absSumOf_run hv init).mono ?_
  rintro _ _ ⟨rfl, rfl⟩
  exact ⟨sum_inf hi hn hinf, rfl⟩

example : Ends (vectorAbsSumOf (row f 3) (0 : FP f))
    (fun a => some (oneInf a)) fun r h' => r = inf false ∧ h' = fun a => some (oneInf a) :=
  C56_vector_abs_sum_inf _ _ _ _ (rowHolds 3 oneInf) (fun k _ => oneInf_ne k) nonneg_zero
    ⟨1, true, (show 1 < 3 by decide), rfl⟩

/-- **C56** `matrix_inf_norm(A, init)` is `inf` if an element is infinite, no element is NaN and
`init` is not negative. -/
theorem C56_matrix_inf_norm_inf (A : MatV (FP f)) (init : FP f) (h : Heap (FP f))
    (g : Nat → Nat → FP f) (hA : A.Holds h g)
    (hn : ∀ i j, i < A.rows → j < A.cols → g i j ≠ nan) (hi : init ≠ nan ∧ lt init 0 = false)
    (hinf : ∃ i j b, i < A.rows ∧ j < A.cols ∧ g i j = inf b) :
    Ends (matrixInfNormOf A init) h fun r h' => r = inf false ∧ h' = h := by
  obtain ⟨i, j, b, hi', hj, e⟩ := hinf
  have h0 : ¬ (A.rows = 0 ∨ A.cols = 0) := by omega
  by_cases h1 : A.rows = 1 ∧ A.cols = 1
  · unfold matrixInfNormOf
    rw [if_neg h0, if_pos h1]
    refine (scalarNormOf_one hA init h0).mono ?_
    rintro _ _ ⟨rfl, rfl⟩
    obtain ⟨rfl, rfl⟩ : i = 0 ∧ j = 0 := by omega
    exact ⟨add_abs_inf hi (hn 0 0 hi' hj) (Or.inr ⟨b, e⟩), rfl⟩
  · refine (infOf_run hA init h0 h1).mono ?_
    rintro _ _ ⟨rfl, rfl⟩
    refine ⟨?_, rfl⟩
    refine foldUp_reach (· = inf false) ?_ (Or.inr ⟨i, hi', fun r => ?_⟩)
    · rintro k _ hk rfl
      exact stdMax_inf_right (sum_nonneg hi fun j hj => hn k j hk hj).1
    · rw [sum_inf hi (fun j hj => hn i j hi' hj) ⟨j, b, hj, e⟩, stdMax_inf_left]

example : Ends (matrixInfNormOf (mat2 f 3) (0 : FP f))
    (fun a => some (oneInf a)) fun r h' => r = inf false ∧ h' = fun a => some (oneInf a) :=
  C56_matrix_inf_norm_inf _ _ _ _ (matHolds 3 oneInf) (fun _ _ _ _ => oneInf_ne _) nonneg_zero
    ⟨1, 0, true, (show 1 < 2 by decide), (show 0 < 3 by decide), rfl⟩

/-- **C56** `matrix_one_norm(A, init)` is `inf` if an element is infinite, no element is NaN and
`init` is not negative. -/
theorem C56_matrix_one_norm_inf (A : MatV (FP f)) (init : FP f) (h : Heap (FP f))
    (g : Nat → Nat → FP f) (hA : A.Holds h g)
    (hn : ∀ i j, i < A.rows → j < A.cols → g i j ≠ nan) (hi : init ≠ nan ∧ lt init 0 = false)
    (hinf : ∃ i j b, i < A.rows ∧ j < A.cols ∧ g i j = inf b) :
    Ends (matrixOneNormOf A init) h fun r h' => r = inf false ∧ h' = h := by
  obtain ⟨i, j, b, hi', hj, e⟩ := hinf
  have h0 : ¬ (A.rows = 0 ∨ A.cols = 0) := by omega
  by_cases h1 : A.rows = 1 ∧ A.cols = 1
  · unfold matrixOneNormOf
    rw [if_neg h0, if_pos h1]
    refine (scalarNormOf_one hA init h0).mono ?_
    rintro _ _ ⟨rfl, rfl⟩
    obtain ⟨rfl, rfl⟩ : i = 0 ∧ j = 0 := by omega
    exact ⟨add_abs_inf hi (hn 0 0 hi' hj) (Or.inr ⟨b, e⟩), rfl⟩
  · refine (oneOf_run hA init h0 h1).mono ?_
    rintro _ _ ⟨rfl, rfl⟩
    refine ⟨?_, rfl⟩
    refine foldUp_reach (· = inf false) ?_ (Or.inr ⟨j, hj, fun r => ?_⟩)
    · rintro k _ hk rfl
      exact stdMax_inf_right (sum_nonneg (g := fun i => g i k) hi fun i hi => hn i k hi hk).1
    · rw [sum_inf (g := fun i => g i j) hi (fun i hi => hn i j hi hj) ⟨i, b, hi', e⟩,
        stdMax_inf_left]

example : Ends (matrixOneNormOf (mat2 f 3) (0 : FP f))
    (fun a => some (oneInf a)) fun r h' => r = inf false ∧ h' = fun a => some (oneInf a) :=
  C56_matrix_one_norm_inf _ _ _ _ (matHolds 3 oneInf) (fun _ _ _ _ => oneInf_ne _) nonneg_zero
    ⟨1, 0, true, (show 1 < 2 by decide), (show 0 < 3 by decide), rfl⟩

theorem mag_inf (b : Bool) : (MagOps.abs (inf b : FP f) : FP f) = inf false := rfl

theorem ssqStepOf_inf_nan (s : SumOfSquaresOf (FP f)) (hs : s.scalingFactor = inf false)
    (b : Bool) : (ssqStepOf s (MagOps.abs (inf b : FP f))).scaledSumOfSquares = nan := by
  unfold ssqStepOf
  rw [mag_def, hs]
  simp only [FP.abs, ne_def, lt_def, inf_lt, zero_def, FP.ne]
  rw [if_pos trivial, if_neg (by simp)]
  have e : (inf false / inf false : FP f) = nan := rfl
  rw [e, nan_mul, add_nan]

theorem ssqStepOf_inf_scale (s : SumOfSquaresOf (FP f)) (hs : s.scalingFactor = inf false)
    (a : FP f) : (ssqStepOf s a).scalingFactor = inf false := by
  unfold ssqStepOf
  rw [hs]
  simp only [lt_def, inf_lt]
  split
  · rfl
  · exact hs

theorem ssqStepOf_to_inf (s : SumOfSquaresOf (FP f)) (hs : s.scalingFactor ≠ nan) (b : Bool) :
    (ssqStepOf s (MagOps.abs (inf b : FP f))).scalingFactor = inf false := by
  by_cases q : s.scalingFactor = inf false
  · exact ssqStepOf_inf_scale s q _
  · rw [mag_inf]
    unfold ssqStepOf
    rw [if_pos (show FloatOps.ne (inf false : FP f) 0 = true from rfl),
      if_pos (show FloatOps.lt s.scalingFactor (inf false) = true from lt_inf hs q)]

theorem ssqStepOf_scale_ne_nan (s : SumOfSquaresOf (FP f)) (hs : s.scalingFactor ≠ nan)
    (a : FP f) : (ssqStepOf s a).scalingFactor ≠ nan := by
  unfold ssqStepOf
  split
  · split
    · next e =>
      rintro rfl
      rw [lt_def, lt_nan] at e
      exact absurd e (by simp)
    · exact hs
  · exact hs

/-- **C56** (negative) `vector_two_norm(x, init)` of a vector with two infinite elements is NaN. -/
theorem C56_vector_two_norm_two_infinities (x : VecV (FP f)) (init : FP f) (h : Heap (FP f))
    (g : Nat → FP f) (hx : x.Holds h g) (i j : Nat) (b c : Bool) (hij : i < j) (hj : j < x.ext)
    (hi' : g i = inf b) (hj' : g j = inf c) :
    Ends (vectorTwoNormOf x init) h fun r h' => r = nan ∧ h' = h := by
  refine (normOf_run hx init).mono ?_
  rintro _ _ ⟨rfl, rfl⟩
  refine ⟨?_, rfl⟩
  have key := foldUp_inv (n := x.ext) (step := fun s k => ssqStepOf s (MagOps.abs (g k)))
    (s := (⟨0, 1⟩ : SumOfSquaresOf (FP f)))
    (fun k s => s.scalingFactor ≠ nan ∧ (i < k → s.scalingFactor = inf false) ∧
      (j < k → s.scaledSumOfSquares = nan))
    ⟨by rw [zero_def]; simp, fun h => absurd h (by omega), fun h => absurd h (by omega)⟩ (by
      rintro k s hk ⟨h1, h2, h3⟩
      refine ⟨ssqStepOf_scale_ne_nan s h1 _, fun q => ?_, fun q => ?_⟩
      · by_cases e : i = k
        · subst e; rw [hi']; exact ssqStepOf_to_inf s h1 b
        · exact ssqStepOf_inf_scale s (h2 (by omega)) _
      · by_cases e : j = k
        · subst e; rw [hj']; exact ssqStepOf_inf_nan s (h2 hij) c
        · exact ssqStepOf_keeps_nan s _ (h3 (by omega)))
  rw [key.2.2 hj, sqrt_def, sqrt_nan, mul_nan, add_nan]

example : Ends (vectorTwoNormOf (row f 3) (0 : FP f))
    (fun _ => some (inf false)) fun r h' => r = nan ∧ h' = fun _ => some (inf false) :=
  C56_vector_two_norm_two_infinities _ _ _ _ (rowHolds 3 fun _ => inf false) 0 2 false false
    (by decide) (show 2 < 3 by decide) rfl rfl

/-- **C56** (part) `vector_two_norm(x, init)` is `inf` if exactly one element is infinite and the
others are finite.

Missing: several infinite elements, where it is false, see
`C56_vector_two_norm_two_infinities`. -/
theorem C56_vector_two_norm_inf_partial (x : VecV (FP f)) (init : FP f) (h : Heap (FP f))
    (g : Nat → FP f) (hx : x.Holds h g) (i : Nat) (b : Bool) (hi : i < x.ext) (hg : g i = inf b)
    (v : Nat → ℝ) (hv : ∀ k, k < x.ext → k ≠ i → g k = fin (v k))
    (hinit : init ≠ nan ∧ init ≠ inf true) (hN : ∀ j : ℕ, j ≤ x.ext → f.rnd j = j)
    (hbig : (x.ext : ℝ) ≤ f.big) :
    Ends (vectorTwoNormOf x init) h fun r h' => r = inf false ∧ h' = h := by
  refine (normOf_run hx init).mono ?_
  rintro _ _ ⟨rfl, rfl⟩
  refine ⟨?_, rfl⟩
  have z0 : ofReal f 0 = fin 0 := by
    rw [ofReal_nonneg le_rfl (by rw [f.zero]; linarith [f.one_le_big]), f.zero]
  have z1 : ofReal f 1 = fin 1 := by
    rw [ofReal_nonneg zero_le_one (by rw [f.one]; exact f.one_le_big), f.one]
  have key := foldUp_inv (n := x.ext) (step := fun s k => ssqStepOf s (MagOps.abs (g k)))
    (s := (⟨0, 1⟩ : SumOfSquaresOf (FP f)))
    (fun k s => (k ≤ i → ∃ M q, s = ⟨fin M, fin q⟩ ∧ 0 ≤ M ∧ (M = 0 → q = 1) ∧
        (0 < M → 1 ≤ q ∧ q ≤ k)) ∧
      (i < k → s = ⟨inf false, fin 1⟩))
    ⟨fun _ => ⟨0, 1, rfl, le_rfl, fun _ => rfl, fun h => absurd h (lt_irrefl _)⟩,
      fun h => absurd h (by omega)⟩ (by
      rintro k s hk ⟨h1, h2⟩
      refine ⟨fun q => ?_, fun q => ?_⟩
      · obtain ⟨M, q, rfl, h3, h4, h5⟩ := h1 (by omega)
        obtain ⟨q', e, h6, h7⟩ := ssqStepOf_fin hN hbig hk h3 (abs_nonneg (v k)) h4 h5
        rw [hv k hk (by omega)]
        exact ⟨_, q', e, h3.trans (le_max_left _ _), h6, h7⟩
      · by_cases e : i = k
        · subst e
          obtain ⟨M, q, rfl, -⟩ := h1 le_rfl
          rw [hg, mag_inf]
          unfold ssqStepOf
          rw [if_pos (show FloatOps.ne (inf false : FP f) 0 = true from rfl),
            if_pos (show FloatOps.lt (fin M : FP f) (inf false) = true from rfl)]
          have e : (fin M / inf false : FP f) = fin 0 := rfl
          rw [e, mul_fin, mul_zero, z0, mul_fin, mul_zero, z0, one_def, add_fin, add_zero, z1]
        · rw [h2 (by omega), hv k hk (by omega), mag_def]
          unfold ssqStepOf
          simp only [FP.abs, ne_def, lt_def, inf_lt]
          split
          · rw [if_neg (by simp)]
            have e : (fin |v k| / inf false : FP f) = fin 0 := rfl
            rw [e, mul_fin, mul_zero, z0, add_fin, add_zero, z1]
          · rfl)
  rw [key.2 hi, sqrt_def]
  simp only [FP.sqrt]
  rw [if_neg (by norm_num), Real.sqrt_one, z1]
  have e : (inf false * fin 1 : FP f) = inf false := by
    rw [mul_def]
    simp [mul]
  rw [e, add_def]
  obtain ⟨h1, h2⟩ := hinit
  cases init with
  | fin y => rfl
  | inf t => cases t
             · rfl
             · exact absurd rfl h2
  | nan => exact absurd rfl h1

example : Ends (vectorTwoNormOf (row binary64 3) (0 : FP binary64))
    (fun a => some (oneInf a)) fun r h' => r = inf false ∧ h' = fun a => some (oneInf a) :=
  C56_vector_two_norm_inf_partial _ _ _ _ (rowHolds 3 oneInf) 1 true (show 1 < 3 by decide) rfl
    (fun _ => 1) (fun _ _ hk => if_neg hk) ⟨nonneg_zero.1, by rw [zero_def]; simp⟩
    (fun j hj => binary64_int j (le_trans hj (by norm_num [row, Vec.view])))
    (binary64_big _ (by norm_num [row, Vec.view]))

/-! ## Frobenius norm -/

namespace Witness
/-- Elements 1 and 2 ^ -600. -/
noncomputable def tiny : Heap (FP binary64) := fun a =>
  if a = 0 then some (.fin 1) else if a = 1 then some (.fin ((2 : ℝ) ^ (-600 : ℤ))) else none
/-- The 1 × 2 matrix with these elements. -/
def tinyMat : Mat := ⟨1, 2, fun _ j => j⟩
theorem tiny_holds : (tinyMat.view : MatV (FP binary64)).Holds tiny
    fun _ j => .fin (if j = 0 then 1 else (2 : ℝ) ^ (-600 : ℤ)) := by
  intro i j hi hj _
  refine ⟨_, ?_, rfl⟩
  change tiny j = _
  have hj' : j < 2 := hj
  unfold tiny
  by_cases q : j = 0
  · rw [if_pos q, if_pos q]
  · rw [if_neg q, if_neg q, if_pos (by omega)]
end Witness

/-- **C56** (negative) with `double`, `matrix_frob_norm` of the 1 × 2 matrix with the elements
1 and 2 ^ -600 is `inf`: the code divides the larger number by the smaller one. -/
theorem C56_matrix_frob_norm_overflows :
    Ends (matrixFrobNormOf (tinyMat.view : MatV (FP binary64)) (0 : FP binary64)) tiny
      fun r h' => r = inf false ∧ h' = tiny := by
  refine (frobOf_run tiny_holds 0 (by simp [tinyMat, Mat.view]) (by simp [tinyMat, Mat.view])).mono ?_
  rintro _ _ ⟨rfl, rfl⟩
  refine ⟨?_, rfl⟩
  have z0 : ofReal binary64 0 = fin 0 := by
    rw [ofReal_nonneg le_rfl (by rw [binary64.zero]; linarith [binary64.one_le_big]), binary64.zero]
  have z1 : ofReal binary64 1 = fin 1 := by
    rw [ofReal_nonneg zero_le_one (by rw [binary64.one]; exact binary64.one_le_big), binary64.one]
  have hpos := Binary.pow_pos' (-600)
  have hle : (2 : ℝ) ^ (-600 : ℤ) < 1 := zpow_lt_one_of_neg₀ one_lt_two (by norm_num)
  have e1 : frobStepOf (⟨0, 1⟩ : SumOfSquaresOf (FP binary64)) (fin 1) = ⟨fin 1, fin 1⟩ := by
    unfold frobStepOf
    simp only [ne_def, lt_def, zero_def, one_def]
    rw [if_pos (by simp [FP.ne]), if_pos (by simp [lt]), div_fin _ one_ne_zero, zero_div, z0,
      mul_fin, mul_zero, z0, mul_fin, mul_zero, z0, add_fin, add_zero, z1]
  have e2 : frobStepOf (⟨fin 1, fin 1⟩ : SumOfSquaresOf (FP binary64))
      (fin ((2 : ℝ) ^ (-600 : ℤ))) = ⟨fin 1, inf false⟩ := by
    have hd : (1 : ℝ) / (2 : ℝ) ^ (-600 : ℤ) = (2 : ℝ) ^ (600 : ℤ) := by
      rw [zpow_neg, one_div, inv_inv]
    have hm : (2 : ℝ) ^ (600 : ℤ) * (2 : ℝ) ^ (600 : ℤ) = (2 : ℝ) ^ (1200 : ℤ) := by
      rw [← zpow_add₀ two_ne_zero]; norm_num
    have h600 : (2 : ℝ) ^ (600 : ℤ) ≤ (2 : ℝ) ^ (1023 : ℤ) :=
      zpow_le_zpow_right₀ one_le_two (by norm_num)
    have h1200 : (2 : ℝ) ^ (1024 : ℤ) ≤ (2 : ℝ) ^ (1200 : ℤ) :=
      zpow_le_zpow_right₀ one_le_two (by norm_num)
    have o1 : ofReal binary64 ((2 : ℝ) ^ (600 : ℤ)) = fin ((2 : ℝ) ^ (600 : ℤ)) := by
      have e := binary64_pow 600 (by norm_num)
      rw [ofReal_nonneg (Binary.pow_pos' _).le, e]
      rw [e]; exact h600.trans binary64_big_bounds.1
    have o2 : ofReal binary64 ((2 : ℝ) ^ (1200 : ℤ)) = inf false := by
      have e := binary64_pow 1200 (by norm_num)
      unfold ofReal
      rw [e, abs_of_pos (Binary.pow_pos' _),
        if_neg (not_le.2 (lt_of_lt_of_le binary64_big_bounds.2 h1200)),
        decide_eq_false (not_lt.2 (Binary.pow_pos' _).le)]
    unfold frobStepOf
    simp only [ne_def, lt_def, zero_def]
    rw [if_pos (by simp [FP.ne]), if_neg (by simpa [lt] using hle.le),
      div_fin _ hpos.ne', hd, o1, mul_fin, hm, o2]
    rfl
  have e3 : foldUp 1 (fun s _ => foldUp 2 (fun s j => frobStepOf s (MagOps.abs
      (fin (if j = 0 then 1 else (2 : ℝ) ^ (-600 : ℤ)) : FP binary64))) s)
      (⟨0, 1⟩ : SumOfSquaresOf (FP binary64)) = ⟨fin 1, inf false⟩ := by
    simp only [foldUp, mag_def, FP.abs, if_pos, one_ne_zero, if_false, abs_one,
      abs_of_pos hpos, e1, e2]
  refine (congrArg (fun s : SumOfSquaresOf (FP binary64) =>
    0 + s.scalingFactor * FloatOps.sqrt s.scaledSumOfSquares) e3).trans ?_
  simp only [sqrt_def, mul_def, add_def, zero_def]
  simp [FP.sqrt, mul, add]

/-- **C56** (negative) "the Frobenius norm of a matrix of at most two numbers between -1 and 1 is
finite" is false of `matrix_frob_norm`. -/
theorem C56_matrix_frob_norm_false :
    ¬ ∀ (A : MatV (FP binary64)) (h : Heap (FP binary64)) (v : Nat → Nat → ℝ),
      A.Holds h (fun i j => fin (v i j)) → A.rows * A.cols ≤ 2 →
      (∀ i j, i < A.rows → j < A.cols → |v i j| ≤ 1) →
      Ends (matrixFrobNormOf A (0 : FP binary64)) h fun r _ => ∃ s, r = fin s := by
  intro H
  have h1 := H tinyMat.view tiny _ tiny_holds le_rfl (by
    intro i j _ _
    split
    · simp
    · rw [abs_of_pos (Binary.pow_pos' _)]
      exact (zpow_lt_one_of_neg₀ one_lt_two (by norm_num)).le)
  obtain ⟨_, _, _, ⟨s, q⟩, q', _⟩ := h1.and C56_matrix_frob_norm_overflows
  rw [q] at q'
  exact absurd q' (by simp)

end StdBLAS

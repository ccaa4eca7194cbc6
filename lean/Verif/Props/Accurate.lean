import Verif.Lemmas.Accurate
import Verif.Props.EvaluationOrder
import Verif.Props.Blas1Elementwise
import Verif.Props.RankUpdates
import Verif.Props.Givens
import Verif.Props.Overflow
import Verif.Props.RoundingNorms

/-!
# Property C62: accuracy in the floating-point arithmetic that machines have

Elements are numbers of a format `F` with a largest finite number, subnormal numbers, infinities and
NaN.  `F.Errors u η`: results are rounded with relative error `u`, or absolute error `η` where they
are subnormal.  `FP.Accurate u m z inputs r e w` (`Spec/Accurate`) says that

* if `r` is finite then all `inputs` were finite, and `r` differs from the exact `e` by at most
  `((1 + u)^m - 1) * w + (1 + u)^m * z`;
* if all `inputs` are finite and `(1 + u)^m * (w + z)` is at most the largest finite number, then `r`
  is finite.

So a finite result can be trusted: nothing has overflowed, and no infinity or NaN was swallowed, on
the way to it.  In the examples the elements are `double`s.
-/

namespace StdBLAS
open Finset Witness FP

namespace Witness
/-- `double` -/
abbrev D : Type := FP binary64

theorem int_valid (k : ℤ) : (k : D).Valid := ofReal_valid _
theorem vals_valid (v : Vec) (i : Nat) : (vals D v i).Valid := int_valid _
theorem mvals_valid (M : Mat) (i j : Nat) : (mvals D M i j).Valid := int_valid _

/-- A small integer is represented exactly. -/
theorem int_exact (k : ℤ) (h : |k| ≤ 2 ^ 53) : (k : D) = fin (k : ℝ) := by
  have e : binary64.rnd (k : ℝ) = k := Binary.rnd_int (by norm_num) (by norm_num) k h
  have hb : |(k : ℝ)| ≤ binary64.big := by
    refine le_trans ?_ binary64_big_bounds.1
    have : |(k : ℝ)| ≤ (2 : ℝ) ^ (53 : ℤ) := by exact_mod_cast h
    exact this.trans (zpow_le_zpow_right₀ one_le_two (by norm_num))
  exact (ofReal_fin (by rw [e]; exact hb)).trans (by rw [e])

theorem mvals_A_finite (i j : Nat) (hi : i < 3) (hj : j < 3) : (mvals D A i j).Finite := by
  change (((A.addr i j : ℤ) - 7 : ℤ) : D).Finite
  rw [int_exact _ (by simp only [A]; rw [abs_le]; constructor <;> omega)]
  trivial

theorem mvals_A_le (i j : Nat) (hi : i < 3) (hj : j < 3) : |(mvals D A i j).val| ≤ 200 := by
  change |((((A.addr i j : ℤ) - 7 : ℤ) : D)).val| ≤ 200
  have hb : |(A.addr i j : ℤ) - 7| ≤ 200 := by
    simp only [A]; rw [abs_le]; constructor <;> omega
  rw [int_exact _ (hb.trans (by norm_num))]
  have : |(((A.addr i j : ℤ) - 7 : ℤ) : ℝ)| ≤ 200 := by exact_mod_cast hb
  exact this

theorem small_fits (n : ℕ) (N : ℝ) (hN : N ≤ 1000) (hn : n ≤ 3) :
    (1 + (2 : ℝ) ^ (-53 : ℤ)) ^ n * N ≤ binary64.big := by
  refine le_trans ?_ binary64_big_bounds.1
  have h1 : (2 : ℝ) ^ (-53 : ℤ) ≤ 1 := zpow_le_one_of_nonpos₀ one_le_two (by norm_num)
  have h2 : (0 : ℝ) ≤ (2 : ℝ) ^ (-53 : ℤ) := zpow_nonneg zero_le_two _
  have h3 : (1 + (2 : ℝ) ^ (-53 : ℤ)) ^ n ≤ 8 :=
    (pow_le_pow_right₀ (by linarith) hn).trans
      ((pow_le_pow_left₀ (by linarith) (show 1 + (2 : ℝ) ^ (-53 : ℤ) ≤ 2 by linarith) 3).trans
        (by norm_num))
  have h4 : (0 : ℝ) ≤ (1 + (2 : ℝ) ^ (-53 : ℤ)) ^ n := pow_nonneg (by linarith) n
  calc _ ≤ (1 + (2 : ℝ) ^ (-53 : ℤ)) ^ n * 1000 := mul_le_mul_of_nonneg_left hN h4
    _ ≤ 8 * 1000 := mul_le_mul_of_nonneg_right h3 (by norm_num)
    _ ≤ (2 : ℝ) ^ (13 : ℤ) := by norm_num
    _ ≤ _ := zpow_le_zpow_right₀ one_le_two (by norm_num)
end Witness

/-! ## Vectors -/

/-- **C62** `dot(v1, v2, init)` -/
theorem C62_dot {F : Format} {u η : ℝ} (H : F.Errors u η) (v1 v2 : VecV (FP F)) (init : FP F)
    (h : Heap (FP F)) (f g : Nat → FP F) (h1 : v1.Holds h f) (h2 : v2.Holds h g)
    (hext : v1.ext ≤ v2.ext) (hv : init.Valid) :
    Ends (dot v1 v2 init) h fun r h' => h' = h ∧
      FP.Accurate u (v1.ext + 1) (v1.ext * η)
        (init.Finite ∧ ∀ k, k < v1.ext → (f k).Finite ∧ (g k).Finite)
        r
        (init.val + ∑ k ∈ range v1.ext, (f k).val * (g k).val)
        (|init.val| + ∑ k ∈ range v1.ext, |(f k).val| * |(g k).val|) := by
  refine (C54_dot v1 v2 init h f g h1 h2 hext).mono fun r h' hb => ⟨hb.2, ?_⟩
  rw [hb.1]
  exact (acc_products H v1.ext f g hv).toAccurate

/-- The dot product of these three-element vectors is finite, and off by at most
`((1 + 2^-53)^4 - 1) * 91 + (1 + 2^-53)^4 * 3 * 2^-1075`. -/
example : Ends (dot (x.view : VecV D) y.view ((5 : ℤ) : D)) (heap D) fun r _ => r.Finite ∧
    |r.val - (-81)| ≤ ((1 + (2 : ℝ) ^ (-53 : ℤ)) ^ 4 - 1) * 91 +
      (1 + (2 : ℝ) ^ (-53 : ℤ)) ^ 4 * (3 * (2 : ℝ) ^ (-1075 : ℤ)) := by
  refine (C62_dot binary64_errors _ _ _ _ _ _ (holdsV bx) (holdsV by_) le_rfl (int_valid 5)).mono
    fun r _ hb => ?_
  have e : ∀ k : ℤ, |k| ≤ 2 ^ 53 → (k : D).Finite ∧ (k : D).val = k := fun k hk => by
    rw [int_exact k hk]; exact ⟨trivial, rfl⟩
  have hx : ∀ k, k < 3 → (vals D x k).Finite ∧ (vals D x k).val = (k : ℝ) - 7 := fun k hk => by
    have := e ((k : ℤ) - 7) (by rw [abs_le]; constructor <;> omega)
    exact ⟨this.1, this.2.trans (by push_cast; ring)⟩
  have hy : ∀ k, k < 3 → (vals D y k).Finite ∧ (vals D y k).val = (10 + 2 * k : ℝ) - 7 := fun k hk => by
    have := e (((10 + 2 * k : ℕ) : ℤ) - 7) (by rw [abs_le]; constructor <;> push_cast <;> omega)
    exact ⟨this.1, this.2.trans (by push_cast; ring)⟩
  have h5 := e 5 (by norm_num)
  have acc := hb.2
  have hs : ∑ k ∈ range 3, (vals D x k).val * (vals D y k).val = -86 := by
    rw [sum_range_succ, sum_range_succ, sum_range_succ, sum_range_zero, (hx 0 (by norm_num)).2,
      (hx 1 (by norm_num)).2, (hx 2 (by norm_num)).2, (hy 0 (by norm_num)).2,
      (hy 1 (by norm_num)).2, (hy 2 (by norm_num)).2]
    norm_num
  have hw : ∑ k ∈ range 3, |(vals D x k).val| * |(vals D y k).val| = 86 := by
    rw [sum_range_succ, sum_range_succ, sum_range_succ, sum_range_zero, (hx 0 (by norm_num)).2,
      (hx 1 (by norm_num)).2, (hx 2 (by norm_num)).2, (hy 0 (by norm_num)).2,
      (hy 1 (by norm_num)).2, (hy 2 (by norm_num)).2]
    norm_num [abs_of_neg, abs_of_pos]
  have hf : r.Finite := by
    refine acc.finite ⟨h5.1, fun k hk => ⟨(hx k hk).1, (hy k hk).1⟩⟩ (le_trans ?_ binary64_big_bounds.1)
    change (1 + (2 : ℝ) ^ (-53 : ℤ)) ^ 4 * (|((5 : ℤ) : D).val| +
      ∑ k ∈ range 3, |(vals D x k).val| * |(vals D y k).val| + ((3 : ℕ) : ℝ) * (2 : ℝ) ^ (-1075 : ℤ)) ≤ _
    rw [hw, h5.2]
    have h1 : (2 : ℝ) ^ (-1075 : ℤ) ≤ 1 := zpow_le_one_of_nonpos₀ one_le_two (by norm_num)
    have h2 : (1 + (2 : ℝ) ^ (-53 : ℤ)) ^ 4 ≤ 2 ^ 4 :=
      pow_le_pow_left₀ (add_nonneg zero_le_one (zpow_nonneg zero_le_two _)) (by
        linarith [zpow_le_one_of_nonpos₀ (one_le_two : (1 : ℝ) ≤ 2) (show (-53 : ℤ) ≤ 0 by norm_num)]) 4
    have h3 : (0 : ℝ) ≤ (2 : ℝ) ^ (-1075 : ℤ) := zpow_nonneg zero_le_two _
    calc _ ≤ (2 : ℝ) ^ 4 * (5 + 86 + 3) := by
          refine mul_le_mul h2 ?_ ?_ (by norm_num)
          · rw [show |((5 : ℤ) : ℝ)| = 5 by norm_num]
            push_cast
            linarith
          · push_cast
            exact add_nonneg (by positivity) (mul_nonneg (by norm_num) h3)
      _ ≤ (2 : ℝ) ^ (11 : ℤ) := by norm_num
      _ ≤ _ := zpow_le_zpow_right₀ one_le_two (by norm_num)
  refine ⟨hf, ?_⟩
  have := (acc.error hf).2
  change |r.val - (((5 : ℤ) : D).val + ∑ k ∈ range 3, (vals D x k).val * (vals D y k).val)| ≤
    ((1 + (2 : ℝ) ^ (-53 : ℤ)) ^ 4 - 1) * (|((5 : ℤ) : D).val| +
      ∑ k ∈ range 3, |(vals D x k).val| * |(vals D y k).val|) +
    (1 + (2 : ℝ) ^ (-53 : ℤ)) ^ 4 * (((3 : ℕ) : ℝ) * (2 : ℝ) ^ (-1075 : ℤ)) at this
  rw [hw, hs, h5.2] at this
  norm_num at this ⊢
  exact this

/-- **C62** `dotc(v1, v2, init)`: for real elements `conj` does nothing -/
theorem C62_dotc {F : Format} {u η : ℝ} (H : F.Errors u η) (v1 v2 : VecV (FP F)) (init : FP F)
    (h : Heap (FP F)) (f g : Nat → FP F) (h1 : v1.Holds h f) (h2 : v2.Holds h g)
    (hext : v1.ext ≤ v2.ext) (hv : init.Valid) :
    Ends (dotc v1 v2 init) h fun r h' => h' = h ∧
      FP.Accurate u (v1.ext + 1) (v1.ext * η)
        (init.Finite ∧ ∀ k, k < v1.ext → (f k).Finite ∧ (g k).Finite)
        r
        (init.val + ∑ k ∈ range v1.ext, (f k).val * (g k).val)
        (|init.val| + ∑ k ∈ range v1.ext, |(f k).val| * |(g k).val|) := by
  refine (C54_dotc v1 v2 init h f g h1 h2 hext).mono fun r h' hb => ⟨hb.2, ?_⟩
  rw [hb.1]
  exact (acc_products H v1.ext f g hv).toAccurate

example := C62_dotc binary64_errors (x.view : VecV D) y.view ((5 : ℤ) : D) (heap D) _ _ (holdsV bx)
  (holdsV by_) le_rfl (int_valid 5)

/-- **C62** `scale(alpha, x)`: one rounding -/
theorem C62_scale_vector {F : Format} {u η : ℝ} (H : F.Errors u η) (alpha : FP F) (x : Vec)
    (h : Heap (FP F)) (f : Nat → FP F) (hx : x.Holds h f) (hu : x.Unique) :
    Ends (scale1 alpha x) h fun _ h' => ∃ r, x.Becomes h h' r ∧ ∀ i, i < x.ext →
      FP.Accurate u 1 η
        ((f i).Finite ∧ alpha.Finite)
        (r i)
        ((f i).val * alpha.val)
        (|(f i).val| * |alpha.val|) := by
  refine (C11_scale_vector alpha x h f hx hu).mono fun _ h' hb => ⟨_, hb, fun i hi => ?_⟩
  exact (acc_mul H _ _).toAccurate

example := C62_scale_vector binary64_errors ((5 : ℤ) : D) y (heap D) _ (holds by_) (by view_facts)

/-- **C62** `scale(alpha, A)` -/
theorem C62_scale_matrix {F : Format} {u η : ℝ} (H : F.Errors u η) (alpha : FP F) (A : Mat)
    (h : Heap (FP F)) (f : Nat → Nat → FP F) (hA : A.Holds h f) (hu : A.Unique) :
    Ends (scale2 alpha A) h fun _ h' => ∃ r, A.Becomes h h' r ∧
      ∀ i j, i < A.rows → j < A.cols →
      FP.Accurate u 1 η
        ((f i j).Finite ∧ alpha.Finite)
        (r i j)
        ((f i j).val * alpha.val)
        (|(f i j).val| * |alpha.val|) := by
  refine (C11_scale_matrix alpha A h f hA hu).mono fun _ h' hb => ⟨_, hb, fun i j hi hj => ?_⟩
  exact (acc_mul H _ _).toAccurate

example := C62_scale_matrix binary64_errors ((5 : ℤ) : D) A (heap D) _ (mholds bA) (by view_facts)

/-- **C62** `add(x, y, z)`: one rounding, and no underflow -/
theorem C62_add_vector {F : Format} {u η : ℝ} (H : F.Errors u η) (x y : VecV (FP F)) (z : Vec)
    (h : Heap (FP F)) (f g : Nat → FP F) (hx : x.Holds h f) (hy : y.Holds h g) (hz : z.Alloc h)
    (hex : z.ext ≤ x.ext) (hey : z.ext ≤ y.ext) (hu : z.Unique) (hax : x.toVec.Aligned z)
    (hay : y.toVec.Aligned z) (vf : ∀ i, i < z.ext → (f i).Valid)
    (vg : ∀ i, i < z.ext → (g i).Valid) :
    Ends (add1 x y z) h fun _ h' => ∃ r, z.Becomes h h' r ∧ ∀ i, i < z.ext →
      FP.Accurate u 1 0
        ((f i).Finite ∧ (g i).Finite)
        (r i)
        ((f i).val + (g i).val)
        (|(f i).val| + |(g i).val|) := by
  refine (C12_add_vector x y z h f g hx hy hz hex hey hu hax hay).mono fun _ h' hb => ⟨_, hb, fun i hi => ?_⟩
  refine (((acc_input H.u_nonneg 0 (vf i hi)).add H (acc_input H.u_nonneg 0 (vg i hi))).congr Iff.rfl
    rfl rfl ?_).toAccurate
  rw [add_zero]

example := C62_add_vector binary64_errors (x.view : VecV D) y.view z (heap D) _ _ (holdsV bx) (holdsV by_)
  (alloc bz) le_rfl le_rfl (by view_facts) (by view_facts) (by view_facts)
  (fun i _ => vals_valid x i) fun i _ => vals_valid y i

/-- **C62** `add(x, y, z)` for matrices -/
theorem C62_add_matrix {F : Format} {u η : ℝ} (H : F.Errors u η) (x y : MatV (FP F)) (z : Mat)
    (h : Heap (FP F)) (f g : Nat → Nat → FP F) (hx : x.Holds h f) (hy : y.Holds h g)
    (hz : z.Alloc h) (hr : x.rows = z.rows) (hc : x.cols = z.cols) (hr' : z.rows ≤ y.rows)
    (hc' : z.cols ≤ y.cols) (hu : z.Unique) (hax : x.toMat.Aligned z) (hay : y.toMat.Aligned z)
    (vf : ∀ i j, i < z.rows → j < z.cols → (f i j).Valid)
    (vg : ∀ i j, i < z.rows → j < z.cols → (g i j).Valid) :
    Ends (add2 x y z) h fun _ h' => ∃ r, z.Becomes h h' r ∧
      ∀ i j, i < z.rows → j < z.cols →
      FP.Accurate u 1 0
        ((f i j).Finite ∧ (g i j).Finite)
        (r i j)
        ((f i j).val + (g i j).val)
        (|(f i j).val| + |(g i j).val|) := by
  refine (C12_add_matrix x y z h f g hx hy hz hr hc hr' hc' hu hax hay).mono fun _ h' hb => ⟨_, hb, fun i j hi hj => ?_⟩
  refine (((acc_input H.u_nonneg 0 (vf i j hi hj)).add H (acc_input H.u_nonneg 0 (vg i j hi hj))).congr Iff.rfl
    rfl rfl ?_).toAccurate
  rw [add_zero]

example := C62_add_matrix binary64_errors (A.view : MatV D) B.view C (heap D) _ _ (mholdsV bA) (mholdsV bB)
  (malloc bC) rfl rfl le_rfl le_rfl (by view_facts) (by view_facts) (by view_facts)
  (fun i j _ _ => mvals_valid A i j) fun i j _ _ => mvals_valid B i j

/-- **C62** `apply_givens_rotation(x, y, c, s)`: two roundings in each element -/
theorem C62_apply_givens {F : Format} {u η : ℝ} (H : F.Errors u η) (x y : Vec) (h : Heap (FP F))
    (f g : Nat → FP F) (c s : FP F) (hx : x.Holds h f) (hy : y.Holds h g) (hext : x.ext = y.ext)
    (hux : x.Unique) (huy : y.Unique) (hap : Apart x.Cell y.Cell) :
    Ends (applyGivens x y c s) h fun _ h' => ∃ r r', x.Holds h' r ∧ y.Holds h' r' ∧
      OnlyChanges (fun a => x.Cell a ∨ y.Cell a) h h' ∧ ∀ i, i < x.ext →
      FP.Accurate u 2 (2 * η) ((c.Finite ∧ (f i).Finite) ∧ s.Finite ∧ (g i).Finite) (r i)
        (c.val * (f i).val + s.val * (g i).val) (|c.val| * |(f i).val| + |s.val| * |(g i).val|) ∧
      FP.Accurate u 2 (2 * η) ((c.Finite ∧ (g i).Finite) ∧ s.Finite ∧ (f i).Finite) (r' i)
        (c.val * (g i).val - s.val * (f i).val) (|c.val| * |(g i).val| + |s.val| * |(f i).val|) := by
  refine (C15_apply_givens x y h f g c s hx hy hext hux huy hap).mono fun _ h' hb =>
    ⟨_, _, hb.1, hb.2.1, hb.2.2, fun i _ => ⟨?_, ?_⟩⟩
  · exact (((acc_mul H _ _).add H (acc_mul H _ _)).congr Iff.rfl rfl rfl (two_mul η)).toAccurate
  · exact (((acc_mul H _ _).sub H (acc_mul H _ _)).congr Iff.rfl rfl rfl (two_mul η)).toAccurate

example := C62_apply_givens binary64_errors x y (heap D) _ _ ((3 : ℤ) : D) ((-2 : ℤ) : D) (holds bx)
  (holds by_) rfl (by view_facts) (by view_facts) (by view_facts)

/-! ## Matrix times vector -/

/-- **C62** `matrix_vector_product(A, x, y)` -/
theorem C62_gemv {F : Format} {u η : ℝ} (H : F.Errors u η) (A : MatV (FP F)) (x : VecV (FP F))
    (y : Vec) (h : Heap (FP F)) (a : Nat → Nat → FP F) (f : Nat → FP F) (hA : A.Holds h a)
    (hx : x.Holds h f) (hy : y.Alloc h) (hrows : y.ext = A.rows) (hcols : A.cols ≤ x.ext)
    (hu : y.Unique) (hAy : Apart A.toMat.Cell y.Cell) (hxy : Apart x.toVec.Cell y.Cell) :
    Ends (gemv A x y) h fun _ h' => ∃ r, y.Becomes h h' r ∧ ∀ i, i < y.ext →
      FP.Accurate u (A.cols + 1) (A.cols * η)
        (∀ k, k < A.cols → (a i k).Finite ∧ (f k).Finite)
        (r i)
        (∑ k ∈ range A.cols, (a i k).val * (f k).val)
        (∑ k ∈ range A.cols, |(a i k).val| * |(f k).val|) := by
  refine (C54_gemv A x y h a f hA hx hy hrows hcols hu hAy hxy).mono fun _ h' hb => ⟨_, hb, fun i hi => ?_⟩
  exact (acc_products_zero H A.cols (a i) f).toAccurate

example := C62_gemv binary64_errors (A.view : MatV D) x.view y (heap D) _ _ (mholdsV bA) (holdsV bx) (alloc by_)
  rfl le_rfl (by view_facts) (by view_facts) (by view_facts)

/-- **C62** `matrix_vector_product(A, x, y, z)` -/
theorem C62_gemv_update {F : Format} {u η : ℝ} (H : F.Errors u η) (A : MatV (FP F))
    (x y : VecV (FP F)) (z : Vec) (h : Heap (FP F)) (a : Nat → Nat → FP F) (f g : Nat → FP F)
    (hA : A.Holds h a) (hx : x.Holds h f) (hy : y.Holds h g) (hz : z.Alloc h)
    (hrows : z.ext = A.rows) (hcols : A.cols ≤ x.ext) (hye : A.rows ≤ y.ext) (hu : z.Unique)
    (hAz : Apart A.toMat.Cell z.Cell) (hxz : Apart x.toVec.Cell z.Cell) (hyz : y.toVec.Aligned z)
    (vg : ∀ i, i < z.ext → (g i).Valid) :
    Ends (gemvUpdate A x y z) h fun _ h' => ∃ r, z.Becomes h h' r ∧ ∀ i, i < z.ext →
      FP.Accurate u (A.cols + 1) (A.cols * η)
        ((g i).Finite ∧ ∀ k, k < A.cols → (a i k).Finite ∧ (f k).Finite)
        (r i)
        ((g i).val + ∑ k ∈ range A.cols, (a i k).val * (f k).val)
        (|(g i).val| + ∑ k ∈ range A.cols, |(a i k).val| * |(f k).val|) := by
  refine (C54_gemv_update A x y z h a f g hA hx hy hz hrows hcols hye hu hAz hxz hyz).mono fun _ h' hb => ⟨_, hb, fun i hi => ?_⟩
  exact (acc_products H A.cols (a i) f (vg i hi)).toAccurate

example := C62_gemv_update binary64_errors (A.view : MatV D) x.view y.view y (heap D) _ _ _ (mholdsV bA) (holdsV bx)
  (holdsV by_) (alloc by_) rfl le_rfl le_rfl (by view_facts) (by view_facts) (by view_facts)
  (by view_facts) fun i _ => vals_valid y i

/-- **C62** `symmetric_matrix_vector_product(A, t, x, y)` -/
theorem C62_symv {F : Format} {u η : ℝ} (H : F.Errors u η) (A : MatV (FP F)) (t : Triangle)
    (x : VecV (FP F)) (y : Vec) (h : Heap (FP F)) (a : Nat → Nat → FP F) (f : Nat → FP F)
    (hA : A.HoldsOn h t.region a) (hx : x.Holds h f) (hy : y.Alloc h) (hsq : A.rows = A.cols)
    (hext : A.rows = y.ext) (hxe : A.cols ≤ x.ext) (hu : y.Unique)
    (hAy : Apart (A.toMat.CellOn t.region) y.Cell) (hxy : Apart x.toVec.Cell y.Cell) :
    Ends (symv A t x y) h fun _ h' => ∃ r, y.Becomes h h' r ∧ ∀ i, i < y.ext →
      FP.Accurate u (A.cols + 1) (A.cols * η)
        (∀ k, k < A.cols → (symOf t a i k).Finite ∧ (f k).Finite)
        (r i)
        (∑ k ∈ range A.cols, (symOf t a i k).val * (f k).val)
        (∑ k ∈ range A.cols, |(symOf t a i k).val| * |(f k).val|) := by
  refine (C54_symv A t x y h a f hA hx hy hsq hext hxe hu hAy hxy).mono fun _ h' hb => ⟨_, hb, fun i hi => ?_⟩
  exact (acc_products_zero H A.cols (symOf t a i) f).toAccurate

example (t : Triangle) := C62_symv binary64_errors (A.view : MatV D) t x.view y (heap D) _ _ (mholdsV bA) (holdsV bx)
  (alloc by_) rfl rfl le_rfl (by view_facts) (by view_facts) (by view_facts)

/-- **C62** `symmetric_matrix_vector_product(A, t, x, y, z)` -/
theorem C62_symv_update {F : Format} {u η : ℝ} (H : F.Errors u η) (A : MatV (FP F)) (t : Triangle)
    (x y : VecV (FP F)) (z : Vec) (h : Heap (FP F)) (a : Nat → Nat → FP F) (f g : Nat → FP F)
    (hA : A.HoldsOn h t.region a) (hx : x.Holds h f) (hy : y.Holds h g) (hz : z.Alloc h)
    (hsq : A.rows = A.cols) (hext : A.rows = z.ext) (hxe : A.cols ≤ x.ext) (hye : A.rows ≤ y.ext)
    (hu : z.Unique) (hAz : Apart (A.toMat.CellOn t.region) z.Cell)
    (hxz : Apart x.toVec.Cell z.Cell) (hyz : y.toVec.Aligned z)
    (vg : ∀ i, i < z.ext → (g i).Valid) :
    Ends (symvUpdate A t x y z) h fun _ h' => ∃ r, z.Becomes h h' r ∧ ∀ i, i < z.ext →
      FP.Accurate u (A.cols + 1) (A.cols * η)
        ((g i).Finite ∧ ∀ k, k < A.cols → (symOf t a i k).Finite ∧ (f k).Finite)
        (r i)
        ((g i).val + ∑ k ∈ range A.cols, (symOf t a i k).val * (f k).val)
        (|(g i).val| + ∑ k ∈ range A.cols, |(symOf t a i k).val| * |(f k).val|) := by
  refine (C54_symv_update A t x y z h a f g hA hx hy hz hsq hext hxe hye hu hAz hxz hyz).mono fun _ h' hb => ⟨_, hb, fun i hi => ?_⟩
  exact (acc_products H A.cols (symOf t a i) f (vg i hi)).toAccurate

example (t : Triangle) := C62_symv_update binary64_errors (A.view : MatV D) t x.view y.view y (heap D) _ _ _
  (mholdsV bA) (holdsV bx) (holdsV by_) (alloc by_) rfl rfl le_rfl le_rfl (by view_facts)
  (by view_facts) (by view_facts) (by view_facts) fun i _ => vals_valid y i

/-- **C62** `hermitian_matrix_vector_product(A, t, x, y)` -/
theorem C62_hemv {F : Format} {u η : ℝ} (H : F.Errors u η) (A : MatV (FP F)) (t : Triangle)
    (x : VecV (FP F)) (y : Vec) (h : Heap (FP F)) (a : Nat → Nat → FP F) (f : Nat → FP F)
    (hA : A.HoldsOn h t.region a) (hx : x.Holds h f) (hy : y.Alloc h) (hsq : A.rows = A.cols)
    (hext : A.rows = y.ext) (hxe : A.cols ≤ x.ext) (hu : y.Unique)
    (hAy : Apart (A.toMat.CellOn t.region) y.Cell) (hxy : Apart x.toVec.Cell y.Cell) :
    Ends (hemv A t x y) h fun _ h' => ∃ r, y.Becomes h h' r ∧ ∀ i, i < y.ext →
      FP.Accurate u (A.cols + 1) (A.cols * η)
        (∀ k, k < A.cols → (hermOf t a i k).Finite ∧ (f k).Finite)
        (r i)
        (∑ k ∈ range A.cols, (hermOf t a i k).val * (f k).val)
        (∑ k ∈ range A.cols, |(hermOf t a i k).val| * |(f k).val|) := by
  refine (C54_hemv A t x y h a f hA hx hy hsq hext hxe hu hAy hxy).mono fun _ h' hb => ⟨_, hb, fun i hi => ?_⟩
  exact (acc_products_zero H A.cols (hermOf t a i) f).toAccurate

example (t : Triangle) := C62_hemv binary64_errors (A.view : MatV D) t x.view y (heap D) _ _ (mholdsV bA) (holdsV bx)
  (alloc by_) rfl rfl le_rfl (by view_facts) (by view_facts) (by view_facts)

/-- **C62** `hermitian_matrix_vector_product(A, t, x, y, z)` -/
theorem C62_hemv_update {F : Format} {u η : ℝ} (H : F.Errors u η) (A : MatV (FP F)) (t : Triangle)
    (x y : VecV (FP F)) (z : Vec) (h : Heap (FP F)) (a : Nat → Nat → FP F) (f g : Nat → FP F)
    (hA : A.HoldsOn h t.region a) (hx : x.Holds h f) (hy : y.Holds h g) (hz : z.Alloc h)
    (hsq : A.rows = A.cols) (hext : A.rows = z.ext) (hxe : A.cols ≤ x.ext) (hye : A.rows ≤ y.ext)
    (hu : z.Unique) (hAz : Apart (A.toMat.CellOn t.region) z.Cell)
    (hxz : Apart x.toVec.Cell z.Cell) (hyz : y.toVec.Aligned z)
    (vg : ∀ i, i < z.ext → (g i).Valid) :
    Ends (hemvUpdate A t x y z) h fun _ h' => ∃ r, z.Becomes h h' r ∧ ∀ i, i < z.ext →
      FP.Accurate u (A.cols + 1) (A.cols * η)
        ((g i).Finite ∧ ∀ k, k < A.cols → (hermOf t a i k).Finite ∧ (f k).Finite)
        (r i)
        ((g i).val + ∑ k ∈ range A.cols, (hermOf t a i k).val * (f k).val)
        (|(g i).val| + ∑ k ∈ range A.cols, |(hermOf t a i k).val| * |(f k).val|) := by
  refine (C54_hemv_update A t x y z h a f g hA hx hy hz hsq hext hxe hye hu hAz hxz hyz).mono fun _ h' hb => ⟨_, hb, fun i hi => ?_⟩
  exact (acc_products H A.cols (hermOf t a i) f (vg i hi)).toAccurate

example (t : Triangle) := C62_hemv_update binary64_errors (A.view : MatV D) t x.view y.view y (heap D) _ _ _
  (mholdsV bA) (holdsV bx) (holdsV by_) (alloc by_) rfl rfl le_rfl le_rfl (by view_facts)
  (by view_facts) (by view_facts) (by view_facts) fun i _ => vals_valid y i

/-- **C62** `triangular_matrix_vector_product(A, t, d, x, y)`: the elements that are read must be finite -/
theorem C62_trmv {F : Format} {u η : ℝ} (H : F.Errors u η) (A : MatV (FP F)) (t : Triangle) (d : Diag)
    (x : VecV (FP F)) (y : Vec) (h : Heap (FP F)) (a : Nat → Nat → FP F) (f : Nat → FP F)
    (hA : A.HoldsOn h (triRegion t d) a) (hx : x.Holds h f) (hy : y.Alloc h)
    (hsq : A.rows = A.cols) (hext : A.rows = y.ext) (hxe : A.cols ≤ x.ext) (hu : y.Unique)
    (hAy : Apart (A.toMat.CellOn (triRegion t d)) y.Cell) (hxy : Apart x.toVec.Cell y.Cell)
    (vf : ∀ k, k < A.cols → (f k).Valid) :
    Ends (trmv A t d x y) h fun _ h' => ∃ r, y.Becomes h h' r ∧ ∀ i, i < y.ext →
      FP.Accurate u (A.cols + 1) (A.cols * η)
        (∀ k, k < A.cols → t.region i k → (f k).Finite ∧ (triRegion t d i k → (a i k).Finite))
        (r i)
        (∑ k ∈ range A.cols, triOf t d (fun i j => (a i j).val) i k * (f k).val)
        (∑ k ∈ range A.cols, |triOf t d (fun i j => (a i j).val) i k| * |(f k).val|) := by
  refine (C54_trmv A t d x y h a f hA hx hy hsq hext hxe hu hAy hxy).mono fun _ h' hb => ⟨_, hb, fun i hi => ?_⟩
  exact ((acc_triSeq H t d a f vf zero_valid (by omega)).from_zero).toAccurate

example (t : Triangle) (d : Diag) := C62_trmv binary64_errors (A.view : MatV D) t d x.view y (heap D) _ _ (mholdsV bA)
  (holdsV bx) (alloc by_) rfl rfl le_rfl (by view_facts) (by view_facts) (by view_facts)
  fun i _ => vals_valid x i

/-- **C62** `triangular_matrix_vector_product(A, t, d, x, y, z)` -/
theorem C62_trmv_update {F : Format} {u η : ℝ} (H : F.Errors u η) (A : MatV (FP F)) (t : Triangle)
    (d : Diag) (x y : VecV (FP F)) (z : Vec) (h : Heap (FP F)) (a : Nat → Nat → FP F)
    (f g : Nat → FP F) (hA : A.HoldsOn h (triRegion t d) a) (hx : x.Holds h f) (hy : y.Holds h g)
    (hz : z.Alloc h) (hsq : A.rows = A.cols) (hext : A.rows = z.ext) (hxe : A.cols ≤ x.ext)
    (hye : A.rows ≤ y.ext) (hu : z.Unique) (hAz : Apart (A.toMat.CellOn (triRegion t d)) z.Cell)
    (hxz : Apart x.toVec.Cell z.Cell) (hyz : y.toVec.Aligned z)
    (vf : ∀ k, k < A.cols → (f k).Valid) (vg : ∀ i, i < z.ext → (g i).Valid) :
    Ends (trmvUpdate A t d x y z) h fun _ h' => ∃ r, z.Becomes h h' r ∧ ∀ i, i < z.ext →
      FP.Accurate u (A.cols + 1) (A.cols * η)
        ((g i).Finite ∧ ∀ k, k < A.cols → t.region i k → (f k).Finite ∧ (triRegion t d i k → (a i k).Finite))
        (r i)
        ((g i).val + ∑ k ∈ range A.cols, triOf t d (fun i j => (a i j).val) i k * (f k).val)
        (|(g i).val| + ∑ k ∈ range A.cols, |triOf t d (fun i j => (a i j).val) i k| * |(f k).val|) := by
  refine (C54_trmv_update A t d x y z h a f g hA hx hy hz hsq hext hxe hye hu hAz hxz hyz).mono fun _ h' hb => ⟨_, hb, fun i hi => ?_⟩
  exact (acc_triSeq H t d a f vf (vg i hi) (by omega)).toAccurate

example (t : Triangle) (d : Diag) := C62_trmv_update binary64_errors (A.view : MatV D) t d x.view y.view y (heap D)
  _ _ _ (mholdsV bA) (holdsV bx) (holdsV by_) (alloc by_) rfl rfl le_rfl le_rfl (by view_facts)
  (by view_facts) (by view_facts) (by view_facts) (fun i _ => vals_valid x i)
  fun i _ => vals_valid y i

/-- **C62** `triangular_matrix_vector_product(A, t, d, y)`, in place -/
theorem C62_trmv_in_place {F : Format} {u η : ℝ} (H : F.Errors u η) (A : MatV (FP F)) (t : Triangle)
    (d : Diag) (y : Vec) (h : Heap (FP F)) (a : Nat → Nat → FP F) (f : Nat → FP F)
    (hA : A.HoldsOn h (triRegion t d) a) (hy : y.Holds h f) (hsq : A.rows = A.cols)
    (hext : A.rows = y.ext) (hu : y.Unique) (hAy : Apart (A.toMat.CellOn (triRegion t d)) y.Cell)
    (vf : ∀ k, k < A.cols → (f k).Valid) :
    Ends (trmvInPlace A t d y) h fun _ h' => ∃ r, y.Becomes h h' r ∧ ∀ i, i < y.ext →
      FP.Accurate u A.cols (A.cols * η)
        (∀ k, k < A.cols → t.region i k → (f k).Finite ∧ (triRegion t d i k → (a i k).Finite))
        (r i)
        (∑ k ∈ range A.cols, triOf t d (fun i j => (a i j).val) i k * (f k).val)
        (∑ k ∈ range A.cols, |triOf t d (fun i j => (a i j).val) i k| * |(f k).val|) := by
  refine (C54_trmv_in_place A t d y h a f hA hy hsq hext hu hAy).mono fun _ h' hb => ⟨_, hb, fun i hi => ?_⟩
  refine (acc_triSeqInPlace H t d a f vf (by omega) ?_).toAccurate
  rw [mul_comm' (f i)]

example (t : Triangle) (d : Diag) := C62_trmv_in_place binary64_errors (A.view : MatV D) t d y (heap D) _ _ (mholdsV bA)
  (holds by_) rfl rfl (by view_facts) (by view_facts) fun i _ => vals_valid y i

/-! ## Matrix times matrix -/

/-- **C62** `matrix_product(A, B, C)` -/
theorem C62_gemm {F : Format} {u η : ℝ} (H : F.Errors u η) (A B : MatV (FP F)) (C : Mat)
    (h : Heap (FP F)) (a b : Nat → Nat → FP F) (hA : A.Holds h a) (hB : B.Holds h b)
    (hC : C.Alloc h) (hr : C.rows = A.rows) (hk : A.cols = B.rows) (hc : C.cols = B.cols)
    (hu : C.Unique) (hAC : Apart A.toMat.Cell C.Cell) (hBC : Apart B.toMat.Cell C.Cell) :
    Ends (gemm A B C) h fun _ h' => ∃ r, C.Becomes h h' r ∧
      ∀ i j, i < C.rows → j < C.cols →
      FP.Accurate u (A.cols + 1) (A.cols * η)
        (∀ k, k < A.cols → (a i k).Finite ∧ (b k j).Finite)
        (r i j)
        (∑ k ∈ range A.cols, (a i k).val * (b k j).val)
        (∑ k ∈ range A.cols, |(a i k).val| * |(b k j).val|) := by
  refine (C54_gemm A B C h a b hA hB hC hr hk hc hu hAC hBC).mono fun _ h' hb => ⟨_, hb, fun i j hi hj => ?_⟩
  exact (acc_products_zero H A.cols (a i) (fun k => b k j)).toAccurate

example := C62_gemm binary64_errors (T.view : MatV D) W.view C (heap D) _ _ (mholdsV bT) (mholdsV bW) (malloc bC)
  rfl rfl rfl (by view_facts) (by view_facts) (by view_facts)

/-- **C62** `matrix_product(A, B, E, C)` -/
theorem C62_gemm_update {F : Format} {u η : ℝ} (H : F.Errors u η) (A B E : MatV (FP F)) (C : Mat)
    (h : Heap (FP F)) (a b e : Nat → Nat → FP F) (hA : A.Holds h a) (hB : B.Holds h b)
    (hE : E.Holds h e) (hC : C.Alloc h) (hr : C.rows = A.rows) (hk : A.cols = B.rows)
    (hc : C.cols = B.cols) (her : C.rows ≤ E.rows) (hec : C.cols ≤ E.cols) (hu : C.Unique)
    (hAC : Apart A.toMat.Cell C.Cell) (hBC : Apart B.toMat.Cell C.Cell) (hEC : E.toMat.Aligned C)
    (ve : ∀ i j, i < C.rows → j < C.cols → (e i j).Valid) :
    Ends (gemmUpdate A B E C) h fun _ h' => ∃ r, C.Becomes h h' r ∧
      ∀ i j, i < C.rows → j < C.cols →
      FP.Accurate u (A.cols + 1) (A.cols * η)
        ((e i j).Finite ∧ ∀ k, k < A.cols → (a i k).Finite ∧ (b k j).Finite)
        (r i j)
        ((e i j).val + ∑ k ∈ range A.cols, (a i k).val * (b k j).val)
        (|(e i j).val| + ∑ k ∈ range A.cols, |(a i k).val| * |(b k j).val|) := by
  refine (C54_gemm_update A B E C h a b e hA hB hE hC hr hk hc her hec hu hAC hBC hEC).mono fun _ h' hb => ⟨_, hb, fun i j hi hj => ?_⟩
  exact (acc_products H A.cols (a i) (fun k => b k j) (ve i j hi hj)).toAccurate

example := C62_gemm_update binary64_errors (T.view : MatV D) W.view C.view C (heap D) _ _ _ (mholdsV bT) (mholdsV bW)
  (mholdsV bC) (malloc bC) rfl rfl rfl le_rfl le_rfl (by view_facts) (by view_facts) (by view_facts)
  (by view_facts) fun i j _ _ => mvals_valid C i j

/-- **C62** `symmetric_matrix_product(A, t, B, C)` -/
theorem C62_symm_left {F : Format} {u η : ℝ} (H : F.Errors u η) (A : MatV (FP F)) (t : Triangle)
    (B : MatV (FP F)) (C : Mat) (h : Heap (FP F)) (a b : Nat → Nat → FP F)
    (hA : A.HoldsOn h t.region a) (hB : B.Holds h b) (hC : C.Alloc h) (hsq : A.rows = A.cols)
    (hr : C.rows = A.rows) (hk : A.cols = B.rows) (hc : C.cols = B.cols) (hu : C.Unique)
    (hAC : Apart (A.toMat.CellOn t.region) C.Cell) (hBC : Apart B.toMat.Cell C.Cell) :
    Ends (symmLeft A t B C) h fun _ h' => ∃ r, C.Becomes h h' r ∧
      ∀ i j, i < C.rows → j < C.cols →
      FP.Accurate u (A.cols + 1) (A.cols * η)
        (∀ k, k < A.cols → (symOf t a i k).Finite ∧ (b k j).Finite)
        (r i j)
        (∑ k ∈ range A.cols, (symOf t a i k).val * (b k j).val)
        (∑ k ∈ range A.cols, |(symOf t a i k).val| * |(b k j).val|) := by
  refine (C54_symm_left A t B C h a b hA hB hC hsq hr hk hc hu hAC hBC).mono fun _ h' hb => ⟨_, hb, fun i j hi hj => ?_⟩
  exact (acc_products_zero H A.cols (symOf t a i) (fun k => b k j)).toAccurate

example (t : Triangle) := C62_symm_left binary64_errors (A.view : MatV D) t T.view ⟨3, 2, C.addr⟩ (heap D) _ _
  (mholdsV bA) (mholdsV bT) (malloc fun i j hi hj => bC i j hi (by simp only [C] at *; omega)) rfl rfl rfl
  rfl (by view_facts) (by view_facts) (by view_facts)

/-- **C62** `symmetric_matrix_product(B, A, t, C)` -/
theorem C62_symm_right {F : Format} {u η : ℝ} (H : F.Errors u η) (A : MatV (FP F)) (t : Triangle)
    (B : MatV (FP F)) (C : Mat) (h : Heap (FP F)) (a b : Nat → Nat → FP F)
    (hA : A.HoldsOn h t.region a) (hB : B.Holds h b) (hC : C.Alloc h) (hsq : A.rows = A.cols)
    (hr : C.rows = B.rows) (hk : B.cols = A.rows) (hc : C.cols = A.cols) (hu : C.Unique)
    (hAC : Apart (A.toMat.CellOn t.region) C.Cell) (hBC : Apart B.toMat.Cell C.Cell) :
    Ends (symmRight B A t C) h fun _ h' => ∃ r, C.Becomes h h' r ∧
      ∀ i j, i < C.rows → j < C.cols →
      FP.Accurate u (A.cols + 1) (A.cols * η)
        (∀ k, k < A.cols → (b i k).Finite ∧ (symOf t a k j).Finite)
        (r i j)
        (∑ k ∈ range A.cols, (b i k).val * (symOf t a k j).val)
        (∑ k ∈ range A.cols, |(b i k).val| * |(symOf t a k j).val|) := by
  refine (C54_symm_right A t B C h a b hA hB hC hsq hr hk hc hu hAC hBC).mono fun _ h' hb => ⟨_, hb, fun i j hi hj => ?_⟩
  exact (acc_products_zero H A.cols (b i) (fun k => symOf t a k j)).toAccurate

example (t : Triangle) := C62_symm_right binary64_errors (A.view : MatV D) t W.view ⟨2, 3, C.addr⟩ (heap D) _ _
  (mholdsV bA) (mholdsV bW) (malloc fun i j hi hj => bC i j (by simp only [C] at *; omega) hj) rfl rfl rfl
  rfl (by view_facts) (by view_facts) (by view_facts)

/-- **C62** `hermitian_matrix_product(A, t, B, C)` -/
theorem C62_hemm_left {F : Format} {u η : ℝ} (H : F.Errors u η) (A : MatV (FP F)) (t : Triangle)
    (B : MatV (FP F)) (C : Mat) (h : Heap (FP F)) (a b : Nat → Nat → FP F)
    (hA : A.HoldsOn h t.region a) (hB : B.Holds h b) (hC : C.Alloc h) (hsq : A.rows = A.cols)
    (hr : C.rows = A.rows) (hk : A.cols = B.rows) (hc : C.cols = B.cols) (hu : C.Unique)
    (hAC : Apart (A.toMat.CellOn t.region) C.Cell) (hBC : Apart B.toMat.Cell C.Cell) :
    Ends (hemmLeft A t B C) h fun _ h' => ∃ r, C.Becomes h h' r ∧
      ∀ i j, i < C.rows → j < C.cols →
      FP.Accurate u (A.cols + 1) (A.cols * η)
        (∀ k, k < A.cols → (hermOf t a i k).Finite ∧ (b k j).Finite)
        (r i j)
        (∑ k ∈ range A.cols, (hermOf t a i k).val * (b k j).val)
        (∑ k ∈ range A.cols, |(hermOf t a i k).val| * |(b k j).val|) := by
  refine (C54_hemm_left A t B C h a b hA hB hC hsq hr hk hc hu hAC hBC).mono fun _ h' hb => ⟨_, hb, fun i j hi hj => ?_⟩
  exact (acc_products_zero H A.cols (hermOf t a i) (fun k => b k j)).toAccurate

example (t : Triangle) := C62_hemm_left binary64_errors (A.view : MatV D) t T.view ⟨3, 2, C.addr⟩ (heap D) _ _
  (mholdsV bA) (mholdsV bT) (malloc fun i j hi hj => bC i j hi (by simp only [C] at *; omega)) rfl rfl rfl
  rfl (by view_facts) (by view_facts) (by view_facts)

/-- **C62** `hermitian_matrix_product(B, A, t, C)` -/
theorem C62_hemm_right {F : Format} {u η : ℝ} (H : F.Errors u η) (A : MatV (FP F)) (t : Triangle)
    (B : MatV (FP F)) (C : Mat) (h : Heap (FP F)) (a b : Nat → Nat → FP F)
    (hA : A.HoldsOn h t.region a) (hB : B.Holds h b) (hC : C.Alloc h) (hsq : A.rows = A.cols)
    (hr : C.rows = B.rows) (hk : B.cols = A.rows) (hc : C.cols = A.cols) (hu : C.Unique)
    (hAC : Apart (A.toMat.CellOn t.region) C.Cell) (hBC : Apart B.toMat.Cell C.Cell) :
    Ends (hemmRight B A t C) h fun _ h' => ∃ r, C.Becomes h h' r ∧
      ∀ i j, i < C.rows → j < C.cols →
      FP.Accurate u (A.cols + 1) (A.cols * η)
        (∀ k, k < A.cols → (b i k).Finite ∧ (if k = j then a j j else hermOf t a k j).Finite)
        (r i j)
        (∑ k ∈ range A.cols, (b i k).val * (if k = j then a j j else hermOf t a k j).val)
        (∑ k ∈ range A.cols, |(b i k).val| * |(if k = j then a j j else hermOf t a k j).val|) := by
  refine (C54_hemm_right A t B C h a b hA hB hC hsq hr hk hc hu hAC hBC).mono fun _ h' hb => ⟨_, hb, fun i j hi hj => ?_⟩
  exact (acc_products_zero H A.cols (b i) (fun k => if k = j then a j j else hermOf t a k j)).toAccurate

example (t : Triangle) := C62_hemm_right binary64_errors (A.view : MatV D) t W.view ⟨2, 3, C.addr⟩ (heap D) _ _
  (mholdsV bA) (mholdsV bW) (malloc fun i j hi hj => bC i j (by simp only [C] at *; omega) hj) rfl rfl rfl
  rfl (by view_facts) (by view_facts) (by view_facts)

/-- **C62** `triangular_matrix_product(A, t, d, B, C)` -/
theorem C62_trmm_left {F : Format} {u η : ℝ} (H : F.Errors u η) (A : MatV (FP F)) (t : Triangle)
    (d : Diag) (B : MatV (FP F)) (C : Mat) (h : Heap (FP F)) (a b : Nat → Nat → FP F)
    (hA : A.HoldsOn h (triRegion t d) a) (hB : B.Holds h b) (hC : C.Alloc h)
    (hsq : A.rows = A.cols) (hr : C.rows = A.rows) (hk : A.cols = B.rows) (hc : C.cols = B.cols)
    (hu : C.Unique) (hAC : Apart (A.toMat.CellOn (triRegion t d)) C.Cell)
    (hBC : Apart B.toMat.Cell C.Cell) (vb : ∀ i j, i < B.rows → j < B.cols → (b i j).Valid) :
    Ends (trmmLeft A t d B C) h fun _ h' => ∃ r, C.Becomes h h' r ∧
      ∀ i j, i < C.rows → j < C.cols →
      FP.Accurate u (A.cols + 1) (A.cols * η)
        (∀ k, k < A.cols → t.region i k → (b k j).Finite ∧ (triRegion t d i k → (a i k).Finite))
        (r i j)
        (∑ k ∈ range A.cols, triOf t d (fun i j => (a i j).val) i k * (b k j).val)
        (∑ k ∈ range A.cols, |triOf t d (fun i j => (a i j).val) i k| * |(b k j).val|) := by
  refine (C54_trmm_left A t d B C h a b hA hB hC hsq hr hk hc hu hAC hBC).mono fun _ h' hb => ⟨_, hb, fun i j hi hj => ?_⟩
  exact (acc_triLeft H t d a (fun k => b k j) (fun k hk => vb k j (by omega) (by omega)) hsq (by omega)).toAccurate

example (t : Triangle) (d : Diag) := C62_trmm_left binary64_errors (A.view : MatV D) t d T.view ⟨3, 2, C.addr⟩ (heap D) _ _
  (mholdsV bA) (mholdsV bT) (malloc fun i j hi hj => bC i j hi (by simp only [C] at *; omega)) rfl rfl rfl
  rfl (by view_facts) (by view_facts) (by view_facts) fun i j _ _ => mvals_valid T i j

/-- **C62** `triangular_matrix_product(B, A, t, d, C)` -/
theorem C62_trmm_right {F : Format} {u η : ℝ} (H : F.Errors u η) (A : MatV (FP F)) (t : Triangle)
    (d : Diag) (B : MatV (FP F)) (C : Mat) (h : Heap (FP F)) (a b : Nat → Nat → FP F)
    (hA : A.HoldsOn h (triRegion t d) a) (hB : B.Holds h b) (hC : C.Alloc h)
    (hsq : A.rows = A.cols) (hr : C.rows = B.rows) (hk : B.cols = A.rows) (hc : C.cols = A.cols)
    (hu : C.Unique) (hAC : Apart (A.toMat.CellOn (triRegion t d)) C.Cell)
    (hBC : Apart B.toMat.Cell C.Cell) (vb : ∀ i j, i < B.rows → j < B.cols → (b i j).Valid) :
    Ends (trmmRight B A t d C) h fun _ h' => ∃ r, C.Becomes h h' r ∧
      ∀ i j, i < C.rows → j < C.cols →
      FP.Accurate u (A.cols + 1) (A.cols * η)
        (∀ k, k < A.cols → t.region k j → (b i k).Finite ∧ (triRegion t d k j → (a k j).Finite))
        (r i j)
        (∑ k ∈ range A.cols, (b i k).val * triOf t d (fun i j => (a i j).val) k j)
        (∑ k ∈ range A.cols, |(b i k).val| * |triOf t d (fun i j => (a i j).val) k j|) := by
  refine (C54_trmm_right A t d B C h a b hA hB hC hsq hr hk hc hu hAC hBC).mono fun _ h' hb => ⟨_, hb, fun i j hi hj => ?_⟩
  exact (acc_triRight H t d a (b i) (fun k hk => vb i k (by omega) (by omega)) hsq (by omega)).toAccurate

example (t : Triangle) (d : Diag) := C62_trmm_right binary64_errors (A.view : MatV D) t d W.view ⟨2, 3, C.addr⟩ (heap D) _ _
  (mholdsV bA) (mholdsV bW) (malloc fun i j hi hj => bC i j (by simp only [C] at *; omega) hj) rfl rfl rfl
  rfl (by view_facts) (by view_facts) (by view_facts) fun i j _ _ => mvals_valid W i j

/-- **C62** `triangular_matrix_left_product(A, t, d, C)`, in place -/
theorem C62_trmm_left_in_place {F : Format} {u η : ℝ} (H : F.Errors u η) (A : MatV (FP F))
    (t : Triangle) (d : Diag) (C : Mat) (h : Heap (FP F)) (a c : Nat → Nat → FP F)
    (hA : A.HoldsOn h (triRegion t d) a) (hC : C.Holds h c) (hsq : A.rows = A.cols)
    (hr : C.rows = A.rows) (hu : C.Unique) (hAC : Apart (A.toMat.CellOn (triRegion t d)) C.Cell)
    (vb : ∀ i j, i < C.rows → j < C.cols → (c i j).Valid) :
    Ends (trmmLeftInPlace A t d C) h fun _ h' => ∃ r, C.Becomes h h' r ∧
      ∀ i j, i < C.rows → j < C.cols →
      FP.Accurate u A.cols (A.cols * η)
        (∀ k, k < A.cols → t.region i k → (c k j).Finite ∧ (triRegion t d i k → (a i k).Finite))
        (r i j)
        (∑ k ∈ range A.cols, triOf t d (fun i j => (a i j).val) i k * (c k j).val)
        (∑ k ∈ range A.cols, |triOf t d (fun i j => (a i j).val) i k| * |(c k j).val|) := by
  refine (C54_trmm_left_in_place A t d C h a c hA hC hsq hr hu hAC).mono fun _ h' hb => ⟨_, hb, fun i j hi hj => ?_⟩
  exact (acc_triSeqInPlace H t d a (fun k => c k j) (fun k hk => vb k j (by omega) hj) (by omega) rfl).toAccurate

example (t : Triangle) (d : Diag) := C62_trmm_left_in_place binary64_errors (A.view : MatV D) t d T (heap D) _ _ (mholdsV bA)
  (mholds bT) rfl rfl (by view_facts) (by view_facts) fun i j _ _ => mvals_valid T i j

/-- **C62** `triangular_matrix_right_product(A, t, d, C)`, in place -/
theorem C62_trmm_right_in_place {F : Format} {u η : ℝ} (H : F.Errors u η) (A : MatV (FP F))
    (t : Triangle) (d : Diag) (C : Mat) (h : Heap (FP F)) (a c : Nat → Nat → FP F)
    (hA : A.HoldsOn h (triRegion t d) a) (hC : C.Holds h c) (hsq : A.rows = A.cols)
    (hr : C.cols = A.cols) (hu : C.Unique) (hAC : Apart (A.toMat.CellOn (triRegion t d)) C.Cell)
    (vb : ∀ i j, i < C.rows → j < C.cols → (c i j).Valid) :
    Ends (trmmRightInPlace A t d C) h fun _ h' => ∃ r, C.Becomes h h' r ∧
      ∀ i j, i < C.rows → j < C.cols →
      FP.Accurate u A.cols (A.cols * η)
        (∀ k, k < A.cols → t.region k j → (c i k).Finite ∧ (triRegion t d k j → (a k j).Finite))
        (r i j)
        (∑ k ∈ range A.cols, (c i k).val * triOf t d (fun i j => (a i j).val) k j)
        (∑ k ∈ range A.cols, |(c i k).val| * |triOf t d (fun i j => (a i j).val) k j|) := by
  refine (C54_trmm_right_in_place A t d C h a c hA hC hsq hr hu hAC).mono fun _ h' hb => ⟨_, hb, fun i j hi hj => ?_⟩
  cases t
  · exact (acc_triRightInPlace_upper H d a (c i) (fun k hk => vb i k hi (by omega)) (by omega)).toAccurate
  · exact (acc_triRightInPlace_lower H d a (c i) (fun k hk => vb i k hi (by omega)) (by omega)).toAccurate

example (t : Triangle) (d : Diag) := C62_trmm_right_in_place binary64_errors (A.view : MatV D) t d W (heap D) _ _ (mholdsV bA)
  (mholds bW) rfl rfl (by view_facts) (by view_facts) fun i j _ _ => mvals_valid W i j

/-! ## Rank updates -/

/-- **C62** `matrix_rank_1_update(x, y, A)` -/
theorem C62_ger {F : Format} {u η : ℝ} (H : F.Errors u η) (x y : VecV (FP F)) (A : Mat)
    (h : Heap (FP F)) (f g : Nat → FP F) (a : Nat → Nat → FP F) (hx : x.Holds h f)
    (hy : y.Holds h g) (hA : A.Holds h a) (hxe : A.rows ≤ x.ext) (hye : A.cols ≤ y.ext)
    (hu : A.Unique) (hxA : Apart x.toVec.Cell A.Cell) (hyA : Apart y.toVec.Cell A.Cell)
    (va : ∀ i j, i < A.rows → j < A.cols → (a i j).Valid) :
    Ends (ger x y A) h fun _ h' => ∃ r, A.Becomes h h' r ∧
      ∀ i j, i < A.rows → j < A.cols →
      FP.Accurate u 2 η
        ((a i j).Finite ∧ (f i).Finite ∧ (g j).Finite)
        (r i j)
        ((a i j).val + (f i).val * (g j).val)
        (|(a i j).val| + |(f i).val| * |(g j).val|) := by
  refine (C25_ger x y A h f g a hx hy hA hxe hye hu hxA hyA).mono fun _ h' hb => ⟨_, hb, fun i j hi hj => ?_⟩
  exact (((acc_input H.u_nonneg 1 (va i j hi hj)).add H (acc_mul H (f i) (g j))).congr Iff.rfl rfl rfl
    (zero_add η).symm).toAccurate

example := C62_ger binary64_errors (x.view : VecV D) y.view A (heap D) _ _ _ (holdsV bx) (holdsV by_) (mholds bA)
  le_rfl le_rfl (by view_facts) (by view_facts) (by view_facts) fun i j _ _ => mvals_valid A i j

/-- **C62** `matrix_rank_1_update_c(x, y, A)` -/
theorem C62_gerc {F : Format} {u η : ℝ} (H : F.Errors u η) (x y : VecV (FP F)) (A : Mat)
    (h : Heap (FP F)) (f g : Nat → FP F) (a : Nat → Nat → FP F) (hx : x.Holds h f)
    (hy : y.Holds h g) (hA : A.Holds h a) (hxe : A.rows ≤ x.ext) (hye : A.cols ≤ y.ext)
    (hu : A.Unique) (hxA : Apart x.toVec.Cell A.Cell) (hyA : Apart y.toVec.Cell A.Cell)
    (va : ∀ i j, i < A.rows → j < A.cols → (a i j).Valid) :
    Ends (gerc x y A) h fun _ h' => ∃ r, A.Becomes h h' r ∧
      ∀ i j, i < A.rows → j < A.cols →
      FP.Accurate u 2 η
        ((a i j).Finite ∧ (f i).Finite ∧ (g j).Finite)
        (r i j)
        ((a i j).val + (f i).val * (g j).val)
        (|(a i j).val| + |(f i).val| * |(g j).val|) := by
  refine (C25_gerc x y A h f g a hx hy hA hxe hye hu hxA hyA).mono fun _ h' hb => ⟨_, hb, fun i j hi hj => ?_⟩
  exact (((acc_input H.u_nonneg 1 (va i j hi hj)).add H (acc_mul H (f i) (g j))).congr Iff.rfl rfl rfl
    (zero_add η).symm).toAccurate

example := C62_gerc binary64_errors (x.view : VecV D) y.view A (heap D) _ _ _ (holdsV bx) (holdsV by_) (mholds bA)
  le_rfl le_rfl (by view_facts) (by view_facts) (by view_facts) fun i j _ _ => mvals_valid A i j

/-- **C62** `symmetric_matrix_rank_1_update(x, A, t)` -/
theorem C62_syr {F : Format} {u η : ℝ} (H : F.Errors u η) (x : VecV (FP F)) (A : Mat) (t : Triangle)
    (h : Heap (FP F)) (f : Nat → FP F) (a : Nat → Nat → FP F) (hx : x.Holds h f)
    (hA : A.HoldsOn h t.region a) (hsq : A.rows = A.cols) (hxe : A.rows ≤ x.ext)
    (hu : A.UniqueOn t.region) (hxA : Apart x.toVec.Cell (A.CellOn t.region))
    (va : ∀ i j, i < A.rows → j < A.cols → t.region i j → (a i j).Valid) :
    Ends (syr x A t) h fun _ h' => ∃ r, A.BecomesOn h h' t.region r ∧
      ∀ i j, i < A.rows → j < A.cols → t.region i j →
      FP.Accurate u 2 η
        ((a i j).Finite ∧ (f i).Finite ∧ (f j).Finite)
        (r i j)
        ((a i j).val + (f i).val * (f j).val)
        (|(a i j).val| + |(f i).val| * |(f j).val|) := by
  refine (C26_syr x A t h f a hx hA hsq hxe hu hxA).mono fun _ h' hb => ⟨_, hb, fun i j hi hj hr => ?_⟩
  exact (((acc_input H.u_nonneg 1 (va i j hi hj hr)).add H (acc_mul H (f i) (f j))).congr Iff.rfl rfl
    rfl (zero_add η).symm).toAccurate

example (t : Triangle) := C62_syr binary64_errors (x.view : VecV D) B t (heap D) _ _ (holdsV bx) (mholds bB) rfl le_rfl
  (by view_facts) (by view_facts) fun i j _ _ _ => mvals_valid B i j

/-- **C62** `symmetric_matrix_rank_1_update(alpha, x, A, t)`: `alpha * x(i)` is computed first, and has
to be finite by itself -/
theorem C62_syr_alpha {F : Format} {u η : ℝ} (H : F.Errors u η) (alpha : FP F) (x : VecV (FP F))
    (A : Mat) (t : Triangle) (h : Heap (FP F)) (f : Nat → FP F) (a : Nat → Nat → FP F)
    (hx : x.Holds h f) (hA : A.HoldsOn h t.region a) (hsq : A.rows = A.cols)
    (hxe : A.rows ≤ x.ext) (hu : A.UniqueOn t.region)
    (hxA : Apart x.toVec.Cell (A.CellOn t.region))
    (va : ∀ i j, i < A.rows → j < A.cols → t.region i j → (a i j).Valid) :
    Ends (syrAlpha alpha x A t) h fun _ h' => ∃ r, A.BecomesOn h h' t.region r ∧
      ∀ i j, i < A.rows → j < A.cols → t.region i j →
      FP.Accurate u 3 (η * |(f j).val| + η)
        ((a i j).Finite ∧ (alpha * f i).Finite ∧ (f j).Finite)
        (r i j)
        ((a i j).val + alpha.val * (f i).val * (f j).val)
        (|(a i j).val| + |alpha.val| * |(f i).val| * |(f j).val|) := by
  refine (C26_syrAlpha alpha x A t h f a hx hA hsq hxe hu hxA).mono fun _ h' hb => ⟨_, hb, fun i j hi hj hr => ?_⟩
  exact (((acc_input H.u_nonneg 2 (va i j hi hj hr)).add H ((acc_mul H alpha (f i)).mul_input H (b := f j))).congr
    Iff.rfl rfl rfl (zero_add _).symm).toAccurate

example (t : Triangle) := C62_syr_alpha binary64_errors ((5 : ℤ) : D) (x.view : VecV D) B t (heap D) _ _ (holdsV bx)
  (mholds bB) rfl le_rfl (by view_facts) (by view_facts) fun i j _ _ _ => mvals_valid B i j

/-- **C62** `hermitian_matrix_rank_1_update(x, A, t)` -/
theorem C62_her {F : Format} {u η : ℝ} (H : F.Errors u η) (x : VecV (FP F)) (A : Mat) (t : Triangle)
    (h : Heap (FP F)) (f : Nat → FP F) (a : Nat → Nat → FP F) (hx : x.Holds h f)
    (hA : A.HoldsOn h t.region a) (hsq : A.rows = A.cols) (hxe : A.rows ≤ x.ext)
    (hu : A.UniqueOn t.region) (hxA : Apart x.toVec.Cell (A.CellOn t.region))
    (va : ∀ i j, i < A.rows → j < A.cols → t.region i j → (a i j).Valid) :
    Ends (her x A t) h fun _ h' => ∃ r, A.BecomesOn h h' t.region r ∧
      ∀ i j, i < A.rows → j < A.cols → t.region i j →
      FP.Accurate u 2 η
        ((a i j).Finite ∧ (f i).Finite ∧ (f j).Finite)
        (r i j)
        ((a i j).val + (f i).val * (f j).val)
        (|(a i j).val| + |(f i).val| * |(f j).val|) := by
  refine (C26_her x A t h f a hx hA hsq hxe hu hxA).mono fun _ h' hb => ⟨_, hb, fun i j hi hj hr => ?_⟩
  change FP.Accurate _ _ _ _ ((if i = j then a i i else a i j) + f i * f j) _ _
  rw [ite_diag]
  exact (((acc_input H.u_nonneg 1 (va i j hi hj hr)).add H (acc_mul H (f i) (f j))).congr Iff.rfl rfl
    rfl (zero_add η).symm).toAccurate

example (t : Triangle) := C62_her binary64_errors (x.view : VecV D) B t (heap D) _ _ (holdsV bx) (mholds bB) rfl le_rfl
  (by view_facts) (by view_facts) fun i j _ _ _ => mvals_valid B i j

/-- **C62** `hermitian_matrix_rank_1_update(alpha, x, A, t)`: `alpha * x(i)` is computed first, and has
to be finite by itself -/
theorem C62_her_alpha {F : Format} {u η : ℝ} (H : F.Errors u η) (alpha : FP F) (x : VecV (FP F))
    (A : Mat) (t : Triangle) (h : Heap (FP F)) (f : Nat → FP F) (a : Nat → Nat → FP F)
    (hx : x.Holds h f) (hA : A.HoldsOn h t.region a) (hsq : A.rows = A.cols)
    (hxe : A.rows ≤ x.ext) (hu : A.UniqueOn t.region)
    (hxA : Apart x.toVec.Cell (A.CellOn t.region))
    (va : ∀ i j, i < A.rows → j < A.cols → t.region i j → (a i j).Valid) :
    Ends (herAlpha alpha x A t) h fun _ h' => ∃ r, A.BecomesOn h h' t.region r ∧
      ∀ i j, i < A.rows → j < A.cols → t.region i j →
      FP.Accurate u 3 (η * |(f j).val| + η)
        ((a i j).Finite ∧ (alpha * f i).Finite ∧ (f j).Finite)
        (r i j)
        ((a i j).val + alpha.val * (f i).val * (f j).val)
        (|(a i j).val| + |alpha.val| * |(f i).val| * |(f j).val|) := by
  refine (C26_herAlpha alpha x A t h f a hx hA hsq hxe hu hxA).mono fun _ h' hb => ⟨_, hb, fun i j hi hj hr => ?_⟩
  change FP.Accurate _ _ _ _ ((if i = j then a i i else a i j) + alpha * f i * f j) _ _
  rw [ite_diag]
  exact (((acc_input H.u_nonneg 2 (va i j hi hj hr)).add H ((acc_mul H alpha (f i)).mul_input H (b := f j))).congr
    Iff.rfl rfl rfl (zero_add _).symm).toAccurate

example (t : Triangle) := C62_her_alpha binary64_errors ((5 : ℤ) : D) (x.view : VecV D) B t (heap D) _ _ (holdsV bx)
  (mholds bB) rfl le_rfl (by view_facts) (by view_facts) fun i j _ _ _ => mvals_valid B i j

/-- **C62** `symmetric_matrix_rank_2_update(x, y, A, t)` -/
theorem C62_syr2 {F : Format} {u η : ℝ} (H : F.Errors u η) (x y : VecV (FP F)) (A : Mat)
    (t : Triangle) (h : Heap (FP F)) (f g : Nat → FP F) (a : Nat → Nat → FP F) (hx : x.Holds h f)
    (hy : y.Holds h g) (hA : A.HoldsOn h t.region a) (hsq : A.rows = A.cols)
    (hxe : A.rows ≤ x.ext) (hye : A.rows ≤ y.ext) (hu : A.UniqueOn t.region)
    (hxA : Apart x.toVec.Cell (A.CellOn t.region)) (hyA : Apart y.toVec.Cell (A.CellOn t.region))
    (va : ∀ i j, i < A.rows → j < A.cols → t.region i j → (a i j).Valid) :
    Ends (syr2 x y A t) h fun _ h' => ∃ r, A.BecomesOn h h' t.region r ∧
      ∀ i j, i < A.rows → j < A.cols → t.region i j →
      FP.Accurate u 3 (2 * η)
        ((a i j).Finite ∧ ((f i).Finite ∧ (g j).Finite) ∧ (g i).Finite ∧ (f j).Finite)
        (r i j)
        ((a i j).val + ((f i).val * (g j).val + (g i).val * (f j).val))
        (|(a i j).val| + (|(f i).val| * |(g j).val| + |(g i).val| * |(f j).val|)) := by
  refine (C27_syr2 x y A t h f g a hx hy hA hsq hxe hye hu hxA hyA).mono fun _ h' hb => ⟨_, hb, fun i j hi hj hr => ?_⟩
  exact (((acc_input H.u_nonneg 2 (va i j hi hj hr)).add H ((acc_mul H _ _).add H (acc_mul H _ _))).congr
    Iff.rfl rfl rfl (by ring)).toAccurate

example (t : Triangle) := C62_syr2 binary64_errors (x.view : VecV D) y.view B t (heap D) _ _ _ (holdsV bx) (holdsV by_)
  (mholds bB) rfl le_rfl le_rfl (by view_facts) (by view_facts) (by view_facts) fun i j _ _ _ => mvals_valid B i j

/-- **C62** `hermitian_matrix_rank_2_update(x, y, A, t)` -/
theorem C62_her2 {F : Format} {u η : ℝ} (H : F.Errors u η) (x y : VecV (FP F)) (A : Mat)
    (t : Triangle) (h : Heap (FP F)) (f g : Nat → FP F) (a : Nat → Nat → FP F) (hx : x.Holds h f)
    (hy : y.Holds h g) (hA : A.HoldsOn h t.region a) (hsq : A.rows = A.cols)
    (hxe : A.rows ≤ x.ext) (hye : A.rows ≤ y.ext) (hu : A.UniqueOn t.region)
    (hxA : Apart x.toVec.Cell (A.CellOn t.region)) (hyA : Apart y.toVec.Cell (A.CellOn t.region))
    (va : ∀ i j, i < A.rows → j < A.cols → t.region i j → (a i j).Valid) :
    Ends (her2 x y A t) h fun _ h' => ∃ r, A.BecomesOn h h' t.region r ∧
      ∀ i j, i < A.rows → j < A.cols → t.region i j →
      FP.Accurate u 3 (2 * η)
        ((a i j).Finite ∧ ((f i).Finite ∧ (g j).Finite) ∧ (g i).Finite ∧ (f j).Finite)
        (r i j)
        ((a i j).val + ((f i).val * (g j).val + (g i).val * (f j).val))
        (|(a i j).val| + (|(f i).val| * |(g j).val| + |(g i).val| * |(f j).val|)) := by
  refine (C27_her2 x y A t h f g a hx hy hA hsq hxe hye hu hxA hyA).mono fun _ h' hb => ⟨_, hb, fun i j hi hj hr => ?_⟩
  change FP.Accurate _ _ _ _ ((if i = j then a i i else a i j) + (f i * g j + g i * f j)) _ _
  rw [ite_diag]
  exact (((acc_input H.u_nonneg 2 (va i j hi hj hr)).add H ((acc_mul H _ _).add H (acc_mul H _ _))).congr
    Iff.rfl rfl rfl (by ring)).toAccurate

example (t : Triangle) := C62_her2 binary64_errors (x.view : VecV D) y.view B t (heap D) _ _ _ (holdsV bx) (holdsV by_)
  (mholds bB) rfl le_rfl le_rfl (by view_facts) (by view_facts) (by view_facts) fun i j _ _ _ => mvals_valid B i j

/-- **C62** `symmetric_matrix_rank_k_update(A, C, t)` -/
theorem C62_syrk {F : Format} {u η : ℝ} (H : F.Errors u η) (A : MatV (FP F)) (C : Mat) (t : Triangle)
    (h : Heap (FP F)) (a c : Nat → Nat → FP F) (hA : A.Holds h a) (hC : C.HoldsOn h t.region c)
    (hsq : C.rows = C.cols) (hAe : C.rows ≤ A.rows) (hu : C.UniqueOn t.region)
    (hAC : Apart A.toMat.Cell (C.CellOn t.region))
    (va : ∀ i j, i < C.rows → j < C.cols → t.region i j → (c i j).Valid) :
    Ends (syrk A C t) h fun _ h' => ∃ r, C.BecomesOn h h' t.region r ∧
      ∀ i j, i < C.rows → j < C.cols → t.region i j →
      FP.Accurate u (1 + A.cols) (∑ _k ∈ range A.cols, η)
        ((c i j).Finite ∧ ∀ k, k < A.cols → (a i k).Finite ∧ (a j k).Finite)
        (r i j)
        ((c i j).val + ∑ k ∈ range A.cols, (a i k).val * (a j k).val)
        (|(c i j).val| + ∑ k ∈ range A.cols, |(a i k).val| * |(a j k).val|) := by
  refine (C54_syrk A C t h a c hA hC hsq hAe hu hAC).mono fun _ h' hb => ⟨_, hb, fun i j hi hj hr => ?_⟩
  exact ((Acc.leftSum H (acc_input H.u_nonneg 1 (va i j hi hj hr)) fun k _ =>
    acc_mul H (a i k) (a j k)).congr Iff.rfl rfl rfl (zero_add _).symm).toAccurate

example (t : Triangle) := C62_syrk binary64_errors (T.view : MatV D) C t (heap D) _ _ (mholdsV bT)
  (mholds bC) rfl le_rfl (by view_facts) (by view_facts) fun i j _ _ _ => mvals_valid C i j

/-- **C62** `symmetric_matrix_rank_k_update(alpha, A, C, t)` -/
theorem C62_syrk_alpha {F : Format} {u η : ℝ} (H : F.Errors u η) (alpha : FP F) (A : MatV (FP F))
    (C : Mat) (t : Triangle) (h : Heap (FP F)) (a c : Nat → Nat → FP F) (hA : A.Holds h a)
    (hC : C.HoldsOn h t.region c) (hsq : C.rows = C.cols) (hAe : C.rows ≤ A.rows)
    (hu : C.UniqueOn t.region) (hAC : Apart A.toMat.Cell (C.CellOn t.region))
    (va : ∀ i j, i < C.rows → j < C.cols → t.region i j → (c i j).Valid) :
    Ends (syrkAlpha alpha A C t) h fun _ h' => ∃ r, C.BecomesOn h h' t.region r ∧
      ∀ i j, i < C.rows → j < C.cols → t.region i j →
      FP.Accurate u (2 + A.cols) (∑ k ∈ range A.cols, (η * |(a j k).val| + η))
        ((c i j).Finite ∧ ∀ k, k < A.cols → (alpha * a i k).Finite ∧ (a j k).Finite)
        (r i j)
        ((c i j).val + ∑ k ∈ range A.cols, alpha.val * (a i k).val * (a j k).val)
        (|(c i j).val| + ∑ k ∈ range A.cols, |alpha.val| * |(a i k).val| * |(a j k).val|) := by
  refine (C54_syrk_alpha alpha A C t h a c hA hC hsq hAe hu hAC).mono fun _ h' hb => ⟨_, hb, fun i j hi hj hr => ?_⟩
  exact ((Acc.leftSum H (acc_input H.u_nonneg 2 (va i j hi hj hr)) fun k _ =>
    (acc_mul H alpha (a i k)).mul_input H (b := a j k)).congr Iff.rfl rfl rfl (zero_add _).symm).toAccurate

example (t : Triangle) := C62_syrk_alpha binary64_errors ((5 : ℤ) : D) (T.view : MatV D) C t (heap D) _ _ (mholdsV bT)
  (mholds bC) rfl le_rfl (by view_facts) (by view_facts) fun i j _ _ _ => mvals_valid C i j

/-- **C62** `hermitian_matrix_rank_k_update(A, C, t)` -/
theorem C62_herk {F : Format} {u η : ℝ} (H : F.Errors u η) (A : MatV (FP F)) (C : Mat) (t : Triangle)
    (h : Heap (FP F)) (a c : Nat → Nat → FP F) (hA : A.Holds h a) (hC : C.HoldsOn h t.region c)
    (hsq : C.rows = C.cols) (hAe : C.rows ≤ A.rows) (hu : C.UniqueOn t.region)
    (hAC : Apart A.toMat.Cell (C.CellOn t.region))
    (va : ∀ i j, i < C.rows → j < C.cols → t.region i j → (c i j).Valid) :
    Ends (herk A C t) h fun _ h' => ∃ r, C.BecomesOn h h' t.region r ∧
      ∀ i j, i < C.rows → j < C.cols → t.region i j →
      FP.Accurate u (1 + A.cols) (∑ _k ∈ range A.cols, η)
        ((c i j).Finite ∧ ∀ k, k < A.cols → (a i k).Finite ∧ (a j k).Finite)
        (r i j)
        ((c i j).val + ∑ k ∈ range A.cols, (a i k).val * (a j k).val)
        (|(c i j).val| + ∑ k ∈ range A.cols, |(a i k).val| * |(a j k).val|) := by
  refine (C54_herk A C t h a c hA hC hsq hAe hu hAC).mono fun _ h' hb => ⟨_, hb, fun i j hi hj hr => ?_⟩
  change FP.Accurate _ _ _ _ (leftSum (if i = j then c i i else c i j) A.cols fun k => a i k * a j k) _ _
  rw [ite_diag]
  exact ((Acc.leftSum H (acc_input H.u_nonneg 1 (va i j hi hj hr)) fun k _ =>
    acc_mul H (a i k) (a j k)).congr Iff.rfl rfl rfl (zero_add _).symm).toAccurate

example (t : Triangle) := C62_herk binary64_errors (T.view : MatV D) C t (heap D) _ _ (mholdsV bT)
  (mholds bC) rfl le_rfl (by view_facts) (by view_facts) fun i j _ _ _ => mvals_valid C i j

/-- **C62** `hermitian_matrix_rank_k_update(alpha, A, C, t)` -/
theorem C62_herk_alpha {F : Format} {u η : ℝ} (H : F.Errors u η) (alpha : FP F) (A : MatV (FP F))
    (C : Mat) (t : Triangle) (h : Heap (FP F)) (a c : Nat → Nat → FP F) (hA : A.Holds h a)
    (hC : C.HoldsOn h t.region c) (hsq : C.rows = C.cols) (hAe : C.rows ≤ A.rows)
    (hu : C.UniqueOn t.region) (hAC : Apart A.toMat.Cell (C.CellOn t.region))
    (va : ∀ i j, i < C.rows → j < C.cols → t.region i j → (c i j).Valid) :
    Ends (herkAlpha alpha A C t) h fun _ h' => ∃ r, C.BecomesOn h h' t.region r ∧
      ∀ i j, i < C.rows → j < C.cols → t.region i j →
      FP.Accurate u (2 + A.cols) (∑ k ∈ range A.cols, (η * |(a j k).val| + η))
        ((c i j).Finite ∧ ∀ k, k < A.cols → (alpha * a i k).Finite ∧ (a j k).Finite)
        (r i j)
        ((c i j).val + ∑ k ∈ range A.cols, alpha.val * (a i k).val * (a j k).val)
        (|(c i j).val| + ∑ k ∈ range A.cols, |alpha.val| * |(a i k).val| * |(a j k).val|) := by
  refine (C54_herk_alpha alpha A C t h a c hA hC hsq hAe hu hAC).mono fun _ h' hb => ⟨_, hb, fun i j hi hj hr => ?_⟩
  change FP.Accurate _ _ _ _ (leftSum (if i = j then c i i else c i j) A.cols fun k => alpha * a i k * a j k) _ _
  rw [ite_diag]
  exact ((Acc.leftSum H (acc_input H.u_nonneg 2 (va i j hi hj hr)) fun k _ =>
    (acc_mul H alpha (a i k)).mul_input H (b := a j k)).congr Iff.rfl rfl rfl (zero_add _).symm).toAccurate

example (t : Triangle) := C62_herk_alpha binary64_errors ((5 : ℤ) : D) (T.view : MatV D) C t (heap D) _ _ (mholdsV bT)
  (mholds bC) rfl le_rfl (by view_facts) (by view_facts) fun i j _ _ _ => mvals_valid C i j

/-- **C62** `symmetric_matrix_rank_2k_update(A, B, C, t)` -/
theorem C62_syr2k {F : Format} {u η : ℝ} (H : F.Errors u η) (A B : MatV (FP F)) (C : Mat)
    (t : Triangle) (h : Heap (FP F)) (a b c : Nat → Nat → FP F) (hA : A.Holds h a)
    (hB : B.Holds h b) (hC : C.HoldsOn h t.region c) (hsq : C.rows = C.cols)
    (hAe : C.rows ≤ A.rows) (hBe : C.rows ≤ B.rows) (hAB : A.cols ≤ B.cols)
    (hu : C.UniqueOn t.region) (hAC : Apart A.toMat.Cell (C.CellOn t.region))
    (hBC : Apart B.toMat.Cell (C.CellOn t.region))
    (va : ∀ i j, i < C.rows → j < C.cols → t.region i j → (c i j).Valid) :
    Ends (syr2k A B C t) h fun _ h' => ∃ r, C.BecomesOn h h' t.region r ∧
      ∀ i j, i < C.rows → j < C.cols → t.region i j →
      FP.Accurate u (2 + A.cols) (∑ _k ∈ range A.cols, (η + η))
        ((c i j).Finite ∧ ∀ k, k < A.cols →
          ((a i k).Finite ∧ (b j k).Finite) ∧ (b i k).Finite ∧ (a j k).Finite)
        (r i j)
        ((c i j).val + ∑ k ∈ range A.cols,
          ((a i k).val * (b j k).val + (b i k).val * (a j k).val))
        (|(c i j).val| + ∑ k ∈ range A.cols,
          (|(a i k).val| * |(b j k).val| + |(b i k).val| * |(a j k).val|)) := by
  refine (C54_syr2k A B C t h a b c hA hB hC hsq hAe hBe hAB hu hAC hBC).mono fun _ h' hb => ⟨_, hb, fun i j hi hj hr => ?_⟩
  exact ((Acc.leftSum H (acc_input H.u_nonneg 2 (va i j hi hj hr)) fun k _ =>
    (acc_mul H (a i k) (b j k)).add H (acc_mul H (b i k) (a j k))).congr Iff.rfl rfl rfl
    (zero_add _).symm).toAccurate

example (t : Triangle) := C62_syr2k binary64_errors (T.view : MatV D) A.view C t (heap D) _ _ _ (mholdsV bT) (mholdsV bA)
  (mholds bC) rfl le_rfl le_rfl (by decide) (by view_facts) (by view_facts) (by view_facts)
  fun i j _ _ _ => mvals_valid C i j

/-- **C62** `hermitian_matrix_rank_2k_update(A, B, C, t)` -/
theorem C62_her2k {F : Format} {u η : ℝ} (H : F.Errors u η) (A B : MatV (FP F)) (C : Mat)
    (t : Triangle) (h : Heap (FP F)) (a b c : Nat → Nat → FP F) (hA : A.Holds h a)
    (hB : B.Holds h b) (hC : C.HoldsOn h t.region c) (hsq : C.rows = C.cols)
    (hAe : C.rows ≤ A.rows) (hBe : C.rows ≤ B.rows) (hAB : A.cols ≤ B.cols)
    (hu : C.UniqueOn t.region) (hAC : Apart A.toMat.Cell (C.CellOn t.region))
    (hBC : Apart B.toMat.Cell (C.CellOn t.region))
    (va : ∀ i j, i < C.rows → j < C.cols → t.region i j → (c i j).Valid) :
    Ends (her2k A B C t) h fun _ h' => ∃ r, C.BecomesOn h h' t.region r ∧
      ∀ i j, i < C.rows → j < C.cols → t.region i j →
      FP.Accurate u (2 + A.cols) (∑ _k ∈ range A.cols, (η + η))
        ((c i j).Finite ∧ ∀ k, k < A.cols →
          ((a i k).Finite ∧ (b j k).Finite) ∧ (b i k).Finite ∧ (a j k).Finite)
        (r i j)
        ((c i j).val + ∑ k ∈ range A.cols,
          ((a i k).val * (b j k).val + (b i k).val * (a j k).val))
        (|(c i j).val| + ∑ k ∈ range A.cols,
          (|(a i k).val| * |(b j k).val| + |(b i k).val| * |(a j k).val|)) := by
  refine (C54_her2k A B C t h a b c hA hB hC hsq hAe hBe hAB hu hAC hBC).mono fun _ h' hb => ⟨_, hb, fun i j hi hj hr => ?_⟩
  change FP.Accurate _ _ _ _ (leftSum (if i = j then c i i else c i j) A.cols fun k =>
    a i k * b j k + b i k * a j k) _ _
  rw [ite_diag]
  exact ((Acc.leftSum H (acc_input H.u_nonneg 2 (va i j hi hj hr)) fun k _ =>
    (acc_mul H (a i k) (b j k)).add H (acc_mul H (b i k) (a j k))).congr Iff.rfl rfl rfl
    (zero_add _).symm).toAccurate

example (t : Triangle) := C62_her2k binary64_errors (T.view : MatV D) A.view C t (heap D) _ _ _ (mholdsV bT) (mholdsV bA)
  (mholds bC) rfl le_rfl le_rfl (by decide) (by view_facts) (by view_facts) (by view_facts)
  fun i j _ _ _ => mvals_valid C i j

/-! ## Sums of absolute values and matrix norms -/

/-- **C62** `vector_abs_sum(v, init)`: absolute values are exact and sums do not underflow. -/
theorem C62_vector_abs_sum {F : Format} {u η : ℝ} (H : F.Errors u η) (v : VecV (FP F)) (init : FP F)
    (h : Heap (FP F)) (f : Nat → FP F) (hv : v.Holds h f) (vi : init.Valid)
    (vf : ∀ k, k < v.ext → (f k).Valid) :
    Ends (vectorAbsSumOf v init) h fun r h' => h' = h ∧
      FP.Accurate u v.ext 0
        (init.Finite ∧ ∀ k, k < v.ext → (f k).Finite)
        r
        (init.val + ∑ k ∈ range v.ext, |(f k).val|)
        (|init.val| + ∑ k ∈ range v.ext, |(f k).val|) := by
  refine (absSumOf_run hv init).mono ?_
  rintro _ _ ⟨rfl, rfl⟩
  exact ⟨rfl, (acc_abs H v.ext f vi vf).toAccurate⟩

example := C62_vector_abs_sum binary64_errors (x.view : VecV D) ((5 : ℤ) : D) (heap D) _ (holdsV bx) (int_valid 5)
  fun i _ => vals_valid x i

/-- **C62** `matrix_inf_norm(A, 0)`: if all elements are finite and the norm is not too close to the
largest finite number, the result is finite and has a small relative error. -/
theorem C62_matrix_inf_norm {F : Format} {u η : ℝ} (H : F.Errors u η) (A : MatV (FP F))
    (h : Heap (FP F)) (f : Nat → Nat → FP F) (hA : A.Holds h f)
    (vf : ∀ i j, i < A.rows → j < A.cols → (f i j).Valid)
    (hf : ∀ i j, i < A.rows → j < A.cols → (f i j).Finite) (N : ℝ)
    (hN : IsGreatest {x | ∃ i, i < A.rows ∧ x = ∑ j ∈ range A.cols, |(f i j).val|} N)
    (hbig : (1 + u) ^ A.cols * N ≤ F.big) :
    Ends (matrixInfNormOf A (0 : FP F)) h fun r h' => h' = h ∧ r.Finite ∧
      |r.val - N| ≤ ((1 + u) ^ A.cols - 1) * N := by
  have hr : 0 < A.rows := by obtain ⟨i, hi, _⟩ := hN.1; omega
  by_cases h0 : A.cols = 0
  · have h0' : A.rows = 0 ∨ A.cols = 0 := .inr h0
    obtain ⟨i, hi, e⟩ := hN.1
    rw [h0, sum_range_zero] at e
    unfold matrixInfNormOf
    rw [if_pos h0', ends_pure, e]
    refine ⟨rfl, trivial, ?_⟩
    simp [show (0 : FP F).val = 0 from rfl]
  have h0' : ¬ (A.rows = 0 ∨ A.cols = 0) := by omega
  by_cases h1 : A.rows = 1 ∧ A.cols = 1
  · unfold matrixInfNormOf
    rw [if_neg h0', if_pos h1]
    refine (scalarNormOf_one hA 0 h0').mono ?_
    rintro _ _ ⟨rfl, rfl⟩
    refine ⟨rfl, ?_⟩
    have key := acc_max H vf hf hN hbig
    obtain ⟨i, hi, eN⟩ := hN.1
    obtain rfl : i = 0 := by omega
    have h2 := key.1 0 hr
    have h3 := key.2.1 0 hr
    rw [← eN] at h3
    rw [h1.2] at h2 h3 ⊢
    exact ⟨h2, h3⟩
  · refine (infOf_run hA 0 h0' h1).mono ?_
    rintro _ _ ⟨rfl, rfl⟩
    exact ⟨rfl, (acc_max H vf hf hN hbig).2.2⟩

example : ∃ N, IsGreatest {x | ∃ i, i < 3 ∧ x = ∑ j ∈ range 3, |(mvals D A i j).val|} N ∧
    Ends (matrixInfNormOf (A.view : MatV D) (0 : D)) (heap D) fun r h' => h' = heap D ∧
      r.Finite ∧ |r.val - N| ≤ ((1 + (2 : ℝ) ^ (-53 : ℤ)) ^ 3 - 1) * N := by
  obtain ⟨N, hN⟩ := exists_greatest_sum (n := 3) (by decide)
    fun i => ∑ j ∈ range 3, |(mvals D A i j).val|
  refine ⟨N, hN, C62_matrix_inf_norm binary64_errors (A.view : MatV D) (heap D) _ (mholdsV bA)
    (fun i j _ _ => mvals_valid A i j) (fun i j hi hj => mvals_A_finite i j hi hj) N hN ?_⟩
  obtain ⟨i, hi, e⟩ := hN.1
  exact small_fits 3 N (e ▸ (sum_le_sum fun j hj => mvals_A_le i j hi (mem_range.1 hj)).trans
    (by rw [sum_const, card_range, nsmul_eq_mul]; norm_num)) (by norm_num)

/-- **C62** `matrix_one_norm(A, 0)`: if all elements are finite and the norm is not too close to the
largest finite number, the result is finite and has a small relative error. -/
theorem C62_matrix_one_norm {F : Format} {u η : ℝ} (H : F.Errors u η) (A : MatV (FP F))
    (h : Heap (FP F)) (f : Nat → Nat → FP F) (hA : A.Holds h f)
    (vf : ∀ i j, i < A.rows → j < A.cols → (f i j).Valid)
    (hf : ∀ i j, i < A.rows → j < A.cols → (f i j).Finite) (N : ℝ)
    (hN : IsGreatest {x | ∃ j, j < A.cols ∧ x = ∑ i ∈ range A.rows, |(f i j).val|} N)
    (hbig : (1 + u) ^ A.rows * N ≤ F.big) :
    Ends (matrixOneNormOf A (0 : FP F)) h fun r h' => h' = h ∧ r.Finite ∧
      |r.val - N| ≤ ((1 + u) ^ A.rows - 1) * N := by
  have hr : 0 < A.cols := by obtain ⟨i, hi, _⟩ := hN.1; omega
  by_cases h0 : A.rows = 0
  · have h0' : A.rows = 0 ∨ A.cols = 0 := .inl h0
    obtain ⟨i, hi, e⟩ := hN.1
    rw [h0, sum_range_zero] at e
    unfold matrixOneNormOf
    rw [if_pos h0', ends_pure, e]
    refine ⟨rfl, trivial, ?_⟩
    simp [show (0 : FP F).val = 0 from rfl]
  have h0' : ¬ (A.rows = 0 ∨ A.cols = 0) := by omega
  by_cases h1 : A.rows = 1 ∧ A.cols = 1
  · unfold matrixOneNormOf
    rw [if_neg h0', if_pos h1]
    refine (scalarNormOf_one hA 0 h0').mono ?_
    rintro _ _ ⟨rfl, rfl⟩
    refine ⟨rfl, ?_⟩
    have key := acc_max H (x := fun j i => f i j) (fun j i hj hi => vf i j hi hj) (fun j i hj hi => hf i j hi hj) hN hbig
    obtain ⟨i, hi, eN⟩ := hN.1
    obtain rfl : i = 0 := by omega
    have h2 := key.1 0 hr
    have h3 := key.2.1 0 hr
    rw [← eN] at h3
    rw [h1.1] at h2 h3 ⊢
    exact ⟨h2, h3⟩
  · refine (oneOf_run hA 0 h0' h1).mono ?_
    rintro _ _ ⟨rfl, rfl⟩
    exact ⟨rfl, (acc_max H (x := fun j i => f i j) (fun j i hj hi => vf i j hi hj) (fun j i hj hi => hf i j hi hj) hN hbig).2.2⟩

example : ∃ N, IsGreatest {x | ∃ j, j < 3 ∧ x = ∑ i ∈ range 3, |(mvals D A i j).val|} N ∧
    Ends (matrixOneNormOf (A.view : MatV D) (0 : D)) (heap D) fun r h' => h' = heap D ∧
      r.Finite ∧ |r.val - N| ≤ ((1 + (2 : ℝ) ^ (-53 : ℤ)) ^ 3 - 1) * N := by
  obtain ⟨N, hN⟩ := exists_greatest_sum (n := 3) (by decide)
    fun j => ∑ i ∈ range 3, |(mvals D A i j).val|
  refine ⟨N, hN, C62_matrix_one_norm binary64_errors (A.view : MatV D) (heap D) _ (mholdsV bA)
    (fun i j _ _ => mvals_valid A i j) (fun i j hi hj => mvals_A_finite i j hi hj) N hN ?_⟩
  obtain ⟨j, hj, e⟩ := hN.1
  exact small_fits 3 N (e ▸ (sum_le_sum fun i hi => mvals_A_le i j (mem_range.1 hi) hj).trans
    (by rw [sum_const, card_range, nsmul_eq_mul]; norm_num)) (by norm_num)

/-! ## Solves

A finite element of the solution satisfies its equation up to rounding.  The diagonal has to be
finite: dividing by an infinite element gives a finite 0 (`C62_trsv_infinite_diagonal_false`). -/

/-- **C62** `triangular_matrix_vector_solve(A, t, d, b, x)` -/
theorem C62_trsv {F : Format} {u η : ℝ} (H : F.Errors u η) (A : MatV (FP F)) (t : Triangle) (d : Diag)
    (B : VecV (FP F)) (X : Vec) (h : Heap (FP F)) (a : Nat → Nat → FP F) (b : Nat → FP F)
    (hA : A.HoldsOn h (triRegion t d) a) (hB : B.Holds h b) (hX : X.Alloc h)
    (hsq : A.rows = A.cols) (hext : A.rows = X.ext) (hBe : A.rows ≤ B.ext) (hu : X.Unique)
    (hAX : Apart (A.toMat.CellOn (triRegion t d)) X.Cell) (hBX : B.toVec.Aligned X)
    (vb : ∀ i, i < A.rows → (b i).Valid) (hd : d = .explicit → ∀ i, i < A.rows → (a i i).Finite) :
    Ends (trsv (· / ·) A t d B X) h fun _ h' => ∃ r, X.Becomes h h' r ∧
      ∀ i, i < A.rows → (r i).Finite →
        (b i).Finite ∧ (d = .explicit → (a i i).val ≠ 0) ∧
        (∀ k, k < A.cols → t.region i k → k ≠ i → (a i k).Finite ∧ (r k).Finite) ∧
        |(b i).val - ∑ k ∈ range A.cols, triOf t d (fun i j => (a i j).val) i k * (r k).val| ≤
          ((1 + u) ^ (A.cols + 1) - 1) * (|(b i).val| +
            ∑ k ∈ range A.cols, |triOf t d (fun i j => (a i j).val) i k| * |(r k).val|) +
          ((1 + u) ^ (A.cols + 1) * A.cols + if d = .explicit then |(a i i).val| else 0) * η := by
  refine (C54_trsv A t d B X h a b hA hB hX hsq hext hBe hu hAX hBX).mono ?_
  rintro _ h' ⟨v, hb, hv⟩
  refine ⟨v, hb, fun i hi hf => ?_⟩
  have := acc_solveLeft H (a := a) (hsq ▸ hi) (vb i hi) (fun e => hd e i hi) (hv i hi) hf
  exact ⟨this.1.1, this.1.2.1, this.1.2.2, this.2⟩

example (t : Triangle) (d : Diag) := C62_trsv binary64_errors (A.view : MatV D) t d x.view x (heap D) _ _ (mholdsV bA)
  (holdsV bx) (alloc bx) rfl rfl le_rfl (by view_facts) (by view_facts) (by view_facts)
  (fun i _ => vals_valid x i) fun _ i hi => mvals_A_finite i i hi hi

/-- **C62** `triangular_matrix_matrix_left_solve(A, t, d, B, X)` -/
theorem C62_trsm_left {F : Format} {u η : ℝ} (H : F.Errors u η) (A : MatV (FP F)) (t : Triangle)
    (d : Diag) (B : MatV (FP F)) (X : Mat) (h : Heap (FP F)) (a b : Nat → Nat → FP F)
    (hA : A.HoldsOn h (triRegion t d) a) (hB : B.Holds h b) (hX : X.Alloc h)
    (hsq : A.rows = A.cols) (hr : X.rows = A.rows) (hBr : B.rows = A.rows) (hc : X.cols = B.cols)
    (hu : X.Unique) (hAX : Apart (A.toMat.CellOn (triRegion t d)) X.Cell)
    (hBX : B.toMat.Aligned X) (vb : ∀ i j, i < B.rows → j < B.cols → (b i j).Valid)
    (hd : d = .explicit → ∀ i, i < A.rows → (a i i).Finite) :
    Ends (trsmLeft A t d B X) h fun _ h' => ∃ r, X.Becomes h h' r ∧
      ∀ i j, i < A.rows → j < X.cols → (r i j).Finite →
        (b i j).Finite ∧ (d = .explicit → (a i i).val ≠ 0) ∧
        (∀ k, k < A.cols → t.region i k → k ≠ i → (a i k).Finite ∧ (r k j).Finite) ∧
        |(b i j).val - ∑ k ∈ range A.cols, triOf t d (fun i j => (a i j).val) i k * (r k j).val| ≤
          ((1 + u) ^ (A.cols + 1) - 1) * (|(b i j).val| +
            ∑ k ∈ range A.cols, |triOf t d (fun i j => (a i j).val) i k| * |(r k j).val|) +
          ((1 + u) ^ (A.cols + 1) * A.cols + if d = .explicit then |(a i i).val| else 0) * η := by
  refine (C54_trsm_left A t d B X h a b hA hB hX hsq hr hBr hc hu hAX hBX).mono ?_
  rintro _ h' ⟨v, hb, hv⟩
  refine ⟨v, hb, fun i j hi hj hf => ?_⟩
  have := acc_solveLeft H (a := a) (r := fun k => v k j) (hsq ▸ hi)
    (vb i j (by omega) (by omega)) (fun e => hd e i hi) (hv i j hi hj) hf
  exact ⟨this.1.1, this.1.2.1, this.1.2.2, this.2⟩

example (t : Triangle) (d : Diag) := C62_trsm_left binary64_errors (A.view : MatV D) t d T.view T (heap D) _ _
  (mholdsV bA) (mholdsV bT) (malloc bT) rfl rfl rfl rfl (by view_facts) (by view_facts)
  (by view_facts) (fun i j _ _ => mvals_valid T i j) fun _ i hi => mvals_A_finite i i hi hi

/-- **C62** `triangular_matrix_matrix_right_solve(A, t, d, B, X)` -/
theorem C62_trsm_right {F : Format} {u η : ℝ} (H : F.Errors u η) (A : MatV (FP F)) (t : Triangle)
    (d : Diag) (B : MatV (FP F)) (X : Mat) (h : Heap (FP F)) (a b : Nat → Nat → FP F)
    (hA : A.HoldsOn h (triRegion t d) a) (hB : B.Holds h b) (hX : X.Alloc h)
    (hsq : A.rows = A.cols) (hr : X.cols = A.cols) (hBr : B.cols = A.cols) (hc : X.rows = B.rows)
    (hu : X.Unique) (hAX : Apart (A.toMat.CellOn (triRegion t d)) X.Cell)
    (hBX : B.toMat.Aligned X) (vb : ∀ i j, i < B.rows → j < B.cols → (b i j).Valid)
    (hd : d = .explicit → ∀ i, i < A.rows → (a i i).Finite) :
    Ends (trsmRight A t d B X) h fun _ h' => ∃ r, X.Becomes h h' r ∧
      ∀ i j, i < X.rows → j < A.cols → (r i j).Finite →
        (b i j).Finite ∧ (d = .explicit → (a j j).val ≠ 0) ∧
        (∀ k, k < A.cols → t.region k j → k ≠ j → (r i k).Finite ∧ (a k j).Finite) ∧
        |(b i j).val - ∑ k ∈ range A.cols, (r i k).val * triOf t d (fun i j => (a i j).val) k j| ≤
          ((1 + u) ^ (A.cols + 1) - 1) * (|(b i j).val| +
            ∑ k ∈ range A.cols, |(r i k).val| * |triOf t d (fun i j => (a i j).val) k j|) +
          ((1 + u) ^ (A.cols + 1) * A.cols + if d = .explicit then |(a j j).val| else 0) * η := by
  refine (C54_trsm_right A t d B X h a b hA hB hX hsq hr hBr hc hu hAX hBX).mono ?_
  rintro _ h' ⟨v, hb, hv⟩
  refine ⟨v, hb, fun i j hi hj hf => ?_⟩
  have := acc_solveRight H (a := a) (r := v i) hj
    (vb i j (by omega) (by omega)) (fun e => hd e j (by omega)) (hv i j hi hj) hf
  exact ⟨this.1.1, this.1.2.1, this.1.2.2, this.2⟩

example (t : Triangle) (d : Diag) := C62_trsm_right binary64_errors (A.view : MatV D) t d W.view W (heap D) _ _
  (mholdsV bA) (mholdsV bW) (malloc bW) rfl rfl rfl rfl (by view_facts) (by view_facts)
  (by view_facts) (fun i j _ _ => mvals_valid W i j) fun _ i hi => mvals_A_finite i i hi hi

/-- **C62** not every finite solution comes from finite data: dividing by an infinite diagonal
element gives 0.  The system here is `inf * x = 1`. -/
theorem C62_trsv_infinite_diagonal_false (F : Format) (t : Triangle) :
    ¬ ∀ (A : MatV (FP F)) (B : VecV (FP F)) (X : Vec) (h : Heap (FP F)) (a : Nat → Nat → FP F)
      (b : Nat → FP F), A.HoldsOn h (triRegion t .explicit) a → B.Holds h b → X.Alloc h →
      A.rows = A.cols → A.rows = X.ext → A.rows ≤ B.ext → X.Unique →
      Apart (A.toMat.CellOn (triRegion t .explicit)) X.Cell → B.toVec.Aligned X →
      Ends (trsv (· / ·) A t .explicit B X) h fun _ h' => ∀ i, i < A.rows → ∀ v,
        h' (X.addr i) = some v → v.Finite → (a i i).Finite := by
  intro hall
  let M : Mat := ⟨1, 1, fun _ _ => 0⟩
  let v : Vec := ⟨1, fun _ => 1⟩
  let h : Heap (FP F) := fun c => if c = 0 then some (inf false) else if c = 1 then some 1 else none
  have hA : (M.view : MatV (FP F)).HoldsOn h (triRegion t .explicit) fun _ _ => inf false :=
    fun i j _ _ _ => ⟨inf false, rfl, rfl⟩
  have hB : (v.view : VecV (FP F)).Holds h fun _ => 1 := fun i _ => ⟨1, rfl, rfl⟩
  have hX : v.Alloc h := fun i _ => ⟨1, rfl⟩
  have hu : v.Unique := fun i j hi hj _ => by
    have hi' : i < 1 := hi
    have hj' : j < 1 := hj
    omega
  have hap : Apart ((M.view : MatV (FP F)).toMat.CellOn (triRegion t .explicit)) v.Cell := by
    rintro c ⟨i, j, _, _, _, e⟩ ⟨k, _, e'⟩
    have e1 : (0 : Nat) = c := e
    have e2 : (1 : Nat) = c := e'
    omega
  have hal : (v.view : VecV (FP F)).toVec.Aligned v := fun i j hi hj _ => by
    have hi' : i < 1 := hi
    have hj' : j < 1 := hj
    omega
  have k1 := hall M.view v.view v h _ _ hA hB hX rfl rfl le_rfl hu hap hal
  have k2 := C54_trsv M.view t .explicit v.view v h _ _ hA hB hX rfl rfl le_rfl hu hap hal
  obtain ⟨_, h', _, q1, r, hb, hr⟩ := k1.and k2
  have hr0 := hr 0 Nat.one_pos
  have e0 : r 0 = fin 0 := by
    rw [hr0]
    cases t <;> rfl
  have hget : h' (v.addr 0) = some (r 0) := hb.1 0 Nat.one_pos
  exact q1 0 Nat.one_pos (r 0) hget (by rw [e0]; trivial)

end StdBLAS

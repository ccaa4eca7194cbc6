import Verif.Lemmas.FloatExact
import Verif.Props.EvaluationOrder
import Verif.Props.Blas1Elementwise
import Verif.Props.RankUpdates
import Verif.Props.Givens
import Verif.Props.Accurate

/-!
# Property C70: no rounding errors on integer-valued data

Elements are numbers of a format `F` that has all multiples of a unit `G` up to `N * G`
(`F.Grid N G`): a `double` has all integers up to `2^53`, and all multiples of `2^e` up to
`2^53 * 2^e` (`binary64_grid`).  The inputs are multiples of units `g₁` and `g₂` (`FP.On`); integers
are the case `g₁ = g₂ = 1`.  If the magnitudes of the terms of a result add up to at most
`N * (g₁ * g₂)`, then the result is the exact one (`FP.Exact`, `Spec/FloatExact`).

Nothing is said about the order of the additions, so the same holds for the Kokkos backend
(`Props/KokkosFloatExact`), and on such data the two backends, and all schedules, give the same numbers.
-/

namespace StdBLAS
open Finset Witness FP

namespace Witness
theorem binary64_integers₃ : binary64.Grid (2 ^ 53) (1 * 1 * 1) := by
  rw [mul_one]; exact binary64_integers

/-- 1 is an integer. -/
theorem H1 {P : Prop} (_ : P) : Multiple 1 1 := ⟨1, by simp⟩

theorem int_on (k : ℤ) (h : |k| ≤ 2 ^ 53) : (k : D).On 1 := by
  rw [int_exact k h]; exact ⟨k, by simp⟩
end Witness

/-! ## Vectors -/

/-- **C70** `dot(v1, v2, init)` -/
theorem C70_dot {F : Format} {N : ℕ} {g₁ g₂ : ℝ} (H : F.Grid N (g₁ * g₂)) (v1 v2 : VecV (FP F)) (init : FP F)
    (h : Heap (FP F)) (f g : Nat → FP F) (h1 : v1.Holds h f) (h2 : v2.Holds h g)
    (hext : v1.ext ≤ v2.ext) :
    Ends (dot v1 v2 init) h fun r h' => h' = h ∧
      FP.Exact N (g₁ * g₂)
        (init.On (g₁ * g₂) ∧ ∀ k, k < v1.ext → (f k).On g₁ ∧ (g k).On g₂)
        r
        (init.val + ∑ k ∈ range v1.ext, (f k).val * (g k).val)
        (|init.val| + ∑ k ∈ range v1.ext, |(f k).val| * |(g k).val|) := by
  refine (C54_dot v1 v2 init h f g h1 h2 hext).mono fun r h' hb => ⟨hb.2, ?_⟩
  rw [hb.1]
  exact (ex_products H v1.ext f g _).toExact

/-- `5 + (-7) * 3 + (-6) * 5 + (-5) * 7`, exactly. -/
example : Ends (dot (x.view : VecV D) y.view ((5 : ℤ) : D)) (heap D) fun r _ => r = fin (-81) := by
  refine (C70_dot binary64_integers (x.view : VecV D) y.view ((5 : ℤ) : D) (heap D) _ _ (holdsV bx)
    (holdsV by_) le_rfl).mono fun r _ hb => ?_
  have e : ∀ k : ℤ, |k| ≤ 2 ^ 53 → (k : D).On 1 ∧ (k : D).val = k := fun k hk =>
    ⟨int_on k hk, by rw [int_exact k hk]; rfl⟩
  have hx : ∀ k, k < 3 → (vals D x k).On 1 ∧ (vals D x k).val = (k : ℝ) - 7 := fun k hk => by
    have := e ((k : ℤ) - 7) (by rw [abs_le]; constructor <;> omega)
    exact ⟨this.1, this.2.trans (by push_cast; ring)⟩
  have hy : ∀ k, k < 3 → (vals D y k).On 1 ∧ (vals D y k).val = (10 + 2 * k : ℝ) - 7 := fun k hk => by
    have := e (((10 + 2 * k : ℕ) : ℤ) - 7) (by rw [abs_le]; constructor <;> push_cast <;> omega)
    exact ⟨this.1, this.2.trans (by push_cast; ring)⟩
  have h5 := e 5 (by norm_num)
  have := hb.2 ⟨by rw [mul_one]; exact h5.1, fun k hk => ⟨(hx k hk).1, (hy k hk).1⟩⟩
  change |((5 : ℤ) : D).val| + ∑ k ∈ range 3, |(vals D x k).val| * |(vals D y k).val| ≤ _ →
    r = fin (((5 : ℤ) : D).val + ∑ k ∈ range 3, (vals D x k).val * (vals D y k).val) at this
  simp only [sum_range_succ, sum_range_zero, (hx 0 (by norm_num)).2, (hx 1 (by norm_num)).2,
    (hx 2 (by norm_num)).2, (hy 0 (by norm_num)).2, (hy 1 (by norm_num)).2, (hy 2 (by norm_num)).2,
    h5.2] at this
  norm_num [abs_of_neg, abs_of_pos] at this
  exact this

/-- **C70** `dotc(v1, v2, init)`: for real elements `conj` does nothing -/
theorem C70_dotc {F : Format} {N : ℕ} {g₁ g₂ : ℝ} (H : F.Grid N (g₁ * g₂)) (v1 v2 : VecV (FP F)) (init : FP F)
    (h : Heap (FP F)) (f g : Nat → FP F) (h1 : v1.Holds h f) (h2 : v2.Holds h g)
    (hext : v1.ext ≤ v2.ext) :
    Ends (dotc v1 v2 init) h fun r h' => h' = h ∧
      FP.Exact N (g₁ * g₂)
        (init.On (g₁ * g₂) ∧ ∀ k, k < v1.ext → (f k).On g₁ ∧ (g k).On g₂)
        r
        (init.val + ∑ k ∈ range v1.ext, (f k).val * (g k).val)
        (|init.val| + ∑ k ∈ range v1.ext, |(f k).val| * |(g k).val|) := by
  refine (C54_dotc v1 v2 init h f g h1 h2 hext).mono fun r h' hb => ⟨hb.2, ?_⟩
  rw [hb.1]
  exact (ex_products H v1.ext f g _).toExact

example := C70_dotc binary64_integers (x.view : VecV D) y.view ((5 : ℤ) : D) (heap D) _ _ (holdsV bx)
  (holdsV by_) le_rfl

/-- **C70** `scale(alpha, x)` -/
theorem C70_scale_vector {F : Format} {N : ℕ} {g₁ g₂ : ℝ} (H : F.Grid N (g₁ * g₂)) (alpha : FP F) (x : Vec)
    (h : Heap (FP F)) (f : Nat → FP F) (hx : x.Holds h f) (hu : x.Unique) :
    Ends (scale1 alpha x) h fun _ h' => ∃ r, x.Becomes h h' r ∧ ∀ i, i < x.ext →
      FP.Exact N (g₁ * g₂)
        ((f i).On g₁ ∧ alpha.On g₂)
        (r i)
        ((f i).val * alpha.val)
        (|(f i).val| * |alpha.val|) := by
  refine (C11_scale_vector alpha x h f hx hu).mono fun _ h' hb => ⟨_, hb, fun i hi => ?_⟩
  exact (ex_mul H _ _).toExact

example := C70_scale_vector binary64_integers ((5 : ℤ) : D) y (heap D) _ (holds by_) (by view_facts)

/-- **C70** `scale(alpha, A)` -/
theorem C70_scale_matrix {F : Format} {N : ℕ} {g₁ g₂ : ℝ} (H : F.Grid N (g₁ * g₂)) (alpha : FP F) (A : Mat)
    (h : Heap (FP F)) (f : Nat → Nat → FP F) (hA : A.Holds h f) (hu : A.Unique) :
    Ends (scale2 alpha A) h fun _ h' => ∃ r, A.Becomes h h' r ∧
      ∀ i j, i < A.rows → j < A.cols →
      FP.Exact N (g₁ * g₂)
        ((f i j).On g₁ ∧ alpha.On g₂)
        (r i j)
        ((f i j).val * alpha.val)
        (|(f i j).val| * |alpha.val|) := by
  refine (C11_scale_matrix alpha A h f hA hu).mono fun _ h' hb => ⟨_, hb, fun i j hi hj => ?_⟩
  exact (ex_mul H _ _).toExact

example := C70_scale_matrix binary64_integers ((5 : ℤ) : D) A (heap D) _ (mholds bA) (by view_facts)

/-- **C70** `add(x, y, z)` -/
theorem C70_add_vector {F : Format} {N : ℕ} {G : ℝ} (H : F.Grid N G) (x y : VecV (FP F)) (z : Vec)
    (h : Heap (FP F)) (f g : Nat → FP F) (hx : x.Holds h f) (hy : y.Holds h g) (hz : z.Alloc h)
    (hex : z.ext ≤ x.ext) (hey : z.ext ≤ y.ext) (hu : z.Unique) (hax : x.toVec.Aligned z)
    (hay : y.toVec.Aligned z) :
    Ends (add1 x y z) h fun _ h' => ∃ r, z.Becomes h h' r ∧ ∀ i, i < z.ext →
      FP.Exact N G
        ((f i).On G ∧ (g i).On G)
        (r i)
        ((f i).val + (g i).val)
        (|(f i).val| + |(g i).val|) := by
  refine (C12_add_vector x y z h f g hx hy hz hex hey hu hax hay).mono fun _ h' hb => ⟨_, hb, fun i hi => ?_⟩
  refine (((ex_input _).add H (ex_input _))).toExact

example := C70_add_vector (binary64_grid 0 (by norm_num) (by norm_num)) (x.view : VecV D) y.view z (heap D) _ _ (holdsV bx) (holdsV by_)
  (alloc bz) le_rfl le_rfl (by view_facts) (by view_facts) (by view_facts)

/-- **C70** `add(x, y, z)` for matrices -/
theorem C70_add_matrix {F : Format} {N : ℕ} {G : ℝ} (H : F.Grid N G) (x y : MatV (FP F)) (z : Mat)
    (h : Heap (FP F)) (f g : Nat → Nat → FP F) (hx : x.Holds h f) (hy : y.Holds h g)
    (hz : z.Alloc h) (hr : x.rows = z.rows) (hc : x.cols = z.cols) (hr' : z.rows ≤ y.rows)
    (hc' : z.cols ≤ y.cols) (hu : z.Unique) (hax : x.toMat.Aligned z) (hay : y.toMat.Aligned z) :
    Ends (add2 x y z) h fun _ h' => ∃ r, z.Becomes h h' r ∧
      ∀ i j, i < z.rows → j < z.cols →
      FP.Exact N G
        ((f i j).On G ∧ (g i j).On G)
        (r i j)
        ((f i j).val + (g i j).val)
        (|(f i j).val| + |(g i j).val|) := by
  refine (C12_add_matrix x y z h f g hx hy hz hr hc hr' hc' hu hax hay).mono fun _ h' hb => ⟨_, hb, fun i j hi hj => ?_⟩
  refine (((ex_input _).add H (ex_input _))).toExact

example := C70_add_matrix (binary64_grid 0 (by norm_num) (by norm_num)) (A.view : MatV D) B.view C (heap D) _ _ (mholdsV bA) (mholdsV bB)
  (malloc bC) rfl rfl le_rfl le_rfl (by view_facts) (by view_facts) (by view_facts)

/-- **C70** `apply_givens_rotation(x, y, c, s)` -/
theorem C70_apply_givens {F : Format} {N : ℕ} {g₁ g₂ : ℝ} (H : F.Grid N (g₁ * g₂)) (x y : Vec) (h : Heap (FP F))
    (f g : Nat → FP F) (c s : FP F) (hx : x.Holds h f) (hy : y.Holds h g) (hext : x.ext = y.ext)
    (hux : x.Unique) (huy : y.Unique) (hap : Apart x.Cell y.Cell) :
    Ends (applyGivens x y c s) h fun _ h' => ∃ r r', x.Holds h' r ∧ y.Holds h' r' ∧
      OnlyChanges (fun a => x.Cell a ∨ y.Cell a) h h' ∧ ∀ i, i < x.ext →
      FP.Exact N (g₁ * g₂) ((c.On g₁ ∧ (f i).On g₂) ∧ s.On g₁ ∧ (g i).On g₂) (r i)
        (c.val * (f i).val + s.val * (g i).val) (|c.val| * |(f i).val| + |s.val| * |(g i).val|) ∧
      FP.Exact N (g₁ * g₂) ((c.On g₁ ∧ (g i).On g₂) ∧ s.On g₁ ∧ (f i).On g₂) (r' i)
        (c.val * (g i).val - s.val * (f i).val) (|c.val| * |(g i).val| + |s.val| * |(f i).val|) := by
  refine (C15_apply_givens x y h f g c s hx hy hext hux huy hap).mono fun _ h' hb =>
    ⟨_, _, hb.1, hb.2.1, hb.2.2, fun i _ => ⟨?_, ?_⟩⟩
  · exact (((ex_mul H _ _).add H (ex_mul H _ _))).toExact
  · exact (((ex_mul H _ _).sub H (ex_mul H _ _))).toExact

example := C70_apply_givens binary64_integers x y (heap D) _ _ ((3 : ℤ) : D) ((-2 : ℤ) : D) (holds bx)
  (holds by_) rfl (by view_facts) (by view_facts) (by view_facts)

/-! ## Matrix times vector -/

/-- **C70** `matrix_vector_product(A, x, y)` -/
theorem C70_gemv {F : Format} {N : ℕ} {g₁ g₂ : ℝ} (H : F.Grid N (g₁ * g₂)) (A : MatV (FP F)) (x : VecV (FP F))
    (y : Vec) (h : Heap (FP F)) (a : Nat → Nat → FP F) (f : Nat → FP F) (hA : A.Holds h a)
    (hx : x.Holds h f) (hy : y.Alloc h) (hrows : y.ext = A.rows) (hcols : A.cols ≤ x.ext)
    (hu : y.Unique) (hAy : Apart A.toMat.Cell y.Cell) (hxy : Apart x.toVec.Cell y.Cell) :
    Ends (gemv A x y) h fun _ h' => ∃ r, y.Becomes h h' r ∧ ∀ i, i < y.ext →
      FP.Exact N (g₁ * g₂)
        (∀ k, k < A.cols → (a i k).On g₁ ∧ (f k).On g₂)
        (r i)
        (∑ k ∈ range A.cols, (a i k).val * (f k).val)
        (∑ k ∈ range A.cols, |(a i k).val| * |(f k).val|) := by
  refine (C54_gemv A x y h a f hA hx hy hrows hcols hu hAy hxy).mono fun _ h' hb => ⟨_, hb, fun i hi => ?_⟩
  exact (ex_products_zero H A.cols (a i) f).toExact

example := C70_gemv binary64_integers (A.view : MatV D) x.view y (heap D) _ _ (mholdsV bA) (holdsV bx) (alloc by_)
  rfl le_rfl (by view_facts) (by view_facts) (by view_facts)

/-- **C70** `matrix_vector_product(A, x, y, z)` -/
theorem C70_gemv_update {F : Format} {N : ℕ} {g₁ g₂ : ℝ} (H : F.Grid N (g₁ * g₂)) (A : MatV (FP F))
    (x y : VecV (FP F)) (z : Vec) (h : Heap (FP F)) (a : Nat → Nat → FP F) (f g : Nat → FP F)
    (hA : A.Holds h a) (hx : x.Holds h f) (hy : y.Holds h g) (hz : z.Alloc h)
    (hrows : z.ext = A.rows) (hcols : A.cols ≤ x.ext) (hye : A.rows ≤ y.ext) (hu : z.Unique)
    (hAz : Apart A.toMat.Cell z.Cell) (hxz : Apart x.toVec.Cell z.Cell) (hyz : y.toVec.Aligned z) :
    Ends (gemvUpdate A x y z) h fun _ h' => ∃ r, z.Becomes h h' r ∧ ∀ i, i < z.ext →
      FP.Exact N (g₁ * g₂)
        ((g i).On (g₁ * g₂) ∧ ∀ k, k < A.cols → (a i k).On g₁ ∧ (f k).On g₂)
        (r i)
        ((g i).val + ∑ k ∈ range A.cols, (a i k).val * (f k).val)
        (|(g i).val| + ∑ k ∈ range A.cols, |(a i k).val| * |(f k).val|) := by
  refine (C54_gemv_update A x y z h a f g hA hx hy hz hrows hcols hye hu hAz hxz hyz).mono fun _ h' hb => ⟨_, hb, fun i hi => ?_⟩
  exact (ex_products H A.cols (a i) f _).toExact

example := C70_gemv_update binary64_integers (A.view : MatV D) x.view y.view y (heap D) _ _ _ (mholdsV bA) (holdsV bx)
  (holdsV by_) (alloc by_) rfl le_rfl le_rfl (by view_facts) (by view_facts) (by view_facts)
  (by view_facts)

/-- **C70** `symmetric_matrix_vector_product(A, t, x, y)` -/
theorem C70_symv {F : Format} {N : ℕ} {g₁ g₂ : ℝ} (H : F.Grid N (g₁ * g₂)) (A : MatV (FP F)) (t : Triangle)
    (x : VecV (FP F)) (y : Vec) (h : Heap (FP F)) (a : Nat → Nat → FP F) (f : Nat → FP F)
    (hA : A.HoldsOn h t.region a) (hx : x.Holds h f) (hy : y.Alloc h) (hsq : A.rows = A.cols)
    (hext : A.rows = y.ext) (hxe : A.cols ≤ x.ext) (hu : y.Unique)
    (hAy : Apart (A.toMat.CellOn t.region) y.Cell) (hxy : Apart x.toVec.Cell y.Cell) :
    Ends (symv A t x y) h fun _ h' => ∃ r, y.Becomes h h' r ∧ ∀ i, i < y.ext →
      FP.Exact N (g₁ * g₂)
        (∀ k, k < A.cols → (symOf t a i k).On g₁ ∧ (f k).On g₂)
        (r i)
        (∑ k ∈ range A.cols, (symOf t a i k).val * (f k).val)
        (∑ k ∈ range A.cols, |(symOf t a i k).val| * |(f k).val|) := by
  refine (C54_symv A t x y h a f hA hx hy hsq hext hxe hu hAy hxy).mono fun _ h' hb => ⟨_, hb, fun i hi => ?_⟩
  exact (ex_products_zero H A.cols (symOf t a i) f).toExact

example (t : Triangle) := C70_symv binary64_integers (A.view : MatV D) t x.view y (heap D) _ _ (mholdsV bA) (holdsV bx)
  (alloc by_) rfl rfl le_rfl (by view_facts) (by view_facts) (by view_facts)

/-- **C70** `symmetric_matrix_vector_product(A, t, x, y, z)` -/
theorem C70_symv_update {F : Format} {N : ℕ} {g₁ g₂ : ℝ} (H : F.Grid N (g₁ * g₂)) (A : MatV (FP F)) (t : Triangle)
    (x y : VecV (FP F)) (z : Vec) (h : Heap (FP F)) (a : Nat → Nat → FP F) (f g : Nat → FP F)
    (hA : A.HoldsOn h t.region a) (hx : x.Holds h f) (hy : y.Holds h g) (hz : z.Alloc h)
    (hsq : A.rows = A.cols) (hext : A.rows = z.ext) (hxe : A.cols ≤ x.ext) (hye : A.rows ≤ y.ext)
    (hu : z.Unique) (hAz : Apart (A.toMat.CellOn t.region) z.Cell)
    (hxz : Apart x.toVec.Cell z.Cell) (hyz : y.toVec.Aligned z) :
    Ends (symvUpdate A t x y z) h fun _ h' => ∃ r, z.Becomes h h' r ∧ ∀ i, i < z.ext →
      FP.Exact N (g₁ * g₂)
        ((g i).On (g₁ * g₂) ∧ ∀ k, k < A.cols → (symOf t a i k).On g₁ ∧ (f k).On g₂)
        (r i)
        ((g i).val + ∑ k ∈ range A.cols, (symOf t a i k).val * (f k).val)
        (|(g i).val| + ∑ k ∈ range A.cols, |(symOf t a i k).val| * |(f k).val|) := by
  refine (C54_symv_update A t x y z h a f g hA hx hy hz hsq hext hxe hye hu hAz hxz hyz).mono fun _ h' hb => ⟨_, hb, fun i hi => ?_⟩
  exact (ex_products H A.cols (symOf t a i) f _).toExact

example (t : Triangle) := C70_symv_update binary64_integers (A.view : MatV D) t x.view y.view y (heap D) _ _ _
  (mholdsV bA) (holdsV bx) (holdsV by_) (alloc by_) rfl rfl le_rfl le_rfl (by view_facts)
  (by view_facts) (by view_facts) (by view_facts)

/-- **C70** `hermitian_matrix_vector_product(A, t, x, y)` -/
theorem C70_hemv {F : Format} {N : ℕ} {g₁ g₂ : ℝ} (H : F.Grid N (g₁ * g₂)) (A : MatV (FP F)) (t : Triangle)
    (x : VecV (FP F)) (y : Vec) (h : Heap (FP F)) (a : Nat → Nat → FP F) (f : Nat → FP F)
    (hA : A.HoldsOn h t.region a) (hx : x.Holds h f) (hy : y.Alloc h) (hsq : A.rows = A.cols)
    (hext : A.rows = y.ext) (hxe : A.cols ≤ x.ext) (hu : y.Unique)
    (hAy : Apart (A.toMat.CellOn t.region) y.Cell) (hxy : Apart x.toVec.Cell y.Cell) :
    Ends (hemv A t x y) h fun _ h' => ∃ r, y.Becomes h h' r ∧ ∀ i, i < y.ext →
      FP.Exact N (g₁ * g₂)
        (∀ k, k < A.cols → (hermOf t a i k).On g₁ ∧ (f k).On g₂)
        (r i)
        (∑ k ∈ range A.cols, (hermOf t a i k).val * (f k).val)
        (∑ k ∈ range A.cols, |(hermOf t a i k).val| * |(f k).val|) := by
  refine (C54_hemv A t x y h a f hA hx hy hsq hext hxe hu hAy hxy).mono fun _ h' hb => ⟨_, hb, fun i hi => ?_⟩
  exact (ex_products_zero H A.cols (hermOf t a i) f).toExact

example (t : Triangle) := C70_hemv binary64_integers (A.view : MatV D) t x.view y (heap D) _ _ (mholdsV bA) (holdsV bx)
  (alloc by_) rfl rfl le_rfl (by view_facts) (by view_facts) (by view_facts)

/-- **C70** `hermitian_matrix_vector_product(A, t, x, y, z)` -/
theorem C70_hemv_update {F : Format} {N : ℕ} {g₁ g₂ : ℝ} (H : F.Grid N (g₁ * g₂)) (A : MatV (FP F)) (t : Triangle)
    (x y : VecV (FP F)) (z : Vec) (h : Heap (FP F)) (a : Nat → Nat → FP F) (f g : Nat → FP F)
    (hA : A.HoldsOn h t.region a) (hx : x.Holds h f) (hy : y.Holds h g) (hz : z.Alloc h)
    (hsq : A.rows = A.cols) (hext : A.rows = z.ext) (hxe : A.cols ≤ x.ext) (hye : A.rows ≤ y.ext)
    (hu : z.Unique) (hAz : Apart (A.toMat.CellOn t.region) z.Cell)
    (hxz : Apart x.toVec.Cell z.Cell) (hyz : y.toVec.Aligned z) :
    Ends (hemvUpdate A t x y z) h fun _ h' => ∃ r, z.Becomes h h' r ∧ ∀ i, i < z.ext →
      FP.Exact N (g₁ * g₂)
        ((g i).On (g₁ * g₂) ∧ ∀ k, k < A.cols → (hermOf t a i k).On g₁ ∧ (f k).On g₂)
        (r i)
        ((g i).val + ∑ k ∈ range A.cols, (hermOf t a i k).val * (f k).val)
        (|(g i).val| + ∑ k ∈ range A.cols, |(hermOf t a i k).val| * |(f k).val|) := by
  refine (C54_hemv_update A t x y z h a f g hA hx hy hz hsq hext hxe hye hu hAz hxz hyz).mono fun _ h' hb => ⟨_, hb, fun i hi => ?_⟩
  exact (ex_products H A.cols (hermOf t a i) f _).toExact

example (t : Triangle) := C70_hemv_update binary64_integers (A.view : MatV D) t x.view y.view y (heap D) _ _ _
  (mholdsV bA) (holdsV bx) (holdsV by_) (alloc by_) rfl rfl le_rfl le_rfl (by view_facts)
  (by view_facts) (by view_facts) (by view_facts)

/-- **C70** `triangular_matrix_vector_product(A, t, d, x, y)` -/
theorem C70_trmv {F : Format} {N : ℕ} {g₁ g₂ : ℝ} (H : F.Grid N (g₁ * g₂)) (A : MatV (FP F)) (t : Triangle) (d : Diag)
    (x : VecV (FP F)) (y : Vec) (h : Heap (FP F)) (a : Nat → Nat → FP F) (f : Nat → FP F)
    (hA : A.HoldsOn h (triRegion t d) a) (hx : x.Holds h f) (hy : y.Alloc h)
    (hsq : A.rows = A.cols) (hext : A.rows = y.ext) (hxe : A.cols ≤ x.ext) (hu : y.Unique)
    (hAy : Apart (A.toMat.CellOn (triRegion t d)) y.Cell) (hxy : Apart x.toVec.Cell y.Cell)
    (h1 : d = .implicitUnit → Multiple g₁ 1) :
    Ends (trmv A t d x y) h fun _ h' => ∃ r, y.Becomes h h' r ∧ ∀ i, i < y.ext →
      FP.Exact N (g₁ * g₂)
        (∀ k, k < A.cols → t.region i k → (f k).On g₂ ∧ (triRegion t d i k → (a i k).On g₁))
        (r i)
        (∑ k ∈ range A.cols, triOf t d (fun i j => (a i j).val) i k * (f k).val)
        (∑ k ∈ range A.cols, |triOf t d (fun i j => (a i j).val) i k| * |(f k).val|) := by
  refine (C54_trmv A t d x y h a f hA hx hy hsq hext hxe hu hAy hxy).mono fun _ h' hb => ⟨_, hb, fun i hi => ?_⟩
  exact ((ex_triSeq H t d h1 a f _ (by omega)).from_zero).toExact

example (t : Triangle) (d : Diag) := C70_trmv binary64_integers (A.view : MatV D) t d x.view y (heap D) _ _ (mholdsV bA)
  (holdsV bx) (alloc by_) rfl rfl le_rfl (by view_facts) (by view_facts) (by view_facts) H1

/-- **C70** `triangular_matrix_vector_product(A, t, d, x, y, z)` -/
theorem C70_trmv_update {F : Format} {N : ℕ} {g₁ g₂ : ℝ} (H : F.Grid N (g₁ * g₂)) (A : MatV (FP F)) (t : Triangle)
    (d : Diag) (x y : VecV (FP F)) (z : Vec) (h : Heap (FP F)) (a : Nat → Nat → FP F)
    (f g : Nat → FP F) (hA : A.HoldsOn h (triRegion t d) a) (hx : x.Holds h f) (hy : y.Holds h g)
    (hz : z.Alloc h) (hsq : A.rows = A.cols) (hext : A.rows = z.ext) (hxe : A.cols ≤ x.ext)
    (hye : A.rows ≤ y.ext) (hu : z.Unique) (hAz : Apart (A.toMat.CellOn (triRegion t d)) z.Cell)
    (hxz : Apart x.toVec.Cell z.Cell) (hyz : y.toVec.Aligned z)
    (h1 : d = .implicitUnit → Multiple g₁ 1) :
    Ends (trmvUpdate A t d x y z) h fun _ h' => ∃ r, z.Becomes h h' r ∧ ∀ i, i < z.ext →
      FP.Exact N (g₁ * g₂)
        ((g i).On (g₁ * g₂) ∧ ∀ k, k < A.cols → t.region i k → (f k).On g₂ ∧ (triRegion t d i k → (a i k).On g₁))
        (r i)
        ((g i).val + ∑ k ∈ range A.cols, triOf t d (fun i j => (a i j).val) i k * (f k).val)
        (|(g i).val| + ∑ k ∈ range A.cols, |triOf t d (fun i j => (a i j).val) i k| * |(f k).val|) := by
  refine (C54_trmv_update A t d x y z h a f g hA hx hy hz hsq hext hxe hye hu hAz hxz hyz).mono fun _ h' hb => ⟨_, hb, fun i hi => ?_⟩
  exact (ex_triSeq H t d h1 a f _ (by omega)).toExact

example (t : Triangle) (d : Diag) := C70_trmv_update binary64_integers (A.view : MatV D) t d x.view y.view y (heap D)
  _ _ _ (mholdsV bA) (holdsV bx) (holdsV by_) (alloc by_) rfl rfl le_rfl le_rfl (by view_facts)
  (by view_facts) (by view_facts) (by view_facts) H1

/-- **C70** `triangular_matrix_vector_product(A, t, d, y)`, in place -/
theorem C70_trmv_in_place {F : Format} {N : ℕ} {g₁ g₂ : ℝ} (H : F.Grid N (g₁ * g₂)) (A : MatV (FP F)) (t : Triangle)
    (d : Diag) (y : Vec) (h : Heap (FP F)) (a : Nat → Nat → FP F) (f : Nat → FP F)
    (hA : A.HoldsOn h (triRegion t d) a) (hy : y.Holds h f) (hsq : A.rows = A.cols)
    (hext : A.rows = y.ext) (hu : y.Unique) (hAy : Apart (A.toMat.CellOn (triRegion t d)) y.Cell)
    (h1 : d = .implicitUnit → Multiple g₁ 1) :
    Ends (trmvInPlace A t d y) h fun _ h' => ∃ r, y.Becomes h h' r ∧ ∀ i, i < y.ext →
      FP.Exact N (g₁ * g₂)
        (∀ k, k < A.cols → t.region i k → (f k).On g₂ ∧ (triRegion t d i k → (a i k).On g₁))
        (r i)
        (∑ k ∈ range A.cols, triOf t d (fun i j => (a i j).val) i k * (f k).val)
        (∑ k ∈ range A.cols, |triOf t d (fun i j => (a i j).val) i k| * |(f k).val|) := by
  refine (C54_trmv_in_place A t d y h a f hA hy hsq hext hu hAy).mono fun _ h' hb => ⟨_, hb, fun i hi => ?_⟩
  refine (ex_triSeqInPlace H t d h1 a f (by omega) ?_).toExact
  rw [mul_comm' (f i)]

example (t : Triangle) (d : Diag) := C70_trmv_in_place binary64_integers (A.view : MatV D) t d y (heap D) _ _ (mholdsV bA)
  (holds by_) rfl rfl (by view_facts) (by view_facts) H1

/-! ## Matrix times matrix -/

/-- **C70** `matrix_product(A, B, C)` -/
theorem C70_gemm {F : Format} {N : ℕ} {g₁ g₂ : ℝ} (H : F.Grid N (g₁ * g₂)) (A B : MatV (FP F)) (C : Mat)
    (h : Heap (FP F)) (a b : Nat → Nat → FP F) (hA : A.Holds h a) (hB : B.Holds h b)
    (hC : C.Alloc h) (hr : C.rows = A.rows) (hk : A.cols = B.rows) (hc : C.cols = B.cols)
    (hu : C.Unique) (hAC : Apart A.toMat.Cell C.Cell) (hBC : Apart B.toMat.Cell C.Cell) :
    Ends (gemm A B C) h fun _ h' => ∃ r, C.Becomes h h' r ∧
      ∀ i j, i < C.rows → j < C.cols →
      FP.Exact N (g₁ * g₂)
        (∀ k, k < A.cols → (a i k).On g₁ ∧ (b k j).On g₂)
        (r i j)
        (∑ k ∈ range A.cols, (a i k).val * (b k j).val)
        (∑ k ∈ range A.cols, |(a i k).val| * |(b k j).val|) := by
  refine (C54_gemm A B C h a b hA hB hC hr hk hc hu hAC hBC).mono fun _ h' hb => ⟨_, hb, fun i j hi hj => ?_⟩
  exact (ex_products_zero H A.cols (a i) (fun k => b k j)).toExact

example := C70_gemm binary64_integers (T.view : MatV D) W.view C (heap D) _ _ (mholdsV bT) (mholdsV bW) (malloc bC)
  rfl rfl rfl (by view_facts) (by view_facts) (by view_facts)

/-- **C70** `matrix_product(A, B, E, C)` -/
theorem C70_gemm_update {F : Format} {N : ℕ} {g₁ g₂ : ℝ} (H : F.Grid N (g₁ * g₂)) (A B E : MatV (FP F)) (C : Mat)
    (h : Heap (FP F)) (a b e : Nat → Nat → FP F) (hA : A.Holds h a) (hB : B.Holds h b)
    (hE : E.Holds h e) (hC : C.Alloc h) (hr : C.rows = A.rows) (hk : A.cols = B.rows)
    (hc : C.cols = B.cols) (her : C.rows ≤ E.rows) (hec : C.cols ≤ E.cols) (hu : C.Unique)
    (hAC : Apart A.toMat.Cell C.Cell) (hBC : Apart B.toMat.Cell C.Cell) (hEC : E.toMat.Aligned C) :
    Ends (gemmUpdate A B E C) h fun _ h' => ∃ r, C.Becomes h h' r ∧
      ∀ i j, i < C.rows → j < C.cols →
      FP.Exact N (g₁ * g₂)
        ((e i j).On (g₁ * g₂) ∧ ∀ k, k < A.cols → (a i k).On g₁ ∧ (b k j).On g₂)
        (r i j)
        ((e i j).val + ∑ k ∈ range A.cols, (a i k).val * (b k j).val)
        (|(e i j).val| + ∑ k ∈ range A.cols, |(a i k).val| * |(b k j).val|) := by
  refine (C54_gemm_update A B E C h a b e hA hB hE hC hr hk hc her hec hu hAC hBC hEC).mono fun _ h' hb => ⟨_, hb, fun i j hi hj => ?_⟩
  exact (ex_products H A.cols (a i) (fun k => b k j) _).toExact

example := C70_gemm_update binary64_integers (T.view : MatV D) W.view C.view C (heap D) _ _ _ (mholdsV bT) (mholdsV bW)
  (mholdsV bC) (malloc bC) rfl rfl rfl le_rfl le_rfl (by view_facts) (by view_facts) (by view_facts)
  (by view_facts)

/-- **C70** `symmetric_matrix_product(A, t, B, C)` -/
theorem C70_symm_left {F : Format} {N : ℕ} {g₁ g₂ : ℝ} (H : F.Grid N (g₁ * g₂)) (A : MatV (FP F)) (t : Triangle)
    (B : MatV (FP F)) (C : Mat) (h : Heap (FP F)) (a b : Nat → Nat → FP F)
    (hA : A.HoldsOn h t.region a) (hB : B.Holds h b) (hC : C.Alloc h) (hsq : A.rows = A.cols)
    (hr : C.rows = A.rows) (hk : A.cols = B.rows) (hc : C.cols = B.cols) (hu : C.Unique)
    (hAC : Apart (A.toMat.CellOn t.region) C.Cell) (hBC : Apart B.toMat.Cell C.Cell) :
    Ends (symmLeft A t B C) h fun _ h' => ∃ r, C.Becomes h h' r ∧
      ∀ i j, i < C.rows → j < C.cols →
      FP.Exact N (g₁ * g₂)
        (∀ k, k < A.cols → (symOf t a i k).On g₁ ∧ (b k j).On g₂)
        (r i j)
        (∑ k ∈ range A.cols, (symOf t a i k).val * (b k j).val)
        (∑ k ∈ range A.cols, |(symOf t a i k).val| * |(b k j).val|) := by
  refine (C54_symm_left A t B C h a b hA hB hC hsq hr hk hc hu hAC hBC).mono fun _ h' hb => ⟨_, hb, fun i j hi hj => ?_⟩
  exact (ex_products_zero H A.cols (symOf t a i) (fun k => b k j)).toExact

example (t : Triangle) := C70_symm_left binary64_integers (A.view : MatV D) t T.view ⟨3, 2, C.addr⟩ (heap D) _ _
  (mholdsV bA) (mholdsV bT) (malloc fun i j hi hj => bC i j hi (by simp only [C] at *; omega)) rfl rfl rfl
  rfl (by view_facts) (by view_facts) (by view_facts)

/-- **C70** `symmetric_matrix_product(B, A, t, C)` -/
theorem C70_symm_right {F : Format} {N : ℕ} {g₁ g₂ : ℝ} (H : F.Grid N (g₁ * g₂)) (A : MatV (FP F)) (t : Triangle)
    (B : MatV (FP F)) (C : Mat) (h : Heap (FP F)) (a b : Nat → Nat → FP F)
    (hA : A.HoldsOn h t.region a) (hB : B.Holds h b) (hC : C.Alloc h) (hsq : A.rows = A.cols)
    (hr : C.rows = B.rows) (hk : B.cols = A.rows) (hc : C.cols = A.cols) (hu : C.Unique)
    (hAC : Apart (A.toMat.CellOn t.region) C.Cell) (hBC : Apart B.toMat.Cell C.Cell) :
    Ends (symmRight B A t C) h fun _ h' => ∃ r, C.Becomes h h' r ∧
      ∀ i j, i < C.rows → j < C.cols →
      FP.Exact N (g₁ * g₂)
        (∀ k, k < A.cols → (b i k).On g₁ ∧ (symOf t a k j).On g₂)
        (r i j)
        (∑ k ∈ range A.cols, (b i k).val * (symOf t a k j).val)
        (∑ k ∈ range A.cols, |(b i k).val| * |(symOf t a k j).val|) := by
  refine (C54_symm_right A t B C h a b hA hB hC hsq hr hk hc hu hAC hBC).mono fun _ h' hb => ⟨_, hb, fun i j hi hj => ?_⟩
  exact (ex_products_zero H A.cols (b i) (fun k => symOf t a k j)).toExact

example (t : Triangle) := C70_symm_right binary64_integers (A.view : MatV D) t W.view ⟨2, 3, C.addr⟩ (heap D) _ _
  (mholdsV bA) (mholdsV bW) (malloc fun i j hi hj => bC i j (by simp only [C] at *; omega) hj) rfl rfl rfl
  rfl (by view_facts) (by view_facts) (by view_facts)

/-- **C70** `hermitian_matrix_product(A, t, B, C)` -/
theorem C70_hemm_left {F : Format} {N : ℕ} {g₁ g₂ : ℝ} (H : F.Grid N (g₁ * g₂)) (A : MatV (FP F)) (t : Triangle)
    (B : MatV (FP F)) (C : Mat) (h : Heap (FP F)) (a b : Nat → Nat → FP F)
    (hA : A.HoldsOn h t.region a) (hB : B.Holds h b) (hC : C.Alloc h) (hsq : A.rows = A.cols)
    (hr : C.rows = A.rows) (hk : A.cols = B.rows) (hc : C.cols = B.cols) (hu : C.Unique)
    (hAC : Apart (A.toMat.CellOn t.region) C.Cell) (hBC : Apart B.toMat.Cell C.Cell) :
    Ends (hemmLeft A t B C) h fun _ h' => ∃ r, C.Becomes h h' r ∧
      ∀ i j, i < C.rows → j < C.cols →
      FP.Exact N (g₁ * g₂)
        (∀ k, k < A.cols → (hermOf t a i k).On g₁ ∧ (b k j).On g₂)
        (r i j)
        (∑ k ∈ range A.cols, (hermOf t a i k).val * (b k j).val)
        (∑ k ∈ range A.cols, |(hermOf t a i k).val| * |(b k j).val|) := by
  refine (C54_hemm_left A t B C h a b hA hB hC hsq hr hk hc hu hAC hBC).mono fun _ h' hb => ⟨_, hb, fun i j hi hj => ?_⟩
  exact (ex_products_zero H A.cols (hermOf t a i) (fun k => b k j)).toExact

example (t : Triangle) := C70_hemm_left binary64_integers (A.view : MatV D) t T.view ⟨3, 2, C.addr⟩ (heap D) _ _
  (mholdsV bA) (mholdsV bT) (malloc fun i j hi hj => bC i j hi (by simp only [C] at *; omega)) rfl rfl rfl
  rfl (by view_facts) (by view_facts) (by view_facts)

/-- **C70** `hermitian_matrix_product(B, A, t, C)` -/
theorem C70_hemm_right {F : Format} {N : ℕ} {g₁ g₂ : ℝ} (H : F.Grid N (g₁ * g₂)) (A : MatV (FP F)) (t : Triangle)
    (B : MatV (FP F)) (C : Mat) (h : Heap (FP F)) (a b : Nat → Nat → FP F)
    (hA : A.HoldsOn h t.region a) (hB : B.Holds h b) (hC : C.Alloc h) (hsq : A.rows = A.cols)
    (hr : C.rows = B.rows) (hk : B.cols = A.rows) (hc : C.cols = A.cols) (hu : C.Unique)
    (hAC : Apart (A.toMat.CellOn t.region) C.Cell) (hBC : Apart B.toMat.Cell C.Cell) :
    Ends (hemmRight B A t C) h fun _ h' => ∃ r, C.Becomes h h' r ∧
      ∀ i j, i < C.rows → j < C.cols →
      FP.Exact N (g₁ * g₂)
        (∀ k, k < A.cols → (b i k).On g₁ ∧ (if k = j then a j j else hermOf t a k j).On g₂)
        (r i j)
        (∑ k ∈ range A.cols, (b i k).val * (if k = j then a j j else hermOf t a k j).val)
        (∑ k ∈ range A.cols, |(b i k).val| * |(if k = j then a j j else hermOf t a k j).val|) := by
  refine (C54_hemm_right A t B C h a b hA hB hC hsq hr hk hc hu hAC hBC).mono fun _ h' hb => ⟨_, hb, fun i j hi hj => ?_⟩
  exact (ex_products_zero H A.cols (b i) (fun k => if k = j then a j j else hermOf t a k j)).toExact

example (t : Triangle) := C70_hemm_right binary64_integers (A.view : MatV D) t W.view ⟨2, 3, C.addr⟩ (heap D) _ _
  (mholdsV bA) (mholdsV bW) (malloc fun i j hi hj => bC i j (by simp only [C] at *; omega) hj) rfl rfl rfl
  rfl (by view_facts) (by view_facts) (by view_facts)

/-- **C70** `triangular_matrix_product(A, t, d, B, C)` -/
theorem C70_trmm_left {F : Format} {N : ℕ} {g₁ g₂ : ℝ} (H : F.Grid N (g₁ * g₂)) (A : MatV (FP F)) (t : Triangle)
    (d : Diag) (B : MatV (FP F)) (C : Mat) (h : Heap (FP F)) (a b : Nat → Nat → FP F)
    (hA : A.HoldsOn h (triRegion t d) a) (hB : B.Holds h b) (hC : C.Alloc h)
    (hsq : A.rows = A.cols) (hr : C.rows = A.rows) (hk : A.cols = B.rows) (hc : C.cols = B.cols)
    (hu : C.Unique) (hAC : Apart (A.toMat.CellOn (triRegion t d)) C.Cell)
    (hBC : Apart B.toMat.Cell C.Cell)
    (h1 : d = .implicitUnit → Multiple g₁ 1) :
    Ends (trmmLeft A t d B C) h fun _ h' => ∃ r, C.Becomes h h' r ∧
      ∀ i j, i < C.rows → j < C.cols →
      FP.Exact N (g₁ * g₂)
        (∀ k, k < A.cols → t.region i k → (b k j).On g₂ ∧ (triRegion t d i k → (a i k).On g₁))
        (r i j)
        (∑ k ∈ range A.cols, triOf t d (fun i j => (a i j).val) i k * (b k j).val)
        (∑ k ∈ range A.cols, |triOf t d (fun i j => (a i j).val) i k| * |(b k j).val|) := by
  refine (C54_trmm_left A t d B C h a b hA hB hC hsq hr hk hc hu hAC hBC).mono fun _ h' hb => ⟨_, hb, fun i j hi hj => ?_⟩
  exact (ex_triLeft H t d h1 a (fun k => b k j) 0 hsq (by omega)).from_zero.toExact

example (t : Triangle) (d : Diag) := C70_trmm_left binary64_integers (A.view : MatV D) t d T.view ⟨3, 2, C.addr⟩ (heap D) _ _
  (mholdsV bA) (mholdsV bT) (malloc fun i j hi hj => bC i j hi (by simp only [C] at *; omega)) rfl rfl rfl
  rfl (by view_facts) (by view_facts) (by view_facts) H1

/-- **C70** `triangular_matrix_product(B, A, t, d, C)` -/
theorem C70_trmm_right {F : Format} {N : ℕ} {g₁ g₂ : ℝ} (H : F.Grid N (g₁ * g₂)) (A : MatV (FP F)) (t : Triangle)
    (d : Diag) (B : MatV (FP F)) (C : Mat) (h : Heap (FP F)) (a b : Nat → Nat → FP F)
    (hA : A.HoldsOn h (triRegion t d) a) (hB : B.Holds h b) (hC : C.Alloc h)
    (hsq : A.rows = A.cols) (hr : C.rows = B.rows) (hk : B.cols = A.rows) (hc : C.cols = A.cols)
    (hu : C.Unique) (hAC : Apart (A.toMat.CellOn (triRegion t d)) C.Cell)
    (hBC : Apart B.toMat.Cell C.Cell)
    (h1 : d = .implicitUnit → Multiple g₂ 1) :
    Ends (trmmRight B A t d C) h fun _ h' => ∃ r, C.Becomes h h' r ∧
      ∀ i j, i < C.rows → j < C.cols →
      FP.Exact N (g₁ * g₂)
        (∀ k, k < A.cols → t.region k j → (b i k).On g₁ ∧ (triRegion t d k j → (a k j).On g₂))
        (r i j)
        (∑ k ∈ range A.cols, (b i k).val * triOf t d (fun i j => (a i j).val) k j)
        (∑ k ∈ range A.cols, |(b i k).val| * |triOf t d (fun i j => (a i j).val) k j|) := by
  refine (C54_trmm_right A t d B C h a b hA hB hC hsq hr hk hc hu hAC hBC).mono fun _ h' hb => ⟨_, hb, fun i j hi hj => ?_⟩
  exact (ex_triRight H t d h1 a (b i) 0 hsq (by omega)).from_zero.toExact

example (t : Triangle) (d : Diag) := C70_trmm_right binary64_integers (A.view : MatV D) t d W.view ⟨2, 3, C.addr⟩ (heap D) _ _
  (mholdsV bA) (mholdsV bW) (malloc fun i j hi hj => bC i j (by simp only [C] at *; omega) hj) rfl rfl rfl
  rfl (by view_facts) (by view_facts) (by view_facts) H1

/-- **C70** `triangular_matrix_left_product(A, t, d, C)`, in place -/
theorem C70_trmm_left_in_place {F : Format} {N : ℕ} {g₁ g₂ : ℝ} (H : F.Grid N (g₁ * g₂)) (A : MatV (FP F))
    (t : Triangle) (d : Diag) (C : Mat) (h : Heap (FP F)) (a c : Nat → Nat → FP F)
    (hA : A.HoldsOn h (triRegion t d) a) (hC : C.Holds h c) (hsq : A.rows = A.cols)
    (hr : C.rows = A.rows) (hu : C.Unique) (hAC : Apart (A.toMat.CellOn (triRegion t d)) C.Cell)
    (h1 : d = .implicitUnit → Multiple g₁ 1) :
    Ends (trmmLeftInPlace A t d C) h fun _ h' => ∃ r, C.Becomes h h' r ∧
      ∀ i j, i < C.rows → j < C.cols →
      FP.Exact N (g₁ * g₂)
        (∀ k, k < A.cols → t.region i k → (c k j).On g₂ ∧ (triRegion t d i k → (a i k).On g₁))
        (r i j)
        (∑ k ∈ range A.cols, triOf t d (fun i j => (a i j).val) i k * (c k j).val)
        (∑ k ∈ range A.cols, |triOf t d (fun i j => (a i j).val) i k| * |(c k j).val|) := by
  refine (C54_trmm_left_in_place A t d C h a c hA hC hsq hr hu hAC).mono fun _ h' hb => ⟨_, hb, fun i j hi hj => ?_⟩
  exact (ex_triSeqInPlace H t d h1 a (fun k => c k j) (by omega) rfl).toExact

example (t : Triangle) (d : Diag) := C70_trmm_left_in_place binary64_integers (A.view : MatV D) t d T (heap D) _ _ (mholdsV bA)
  (mholds bT) rfl rfl (by view_facts) (by view_facts) H1

/-- **C70** `triangular_matrix_right_product(A, t, d, C)`, in place -/
theorem C70_trmm_right_in_place {F : Format} {N : ℕ} {g₁ g₂ : ℝ} (H : F.Grid N (g₁ * g₂)) (A : MatV (FP F))
    (t : Triangle) (d : Diag) (C : Mat) (h : Heap (FP F)) (a c : Nat → Nat → FP F)
    (hA : A.HoldsOn h (triRegion t d) a) (hC : C.Holds h c) (hsq : A.rows = A.cols)
    (hr : C.cols = A.cols) (hu : C.Unique) (hAC : Apart (A.toMat.CellOn (triRegion t d)) C.Cell)
    (h1 : d = .implicitUnit → Multiple g₂ 1) :
    Ends (trmmRightInPlace A t d C) h fun _ h' => ∃ r, C.Becomes h h' r ∧
      ∀ i j, i < C.rows → j < C.cols →
      FP.Exact N (g₁ * g₂)
        (∀ k, k < A.cols → t.region k j → (c i k).On g₁ ∧ (triRegion t d k j → (a k j).On g₂))
        (r i j)
        (∑ k ∈ range A.cols, (c i k).val * triOf t d (fun i j => (a i j).val) k j)
        (∑ k ∈ range A.cols, |(c i k).val| * |triOf t d (fun i j => (a i j).val) k j|) := by
  refine (C54_trmm_right_in_place A t d C h a c hA hC hsq hr hu hAC).mono fun _ h' hb => ⟨_, hb, fun i j hi hj => ?_⟩
  cases t
  · exact (ex_triRightInPlace_upper H d h1 a (c i) (by omega)).toExact
  · exact (ex_triRightInPlace_lower H d h1 a (c i) (by omega)).toExact

example (t : Triangle) (d : Diag) := C70_trmm_right_in_place binary64_integers (A.view : MatV D) t d W (heap D) _ _ (mholdsV bA)
  (mholds bW) rfl rfl (by view_facts) (by view_facts) H1

/-! ## Rank updates -/

/-- **C70** `matrix_rank_1_update(x, y, A)` -/
theorem C70_ger {F : Format} {N : ℕ} {g₁ g₂ : ℝ} (H : F.Grid N (g₁ * g₂)) (x y : VecV (FP F)) (A : Mat)
    (h : Heap (FP F)) (f g : Nat → FP F) (a : Nat → Nat → FP F) (hx : x.Holds h f)
    (hy : y.Holds h g) (hA : A.Holds h a) (hxe : A.rows ≤ x.ext) (hye : A.cols ≤ y.ext)
    (hu : A.Unique) (hxA : Apart x.toVec.Cell A.Cell) (hyA : Apart y.toVec.Cell A.Cell) :
    Ends (ger x y A) h fun _ h' => ∃ r, A.Becomes h h' r ∧
      ∀ i j, i < A.rows → j < A.cols →
      FP.Exact N (g₁ * g₂)
        ((a i j).On (g₁ * g₂) ∧ (f i).On g₁ ∧ (g j).On g₂)
        (r i j)
        ((a i j).val + (f i).val * (g j).val)
        (|(a i j).val| + |(f i).val| * |(g j).val|) := by
  refine (C25_ger x y A h f g a hx hy hA hxe hye hu hxA hyA).mono fun _ h' hb => ⟨_, hb, fun i j hi hj => ?_⟩
  exact (((ex_input _).add H (ex_mul H (f i) (g j)))).toExact

example := C70_ger binary64_integers (x.view : VecV D) y.view A (heap D) _ _ _ (holdsV bx) (holdsV by_) (mholds bA)
  le_rfl le_rfl (by view_facts) (by view_facts) (by view_facts)

/-- **C70** `matrix_rank_1_update_c(x, y, A)` -/
theorem C70_gerc {F : Format} {N : ℕ} {g₁ g₂ : ℝ} (H : F.Grid N (g₁ * g₂)) (x y : VecV (FP F)) (A : Mat)
    (h : Heap (FP F)) (f g : Nat → FP F) (a : Nat → Nat → FP F) (hx : x.Holds h f)
    (hy : y.Holds h g) (hA : A.Holds h a) (hxe : A.rows ≤ x.ext) (hye : A.cols ≤ y.ext)
    (hu : A.Unique) (hxA : Apart x.toVec.Cell A.Cell) (hyA : Apart y.toVec.Cell A.Cell) :
    Ends (gerc x y A) h fun _ h' => ∃ r, A.Becomes h h' r ∧
      ∀ i j, i < A.rows → j < A.cols →
      FP.Exact N (g₁ * g₂)
        ((a i j).On (g₁ * g₂) ∧ (f i).On g₁ ∧ (g j).On g₂)
        (r i j)
        ((a i j).val + (f i).val * (g j).val)
        (|(a i j).val| + |(f i).val| * |(g j).val|) := by
  refine (C25_gerc x y A h f g a hx hy hA hxe hye hu hxA hyA).mono fun _ h' hb => ⟨_, hb, fun i j hi hj => ?_⟩
  exact (((ex_input _).add H (ex_mul H (f i) (g j)))).toExact

example := C70_gerc binary64_integers (x.view : VecV D) y.view A (heap D) _ _ _ (holdsV bx) (holdsV by_) (mholds bA)
  le_rfl le_rfl (by view_facts) (by view_facts) (by view_facts)

/-- **C70** `symmetric_matrix_rank_1_update(x, A, t)` -/
theorem C70_syr {F : Format} {N : ℕ} {g₁ g₂ : ℝ} (H : F.Grid N (g₁ * g₂)) (x : VecV (FP F)) (A : Mat) (t : Triangle)
    (h : Heap (FP F)) (f : Nat → FP F) (a : Nat → Nat → FP F) (hx : x.Holds h f)
    (hA : A.HoldsOn h t.region a) (hsq : A.rows = A.cols) (hxe : A.rows ≤ x.ext)
    (hu : A.UniqueOn t.region) (hxA : Apart x.toVec.Cell (A.CellOn t.region)) :
    Ends (syr x A t) h fun _ h' => ∃ r, A.BecomesOn h h' t.region r ∧
      ∀ i j, i < A.rows → j < A.cols → t.region i j →
      FP.Exact N (g₁ * g₂)
        ((a i j).On (g₁ * g₂) ∧ (f i).On g₁ ∧ (f j).On g₂)
        (r i j)
        ((a i j).val + (f i).val * (f j).val)
        (|(a i j).val| + |(f i).val| * |(f j).val|) := by
  refine (C26_syr x A t h f a hx hA hsq hxe hu hxA).mono fun _ h' hb => ⟨_, hb, fun i j hi hj hr => ?_⟩
  exact (((ex_input _).add H (ex_mul H (f i) (f j)))).toExact

example (t : Triangle) := C70_syr binary64_integers (x.view : VecV D) B t (heap D) _ _ (holdsV bx) (mholds bB) rfl le_rfl
  (by view_facts) (by view_facts)

/-- **C70** `symmetric_matrix_rank_1_update(alpha, x, A, t)`: `alpha * x(i)` is computed first, and has
to be exact by itself -/
theorem C70_syr_alpha {F : Format} {N : ℕ} {g₁ g₂ g₃ : ℝ} (H : F.Grid N (g₁ * g₂))
    (H3 : F.Grid N (g₁ * g₂ * g₃)) (alpha : FP F) (x : VecV (FP F))
    (A : Mat) (t : Triangle) (h : Heap (FP F)) (f : Nat → FP F) (a : Nat → Nat → FP F)
    (hx : x.Holds h f) (hA : A.HoldsOn h t.region a) (hsq : A.rows = A.cols)
    (hxe : A.rows ≤ x.ext) (hu : A.UniqueOn t.region)
    (hxA : Apart x.toVec.Cell (A.CellOn t.region)) :
    Ends (syrAlpha alpha x A t) h fun _ h' => ∃ r, A.BecomesOn h h' t.region r ∧
      ∀ i j, i < A.rows → j < A.cols → t.region i j →
      FP.Exact N (g₁ * g₂ * g₃)
        ((a i j).On (g₁ * g₂ * g₃) ∧ (alpha.On g₁ ∧ (f i).On g₂) ∧
          |alpha.val| * |(f i).val| ≤ N * (g₁ * g₂) ∧ (f j).On g₃)
        (r i j)
        ((a i j).val + alpha.val * (f i).val * (f j).val)
        (|(a i j).val| + |alpha.val| * |(f i).val| * |(f j).val|) := by
  refine (C26_syrAlpha alpha x A t h f a hx hA hsq hxe hu hxA).mono fun _ h' hb => ⟨_, hb, fun i j hi hj hr => ?_⟩
  exact (((ex_input _).add H3 ((ex_mul H alpha (f i)).mul_input H3 (b := f j)))).toExact

example (t : Triangle) := C70_syr_alpha binary64_integers binary64_integers₃ ((5 : ℤ) : D) (x.view : VecV D) B t (heap D) _ _ (holdsV bx)
  (mholds bB) rfl le_rfl (by view_facts) (by view_facts)

/-- **C70** `hermitian_matrix_rank_1_update(x, A, t)` -/
theorem C70_her {F : Format} {N : ℕ} {g₁ g₂ : ℝ} (H : F.Grid N (g₁ * g₂)) (x : VecV (FP F)) (A : Mat) (t : Triangle)
    (h : Heap (FP F)) (f : Nat → FP F) (a : Nat → Nat → FP F) (hx : x.Holds h f)
    (hA : A.HoldsOn h t.region a) (hsq : A.rows = A.cols) (hxe : A.rows ≤ x.ext)
    (hu : A.UniqueOn t.region) (hxA : Apart x.toVec.Cell (A.CellOn t.region)) :
    Ends (her x A t) h fun _ h' => ∃ r, A.BecomesOn h h' t.region r ∧
      ∀ i j, i < A.rows → j < A.cols → t.region i j →
      FP.Exact N (g₁ * g₂)
        ((a i j).On (g₁ * g₂) ∧ (f i).On g₁ ∧ (f j).On g₂)
        (r i j)
        ((a i j).val + (f i).val * (f j).val)
        (|(a i j).val| + |(f i).val| * |(f j).val|) := by
  refine (C26_her x A t h f a hx hA hsq hxe hu hxA).mono fun _ h' hb => ⟨_, hb, fun i j hi hj hr => ?_⟩
  change FP.Exact _ _ _ ((if i = j then a i i else a i j) + f i * f j) _ _
  rw [ite_diag]
  exact (((ex_input _).add H (ex_mul H (f i) (f j)))).toExact

example (t : Triangle) := C70_her binary64_integers (x.view : VecV D) B t (heap D) _ _ (holdsV bx) (mholds bB) rfl le_rfl
  (by view_facts) (by view_facts)

/-- **C70** `hermitian_matrix_rank_1_update(alpha, x, A, t)`: `alpha * x(i)` is computed first, and has
to be exact by itself -/
theorem C70_her_alpha {F : Format} {N : ℕ} {g₁ g₂ g₃ : ℝ} (H : F.Grid N (g₁ * g₂))
    (H3 : F.Grid N (g₁ * g₂ * g₃)) (alpha : FP F) (x : VecV (FP F))
    (A : Mat) (t : Triangle) (h : Heap (FP F)) (f : Nat → FP F) (a : Nat → Nat → FP F)
    (hx : x.Holds h f) (hA : A.HoldsOn h t.region a) (hsq : A.rows = A.cols)
    (hxe : A.rows ≤ x.ext) (hu : A.UniqueOn t.region)
    (hxA : Apart x.toVec.Cell (A.CellOn t.region)) :
    Ends (herAlpha alpha x A t) h fun _ h' => ∃ r, A.BecomesOn h h' t.region r ∧
      ∀ i j, i < A.rows → j < A.cols → t.region i j →
      FP.Exact N (g₁ * g₂ * g₃)
        ((a i j).On (g₁ * g₂ * g₃) ∧ (alpha.On g₁ ∧ (f i).On g₂) ∧
          |alpha.val| * |(f i).val| ≤ N * (g₁ * g₂) ∧ (f j).On g₃)
        (r i j)
        ((a i j).val + alpha.val * (f i).val * (f j).val)
        (|(a i j).val| + |alpha.val| * |(f i).val| * |(f j).val|) := by
  refine (C26_herAlpha alpha x A t h f a hx hA hsq hxe hu hxA).mono fun _ h' hb => ⟨_, hb, fun i j hi hj hr => ?_⟩
  change FP.Exact _ _ _ ((if i = j then a i i else a i j) + alpha * f i * f j) _ _
  rw [ite_diag]
  exact (((ex_input _).add H3 ((ex_mul H alpha (f i)).mul_input H3 (b := f j)))).toExact

example (t : Triangle) := C70_her_alpha binary64_integers binary64_integers₃ ((5 : ℤ) : D) (x.view : VecV D) B t (heap D) _ _ (holdsV bx)
  (mholds bB) rfl le_rfl (by view_facts) (by view_facts)

/-- **C70** `symmetric_matrix_rank_2_update(x, y, A, t)` -/
theorem C70_syr2 {F : Format} {N : ℕ} {g₁ g₂ : ℝ} (H : F.Grid N (g₁ * g₂)) (x y : VecV (FP F)) (A : Mat)
    (t : Triangle) (h : Heap (FP F)) (f g : Nat → FP F) (a : Nat → Nat → FP F) (hx : x.Holds h f)
    (hy : y.Holds h g) (hA : A.HoldsOn h t.region a) (hsq : A.rows = A.cols)
    (hxe : A.rows ≤ x.ext) (hye : A.rows ≤ y.ext) (hu : A.UniqueOn t.region)
    (hxA : Apart x.toVec.Cell (A.CellOn t.region)) (hyA : Apart y.toVec.Cell (A.CellOn t.region)) :
    Ends (syr2 x y A t) h fun _ h' => ∃ r, A.BecomesOn h h' t.region r ∧
      ∀ i j, i < A.rows → j < A.cols → t.region i j →
      FP.Exact N (g₁ * g₂)
        ((a i j).On (g₁ * g₂) ∧ ((f i).On g₁ ∧ (g j).On g₂) ∧ (g i).On g₁ ∧ (f j).On g₂)
        (r i j)
        ((a i j).val + ((f i).val * (g j).val + (g i).val * (f j).val))
        (|(a i j).val| + (|(f i).val| * |(g j).val| + |(g i).val| * |(f j).val|)) := by
  refine (C27_syr2 x y A t h f g a hx hy hA hsq hxe hye hu hxA hyA).mono fun _ h' hb => ⟨_, hb, fun i j hi hj hr => ?_⟩
  exact (((ex_input _).add H ((ex_mul H _ _).add H (ex_mul H _ _)))).toExact

example (t : Triangle) := C70_syr2 binary64_integers (x.view : VecV D) y.view B t (heap D) _ _ _ (holdsV bx) (holdsV by_)
  (mholds bB) rfl le_rfl le_rfl (by view_facts) (by view_facts) (by view_facts)

/-- **C70** `hermitian_matrix_rank_2_update(x, y, A, t)` -/
theorem C70_her2 {F : Format} {N : ℕ} {g₁ g₂ : ℝ} (H : F.Grid N (g₁ * g₂)) (x y : VecV (FP F)) (A : Mat)
    (t : Triangle) (h : Heap (FP F)) (f g : Nat → FP F) (a : Nat → Nat → FP F) (hx : x.Holds h f)
    (hy : y.Holds h g) (hA : A.HoldsOn h t.region a) (hsq : A.rows = A.cols)
    (hxe : A.rows ≤ x.ext) (hye : A.rows ≤ y.ext) (hu : A.UniqueOn t.region)
    (hxA : Apart x.toVec.Cell (A.CellOn t.region)) (hyA : Apart y.toVec.Cell (A.CellOn t.region)) :
    Ends (her2 x y A t) h fun _ h' => ∃ r, A.BecomesOn h h' t.region r ∧
      ∀ i j, i < A.rows → j < A.cols → t.region i j →
      FP.Exact N (g₁ * g₂)
        ((a i j).On (g₁ * g₂) ∧ ((f i).On g₁ ∧ (g j).On g₂) ∧ (g i).On g₁ ∧ (f j).On g₂)
        (r i j)
        ((a i j).val + ((f i).val * (g j).val + (g i).val * (f j).val))
        (|(a i j).val| + (|(f i).val| * |(g j).val| + |(g i).val| * |(f j).val|)) := by
  refine (C27_her2 x y A t h f g a hx hy hA hsq hxe hye hu hxA hyA).mono fun _ h' hb => ⟨_, hb, fun i j hi hj hr => ?_⟩
  change FP.Exact _ _ _ ((if i = j then a i i else a i j) + (f i * g j + g i * f j)) _ _
  rw [ite_diag]
  exact (((ex_input _).add H ((ex_mul H _ _).add H (ex_mul H _ _)))).toExact

example (t : Triangle) := C70_her2 binary64_integers (x.view : VecV D) y.view B t (heap D) _ _ _ (holdsV bx) (holdsV by_)
  (mholds bB) rfl le_rfl le_rfl (by view_facts) (by view_facts) (by view_facts)

/-- **C70** `symmetric_matrix_rank_k_update(A, C, t)` -/
theorem C70_syrk {F : Format} {N : ℕ} {g₁ g₂ : ℝ} (H : F.Grid N (g₁ * g₂)) (A : MatV (FP F)) (C : Mat) (t : Triangle)
    (h : Heap (FP F)) (a c : Nat → Nat → FP F) (hA : A.Holds h a) (hC : C.HoldsOn h t.region c)
    (hsq : C.rows = C.cols) (hAe : C.rows ≤ A.rows) (hu : C.UniqueOn t.region)
    (hAC : Apart A.toMat.Cell (C.CellOn t.region)) :
    Ends (syrk A C t) h fun _ h' => ∃ r, C.BecomesOn h h' t.region r ∧
      ∀ i j, i < C.rows → j < C.cols → t.region i j →
      FP.Exact N (g₁ * g₂)
        ((c i j).On (g₁ * g₂) ∧ ∀ k, k < A.cols → (a i k).On g₁ ∧ (a j k).On g₂)
        (r i j)
        ((c i j).val + ∑ k ∈ range A.cols, (a i k).val * (a j k).val)
        (|(c i j).val| + ∑ k ∈ range A.cols, |(a i k).val| * |(a j k).val|) := by
  refine (C54_syrk A C t h a c hA hC hsq hAe hu hAC).mono fun _ h' hb => ⟨_, hb, fun i j hi hj hr => ?_⟩
  exact ((Ex.leftSum H (ex_input _) fun k _ =>
    ex_mul H (a i k) (a j k))).toExact

example (t : Triangle) := C70_syrk binary64_integers (T.view : MatV D) C t (heap D) _ _ (mholdsV bT)
  (mholds bC) rfl le_rfl (by view_facts) (by view_facts)

/-- **C70** `symmetric_matrix_rank_k_update(alpha, A, C, t)` -/
theorem C70_syrk_alpha {F : Format} {N : ℕ} {g₁ g₂ g₃ : ℝ} (H : F.Grid N (g₁ * g₂))
    (H3 : F.Grid N (g₁ * g₂ * g₃)) (alpha : FP F) (A : MatV (FP F))
    (C : Mat) (t : Triangle) (h : Heap (FP F)) (a c : Nat → Nat → FP F) (hA : A.Holds h a)
    (hC : C.HoldsOn h t.region c) (hsq : C.rows = C.cols) (hAe : C.rows ≤ A.rows)
    (hu : C.UniqueOn t.region) (hAC : Apart A.toMat.Cell (C.CellOn t.region)) :
    Ends (syrkAlpha alpha A C t) h fun _ h' => ∃ r, C.BecomesOn h h' t.region r ∧
      ∀ i j, i < C.rows → j < C.cols → t.region i j →
      FP.Exact N (g₁ * g₂ * g₃)
        ((c i j).On (g₁ * g₂ * g₃) ∧ ∀ k, k < A.cols → (alpha.On g₁ ∧ (a i k).On g₂) ∧
          |alpha.val| * |(a i k).val| ≤ N * (g₁ * g₂) ∧ (a j k).On g₃)
        (r i j)
        ((c i j).val + ∑ k ∈ range A.cols, alpha.val * (a i k).val * (a j k).val)
        (|(c i j).val| + ∑ k ∈ range A.cols, |alpha.val| * |(a i k).val| * |(a j k).val|) := by
  refine (C54_syrk_alpha alpha A C t h a c hA hC hsq hAe hu hAC).mono fun _ h' hb => ⟨_, hb, fun i j hi hj hr => ?_⟩
  exact ((Ex.leftSum H3 (ex_input _) fun k _ =>
    (ex_mul H alpha (a i k)).mul_input H3 (b := a j k))).toExact

example (t : Triangle) := C70_syrk_alpha binary64_integers binary64_integers₃ ((5 : ℤ) : D) (T.view : MatV D) C t (heap D) _ _ (mholdsV bT)
  (mholds bC) rfl le_rfl (by view_facts) (by view_facts)

/-- **C70** `hermitian_matrix_rank_k_update(A, C, t)` -/
theorem C70_herk {F : Format} {N : ℕ} {g₁ g₂ : ℝ} (H : F.Grid N (g₁ * g₂)) (A : MatV (FP F)) (C : Mat) (t : Triangle)
    (h : Heap (FP F)) (a c : Nat → Nat → FP F) (hA : A.Holds h a) (hC : C.HoldsOn h t.region c)
    (hsq : C.rows = C.cols) (hAe : C.rows ≤ A.rows) (hu : C.UniqueOn t.region)
    (hAC : Apart A.toMat.Cell (C.CellOn t.region)) :
    Ends (herk A C t) h fun _ h' => ∃ r, C.BecomesOn h h' t.region r ∧
      ∀ i j, i < C.rows → j < C.cols → t.region i j →
      FP.Exact N (g₁ * g₂)
        ((c i j).On (g₁ * g₂) ∧ ∀ k, k < A.cols → (a i k).On g₁ ∧ (a j k).On g₂)
        (r i j)
        ((c i j).val + ∑ k ∈ range A.cols, (a i k).val * (a j k).val)
        (|(c i j).val| + ∑ k ∈ range A.cols, |(a i k).val| * |(a j k).val|) := by
  refine (C54_herk A C t h a c hA hC hsq hAe hu hAC).mono fun _ h' hb => ⟨_, hb, fun i j hi hj hr => ?_⟩
  change FP.Exact _ _ _ (leftSum (if i = j then c i i else c i j) A.cols fun k => a i k * a j k) _ _
  rw [ite_diag]
  exact ((Ex.leftSum H (ex_input _) fun k _ =>
    ex_mul H (a i k) (a j k))).toExact

example (t : Triangle) := C70_herk binary64_integers (T.view : MatV D) C t (heap D) _ _ (mholdsV bT)
  (mholds bC) rfl le_rfl (by view_facts) (by view_facts)

/-- **C70** `hermitian_matrix_rank_k_update(alpha, A, C, t)` -/
theorem C70_herk_alpha {F : Format} {N : ℕ} {g₁ g₂ g₃ : ℝ} (H : F.Grid N (g₁ * g₂))
    (H3 : F.Grid N (g₁ * g₂ * g₃)) (alpha : FP F) (A : MatV (FP F))
    (C : Mat) (t : Triangle) (h : Heap (FP F)) (a c : Nat → Nat → FP F) (hA : A.Holds h a)
    (hC : C.HoldsOn h t.region c) (hsq : C.rows = C.cols) (hAe : C.rows ≤ A.rows)
    (hu : C.UniqueOn t.region) (hAC : Apart A.toMat.Cell (C.CellOn t.region)) :
    Ends (herkAlpha alpha A C t) h fun _ h' => ∃ r, C.BecomesOn h h' t.region r ∧
      ∀ i j, i < C.rows → j < C.cols → t.region i j →
      FP.Exact N (g₁ * g₂ * g₃)
        ((c i j).On (g₁ * g₂ * g₃) ∧ ∀ k, k < A.cols → (alpha.On g₁ ∧ (a i k).On g₂) ∧
          |alpha.val| * |(a i k).val| ≤ N * (g₁ * g₂) ∧ (a j k).On g₃)
        (r i j)
        ((c i j).val + ∑ k ∈ range A.cols, alpha.val * (a i k).val * (a j k).val)
        (|(c i j).val| + ∑ k ∈ range A.cols, |alpha.val| * |(a i k).val| * |(a j k).val|) := by
  refine (C54_herk_alpha alpha A C t h a c hA hC hsq hAe hu hAC).mono fun _ h' hb => ⟨_, hb, fun i j hi hj hr => ?_⟩
  change FP.Exact _ _ _ (leftSum (if i = j then c i i else c i j) A.cols fun k => alpha * a i k * a j k) _ _
  rw [ite_diag]
  exact ((Ex.leftSum H3 (ex_input _) fun k _ =>
    (ex_mul H alpha (a i k)).mul_input H3 (b := a j k))).toExact

example (t : Triangle) := C70_herk_alpha binary64_integers binary64_integers₃ ((5 : ℤ) : D) (T.view : MatV D) C t (heap D) _ _ (mholdsV bT)
  (mholds bC) rfl le_rfl (by view_facts) (by view_facts)

/-- **C70** `symmetric_matrix_rank_2k_update(A, B, C, t)` -/
theorem C70_syr2k {F : Format} {N : ℕ} {g₁ g₂ : ℝ} (H : F.Grid N (g₁ * g₂)) (A B : MatV (FP F)) (C : Mat)
    (t : Triangle) (h : Heap (FP F)) (a b c : Nat → Nat → FP F) (hA : A.Holds h a)
    (hB : B.Holds h b) (hC : C.HoldsOn h t.region c) (hsq : C.rows = C.cols)
    (hAe : C.rows ≤ A.rows) (hBe : C.rows ≤ B.rows) (hAB : A.cols ≤ B.cols)
    (hu : C.UniqueOn t.region) (hAC : Apart A.toMat.Cell (C.CellOn t.region))
    (hBC : Apart B.toMat.Cell (C.CellOn t.region)) :
    Ends (syr2k A B C t) h fun _ h' => ∃ r, C.BecomesOn h h' t.region r ∧
      ∀ i j, i < C.rows → j < C.cols → t.region i j →
      FP.Exact N (g₁ * g₂)
        ((c i j).On (g₁ * g₂) ∧ ∀ k, k < A.cols →
          ((a i k).On g₁ ∧ (b j k).On g₂) ∧ (b i k).On g₁ ∧ (a j k).On g₂)
        (r i j)
        ((c i j).val + ∑ k ∈ range A.cols,
          ((a i k).val * (b j k).val + (b i k).val * (a j k).val))
        (|(c i j).val| + ∑ k ∈ range A.cols,
          (|(a i k).val| * |(b j k).val| + |(b i k).val| * |(a j k).val|)) := by
  refine (C54_syr2k A B C t h a b c hA hB hC hsq hAe hBe hAB hu hAC hBC).mono fun _ h' hb => ⟨_, hb, fun i j hi hj hr => ?_⟩
  exact ((Ex.leftSum H (ex_input _) fun k _ =>
    (ex_mul H (a i k) (b j k)).add H (ex_mul H (b i k) (a j k)))).toExact

example (t : Triangle) := C70_syr2k binary64_integers (T.view : MatV D) A.view C t (heap D) _ _ _ (mholdsV bT) (mholdsV bA)
  (mholds bC) rfl le_rfl le_rfl (by decide) (by view_facts) (by view_facts) (by view_facts)

/-- **C70** `hermitian_matrix_rank_2k_update(A, B, C, t)` -/
theorem C70_her2k {F : Format} {N : ℕ} {g₁ g₂ : ℝ} (H : F.Grid N (g₁ * g₂)) (A B : MatV (FP F)) (C : Mat)
    (t : Triangle) (h : Heap (FP F)) (a b c : Nat → Nat → FP F) (hA : A.Holds h a)
    (hB : B.Holds h b) (hC : C.HoldsOn h t.region c) (hsq : C.rows = C.cols)
    (hAe : C.rows ≤ A.rows) (hBe : C.rows ≤ B.rows) (hAB : A.cols ≤ B.cols)
    (hu : C.UniqueOn t.region) (hAC : Apart A.toMat.Cell (C.CellOn t.region))
    (hBC : Apart B.toMat.Cell (C.CellOn t.region)) :
    Ends (her2k A B C t) h fun _ h' => ∃ r, C.BecomesOn h h' t.region r ∧
      ∀ i j, i < C.rows → j < C.cols → t.region i j →
      FP.Exact N (g₁ * g₂)
        ((c i j).On (g₁ * g₂) ∧ ∀ k, k < A.cols →
          ((a i k).On g₁ ∧ (b j k).On g₂) ∧ (b i k).On g₁ ∧ (a j k).On g₂)
        (r i j)
        ((c i j).val + ∑ k ∈ range A.cols,
          ((a i k).val * (b j k).val + (b i k).val * (a j k).val))
        (|(c i j).val| + ∑ k ∈ range A.cols,
          (|(a i k).val| * |(b j k).val| + |(b i k).val| * |(a j k).val|)) := by
  refine (C54_her2k A B C t h a b c hA hB hC hsq hAe hBe hAB hu hAC hBC).mono fun _ h' hb => ⟨_, hb, fun i j hi hj hr => ?_⟩
  change FP.Exact _ _ _ (leftSum (if i = j then c i i else c i j) A.cols fun k =>
    a i k * b j k + b i k * a j k) _ _
  rw [ite_diag]
  exact ((Ex.leftSum H (ex_input _) fun k _ =>
    (ex_mul H (a i k) (b j k)).add H (ex_mul H (b i k) (a j k)))).toExact

example (t : Triangle) := C70_her2k binary64_integers (T.view : MatV D) A.view C t (heap D) _ _ _ (mholdsV bT) (mholdsV bA)
  (mholds bC) rfl le_rfl le_rfl (by decide) (by view_facts) (by view_facts) (by view_facts)

/-! ## Sums of absolute values and matrix norms -/

/-- **C70** `vector_abs_sum(v, init)` -/
theorem C70_vector_abs_sum {F : Format} {N : ℕ} {G : ℝ} (H : F.Grid N G) (v : VecV (FP F))
    (init : FP F) (h : Heap (FP F)) (f : Nat → FP F) (hv : v.Holds h f) :
    Ends (vectorAbsSumOf v init) h fun r h' => h' = h ∧
      FP.Exact N G
        (init.On G ∧ ∀ k, k < v.ext → (f k).On G)
        r
        (init.val + ∑ k ∈ range v.ext, |(f k).val|)
        (|init.val| + ∑ k ∈ range v.ext, |(f k).val|) := by
  refine (absSumOf_run hv init).mono ?_
  rintro _ _ ⟨rfl, rfl⟩
  exact ⟨rfl, (ex_abs_sum H v.ext f init).toExact⟩

example := C70_vector_abs_sum binary64_integers (x.view : VecV D) ((5 : ℤ) : D) (heap D) _ (holdsV bx)

/-- **C70** `matrix_inf_norm(A, 0)`: the exact norm, if no row sum is too large -/
theorem C70_matrix_inf_norm {F : Format} {N : ℕ} {G : ℝ} (H : F.Grid N G) (A : MatV (FP F))
    (h : Heap (FP F)) (f : Nat → Nat → FP F) (hA : A.Holds h f)
    (hf : ∀ i j, i < A.rows → j < A.cols → (f i j).On G) (M : ℝ)
    (hM : IsGreatest {x | ∃ i, i < A.rows ∧ x = ∑ j ∈ range A.cols, |(f i j).val|} M)
    (hfit : M ≤ N * G) :
    Ends (matrixInfNormOf A (0 : FP F)) h fun r h' => h' = h ∧ r = fin M := by
  have hr : 0 < A.rows := by obtain ⟨i, hi, _⟩ := hM.1; omega
  have hrow : ∀ i, i < A.rows → foldUp A.cols (fun s j => s + FP.abs (f i j)) 0 =
      fin (∑ j ∈ range A.cols, |(f i j).val|) := fun i hi =>
    ((ex_abs_sum H A.cols (f i) 0).from_zero.exact (fun j hj => hf i j hi hj)
      ((hM.2 ⟨i, hi, rfl⟩).trans hfit)).1
  by_cases h0 : A.rows = 0 ∨ A.cols = 0
  · obtain ⟨i, hi, e⟩ := hM.1
    unfold matrixInfNormOf
    rw [if_pos h0, ends_pure, e, h0.resolve_left (by omega)]
    exact ⟨rfl, rfl⟩
  by_cases h1 : A.rows = 1 ∧ A.cols = 1
  · unfold matrixInfNormOf
    rw [if_neg h0, if_pos h1]
    refine (scalarNormOf_one hA 0 h0).mono ?_
    rintro _ _ ⟨rfl, rfl⟩
    refine ⟨rfl, ?_⟩
    obtain ⟨i, hi, eM⟩ := hM.1
    obtain rfl : i = 0 := by omega
    rw [eM, ← hrow 0 hr, h1.2]
    rfl
  · refine (infOf_run hA 0 h0 h1).mono ?_
    rintro _ _ ⟨rfl, rfl⟩
    refine ⟨rfl, ?_⟩
    rw [foldUp_congr fun i r hi => by
      change stdMax (foldUp A.cols (fun s j => s + FP.abs (f i j)) 0) r = _
      rw [hrow i hi]]
    exact foldUp_max _ (fun i _ => Finset.sum_nonneg fun j _ => abs_nonneg _) hr hM

example : ∃ M, Ends (matrixInfNormOf (A.view : MatV D) (0 : D)) (heap D) fun r h' =>
    h' = heap D ∧ r = fin M := by
  obtain ⟨M, hM⟩ := exists_greatest_sum (n := 3) (by decide) fun i => ∑ j ∈ range 3, |(mvals D A i j).val|
  refine ⟨M, C70_matrix_inf_norm (N := 2 ^ 53) (G := 1) (mul_one (1 : ℝ) ▸ binary64_integers) (A.view : MatV D)
    (heap D) _ (mholdsV bA) (fun i j hi hj => ?_) M hM ?_⟩
  · have hi : i < 3 := hi
    have hj : j < 3 := hj
    exact int_on _ (by interval_cases i <;> interval_cases j <;> decide)
  · obtain ⟨i, hi, e⟩ := hM.1
    exact e ▸ (sum_le_sum fun j hj => mvals_A_le i j hi (mem_range.1 hj)).trans
      (by rw [sum_const, card_range, nsmul_eq_mul]; norm_num)

/-- **C70** `matrix_one_norm(A, 0)`: the exact norm, if no column sum is too large -/
theorem C70_matrix_one_norm {F : Format} {N : ℕ} {G : ℝ} (H : F.Grid N G) (A : MatV (FP F))
    (h : Heap (FP F)) (f : Nat → Nat → FP F) (hA : A.Holds h f)
    (hf : ∀ i j, i < A.rows → j < A.cols → (f i j).On G) (M : ℝ)
    (hM : IsGreatest {x | ∃ j, j < A.cols ∧ x = ∑ i ∈ range A.rows, |(f i j).val|} M)
    (hfit : M ≤ N * G) :
    Ends (matrixOneNormOf A (0 : FP F)) h fun r h' => h' = h ∧ r = fin M := by
  have hr : 0 < A.cols := by obtain ⟨i, hi, _⟩ := hM.1; omega
  have hcol : ∀ j, j < A.cols → foldUp A.rows (fun s i => s + FP.abs (f i j)) 0 =
      fin (∑ i ∈ range A.rows, |(f i j).val|) := fun j hj =>
    ((ex_abs_sum H A.rows (fun i => f i j) 0).from_zero.exact (fun i hi => hf i j hi hj)
      ((hM.2 ⟨j, hj, rfl⟩).trans hfit)).1
  by_cases h0 : A.rows = 0 ∨ A.cols = 0
  · obtain ⟨i, hi, e⟩ := hM.1
    unfold matrixOneNormOf
    rw [if_pos h0, ends_pure, e, h0.resolve_right (by omega)]
    exact ⟨rfl, rfl⟩
  by_cases h1 : A.rows = 1 ∧ A.cols = 1
  · unfold matrixOneNormOf
    rw [if_neg h0, if_pos h1]
    refine (scalarNormOf_one hA 0 h0).mono ?_
    rintro _ _ ⟨rfl, rfl⟩
    refine ⟨rfl, ?_⟩
    obtain ⟨i, hi, eM⟩ := hM.1
    obtain rfl : i = 0 := by omega
    rw [eM, ← hcol 0 hr, h1.1]
    rfl
  · refine (oneOf_run hA 0 h0 h1).mono ?_
    rintro _ _ ⟨rfl, rfl⟩
    refine ⟨rfl, ?_⟩
    rw [foldUp_congr fun j r hj => by
      change stdMax (foldUp A.rows (fun s i => s + FP.abs (f i j)) 0) r = _
      rw [hcol j hj]]
    exact foldUp_max _ (fun i _ => Finset.sum_nonneg fun j _ => abs_nonneg _) hr hM

example : ∃ M, Ends (matrixOneNormOf (A.view : MatV D) (0 : D)) (heap D) fun r h' =>
    h' = heap D ∧ r = fin M := by
  obtain ⟨M, hM⟩ := exists_greatest_sum (n := 3) (by decide) fun j => ∑ i ∈ range 3, |(mvals D A i j).val|
  refine ⟨M, C70_matrix_one_norm (N := 2 ^ 53) (G := 1) (mul_one (1 : ℝ) ▸ binary64_integers) (A.view : MatV D)
    (heap D) _ (mholdsV bA) (fun i j hi hj => ?_) M hM ?_⟩
  · have hi : i < 3 := hi
    have hj : j < 3 := hj
    exact int_on _ (by interval_cases i <;> interval_cases j <;> decide)
  · obtain ⟨j, hj, e⟩ := hM.1
    exact e ▸ (sum_le_sum fun i hi => mvals_A_le i j (mem_range.1 hi) hj).trans
      (by rw [sum_const, card_range, nsmul_eq_mul]; norm_num)

/-! ## Solves

If the system has a solution in multiples of `g₂`, and the terms of every equation fit, then the solve
finds it. -/

/-- **C70** `triangular_matrix_vector_solve(A, t, d, b, x)` -/
theorem C70_trsv {F : Format} {N : ℕ} {g₁ g₂ : ℝ} (H : F.Grid N (g₁ * g₂)) (H2 : F.Grid N g₂)
    (A : MatV (FP F)) (t : Triangle) (d : Diag) (B : VecV (FP F)) (X : Vec) (h : Heap (FP F))
    (a : Nat → Nat → FP F) (b : Nat → FP F) (v : Nat → ℝ)
    (hA : A.HoldsOn h (triRegion t d) a) (hB : B.Holds h b) (hX : X.Alloc h)
    (hsq : A.rows = A.cols) (hext : A.rows = X.ext) (hBe : A.rows ≤ B.ext) (hu : X.Unique)
    (hAX : Apart (A.toMat.CellOn (triRegion t d)) X.Cell) (hBX : B.toVec.Aligned X)
    (ha : ∀ i, i < A.cols → ∀ k, k < A.cols → triRegion t d i k → (a i k).On g₁)
    (hb : ∀ i, i < A.cols → (b i).On (g₁ * g₂))
    (hv : ∀ i, i < A.cols → Multiple g₂ (v i) ∧ |v i| ≤ N * g₂)
    (hdiag : d = .explicit → ∀ i, i < A.cols → (a i i).val ≠ 0)
    (hsolves : ∀ i, i < A.cols →
      ∑ k ∈ range A.cols, triOf t d (fun i j => (a i j).val) i k * v k = (b i).val)
    (hfit : ∀ i, i < A.cols → |(b i).val| +
      ∑ k ∈ range A.cols, |triOf t d (fun i j => (a i j).val) i k| * |v k| ≤ N * (g₁ * g₂)) :
    Ends (trsv (· / ·) A t d B X) h fun _ h' => X.Becomes h h' fun i => fin (v i) :=
  (C54_trsv A t d B X h a b hA hB hX hsq hext hBe hu hAX hBX).mono fun _ _ ⟨_, hw, e⟩ =>
    Vec.Becomes.congr hw fun i hi =>
      ex_solve H H2 (fun i hi => e i (by omega)) ha hb (fun i hi => (hv i hi).1)
        (fun i hi => (hv i hi).2) hdiag hsolves hfit i (by omega)

/-- A 2×2 upper triangular system `(2 3; 0 5) (v₀, v₁) = (1, 15)` with solution `(-4, 3)`. -/
noncomputable def floatSystem : Heap D := fun k => match k with
  | 0 => some (fin 2) | 1 => some (fin 3) | 2 => some (fin 5) | 3 => some (fin 1) | 4 => some (fin 15)
  | 5 => some (fin 0) | 6 => some (fin 0) | _ => none

/-- Evaluates the conditions on a 2×2 triangular system. -/
local macro "small" : tactic => `(tactic| (
  intro i hi
  have hi : i < 2 := hi
  interval_cases i <;>
  first
  | (norm_num [triOf, sum_range_succ, Mat.view, Triangle.region, FP.val, abs_of_neg, abs_of_pos]; done)
  | (refine ⟨1, ?_⟩; norm_num; done) | (refine ⟨15, ?_⟩; norm_num; done)
  | (refine ⟨⟨-4, ?_⟩, ?_⟩ <;> norm_num [abs_of_neg]; done)
  | (refine ⟨⟨3, ?_⟩, ?_⟩ <;> norm_num; done)
  | (intro k hk _
     have hk : k < 2 := hk
     interval_cases k <;>
     first
     | (refine ⟨2, ?_⟩; norm_num; done) | (refine ⟨3, ?_⟩; norm_num; done)
     | (refine ⟨5, ?_⟩; norm_num; done))))

example : Ends (trsv (· / ·) (⟨2, 2, fun i j => i + j⟩ : Mat).view .upper .explicit
    (⟨2, fun i => 3 + i⟩ : Vec).view ⟨2, fun i => 5 + i⟩) floatSystem fun _ h' =>
      (⟨2, fun i => 5 + i⟩ : Vec).Becomes floatSystem h' fun i =>
        fin ((fun i => if i = 0 then -4 else 3) i) := by
  refine C70_trsv (g₁ := 1) (g₂ := 1) binary64_integers (mul_one (1 : ℝ) ▸ binary64_integers) _ .upper
    .explicit _ ⟨2, fun i => 5 + i⟩ _
    (fun i j => if i + j = 0 then fin 2 else if i + j = 1 then fin 3 else fin 5)
    (fun i => if i = 0 then fin 1 else fin 15) (fun i => if i = 0 then -4 else 3) ?_ ?_ ?_ rfl rfl le_rfl
    ?_ ?_ ?_ ?_ ?_ ?_ ?_ ?_ ?_
  · intro i j hi hj hr
    have hi : i < 2 := hi
    have hj : j < 2 := hj
    interval_cases i <;> interval_cases j <;> exact ⟨_, rfl, rfl⟩
  · intro i hi
    have hi : i < 2 := hi
    interval_cases i <;> exact ⟨_, rfl, rfl⟩
  · intro i hi
    have hi : i < 2 := hi
    interval_cases i <;> exact ⟨_, rfl⟩
  · view_facts
  · view_facts
  · view_facts
  · small
  · small
  · small
  · intro _; small
  · small
  · small

/-- **C70** `triangular_matrix_matrix_left_solve(A, t, d, B, X)` -/
theorem C70_trsm_left {F : Format} {N : ℕ} {g₁ g₂ : ℝ} (H : F.Grid N (g₁ * g₂)) (H2 : F.Grid N g₂)
    (A : MatV (FP F)) (t : Triangle) (d : Diag) (B : MatV (FP F)) (X : Mat) (h : Heap (FP F))
    (a b : Nat → Nat → FP F) (v : Nat → Nat → ℝ)
    (hA : A.HoldsOn h (triRegion t d) a) (hB : B.Holds h b) (hX : X.Alloc h)
    (hsq : A.rows = A.cols) (hr : X.rows = A.rows) (hBr : B.rows = A.rows) (hc : X.cols = B.cols)
    (hu : X.Unique) (hAX : Apart (A.toMat.CellOn (triRegion t d)) X.Cell)
    (hBX : B.toMat.Aligned X)
    (ha : ∀ i, i < A.cols → ∀ k, k < A.cols → triRegion t d i k → (a i k).On g₁)
    (hb : ∀ i, i < A.cols → ∀ j, j < X.cols → (b i j).On (g₁ * g₂))
    (hv : ∀ i, i < A.cols → ∀ j, j < X.cols → Multiple g₂ (v i j) ∧ |v i j| ≤ N * g₂)
    (hdiag : d = .explicit → ∀ i, i < A.cols → (a i i).val ≠ 0)
    (hsolves : ∀ i, i < A.cols → ∀ j, j < X.cols →
      ∑ k ∈ range A.cols, triOf t d (fun i j => (a i j).val) i k * v k j = (b i j).val)
    (hfit : ∀ i, i < A.cols → ∀ j, j < X.cols → |(b i j).val| +
      ∑ k ∈ range A.cols, |triOf t d (fun i j => (a i j).val) i k| * |v k j| ≤ N * (g₁ * g₂)) :
    Ends (trsmLeft A t d B X) h fun _ h' => X.Becomes h h' fun i j => fin (v i j) :=
  (C54_trsm_left A t d B X h a b hA hB hX hsq hr hBr hc hu hAX hBX).mono fun _ _ ⟨w, hw, e⟩ =>
    Mat.BecomesOn.congr hw fun i j hi hj _ =>
      ex_solve (r := fun k => w k j) H H2 (fun i hi => e i j (by omega) hj) ha
        (fun i hi => hb i hi j hj) (fun i hi => (hv i hi j hj).1) (fun i hi => (hv i hi j hj).2) hdiag
        (fun i hi => hsolves i hi j hj) (fun i hi => hfit i hi j hj) i (by omega)

example : Ends (trsmLeft (⟨2, 2, fun i j => i + j⟩ : Mat).view .upper .explicit
    (⟨2, 1, fun i _ => 3 + i⟩ : Mat).view ⟨2, 1, fun i _ => 5 + i⟩) floatSystem fun _ h' =>
      (⟨2, 1, fun i _ => 5 + i⟩ : Mat).Becomes floatSystem h' fun i j =>
        fin ((fun i _ => if i = 0 then -4 else 3) i j) := by
  refine C70_trsm_left (g₁ := 1) (g₂ := 1) binary64_integers (mul_one (1 : ℝ) ▸ binary64_integers) _
    .upper .explicit _ ⟨2, 1, fun i _ => 5 + i⟩ _
    (fun i j => if i + j = 0 then fin 2 else if i + j = 1 then fin 3 else fin 5)
    (fun i _ => if i = 0 then fin 1 else fin 15) (fun i _ => if i = 0 then -4 else 3) ?_ ?_ ?_ rfl rfl
    rfl rfl ?_ ?_ ?_ ?_ (fun i hi _ _ => ?_) (fun i hi _ _ => ?_) ?_ (fun i hi _ _ => ?_)
    (fun i hi _ _ => ?_)
  · intro i j hi hj hr
    have hi : i < 2 := hi
    have hj : j < 2 := hj
    interval_cases i <;> interval_cases j <;> exact ⟨_, rfl, rfl⟩
  · intro i j hi hj _
    have hi : i < 2 := hi
    interval_cases i <;> exact ⟨_, rfl, rfl⟩
  · intro i j hi hj _
    have hi : i < 2 := hi
    interval_cases i <;> exact ⟨_, rfl⟩
  · view_facts
  · view_facts
  · view_facts
  · small
  · revert i; small
  · revert i; small
  · intro _; small
  · revert i; small
  · revert i; small

/-- **C70** `triangular_matrix_matrix_right_solve(A, t, d, B, X)` -/
theorem C70_trsm_right {F : Format} {N : ℕ} {g₁ g₂ : ℝ} (H : F.Grid N (g₁ * g₂)) (H2 : F.Grid N g₂)
    (A : MatV (FP F)) (t : Triangle) (d : Diag) (B : MatV (FP F)) (X : Mat) (h : Heap (FP F))
    (a b : Nat → Nat → FP F) (v : Nat → Nat → ℝ)
    (hA : A.HoldsOn h (triRegion t d) a) (hB : B.Holds h b) (hX : X.Alloc h)
    (hsq : A.rows = A.cols) (hr : X.cols = A.cols) (hBr : B.cols = A.cols) (hc : X.rows = B.rows)
    (hu : X.Unique) (hAX : Apart (A.toMat.CellOn (triRegion t d)) X.Cell)
    (hBX : B.toMat.Aligned X)
    (ha : ∀ k, k < A.cols → ∀ j, j < A.cols → triRegion t d k j → (a k j).On g₁)
    (hb : ∀ i, i < X.rows → ∀ j, j < A.cols → (b i j).On (g₁ * g₂))
    (hv : ∀ i, i < X.rows → ∀ j, j < A.cols → Multiple g₂ (v i j) ∧ |v i j| ≤ N * g₂)
    (hdiag : d = .explicit → ∀ j, j < A.cols → (a j j).val ≠ 0)
    (hsolves : ∀ i, i < X.rows → ∀ j, j < A.cols →
      ∑ k ∈ range A.cols, v i k * triOf t d (fun i j => (a i j).val) k j = (b i j).val)
    (hfit : ∀ i, i < X.rows → ∀ j, j < A.cols → |(b i j).val| +
      ∑ k ∈ range A.cols, |v i k| * |triOf t d (fun i j => (a i j).val) k j| ≤ N * (g₁ * g₂)) :
    Ends (trsmRight A t d B X) h fun _ h' => X.Becomes h h' fun i j => fin (v i j) :=
  (C54_trsm_right A t d B X h a b hA hB hX hsq hr hBr hc hu hAX hBX).mono fun _ _ ⟨w, hw, e⟩ =>
    Mat.BecomesOn.congr hw fun i j hi hj _ => by
      refine ex_solve (r := fun k => w i k) (v := fun k => v i k) (t := t.other) (d := d)
        (a := fun i j => a j i) (b := fun j => b i j) H H2 (fun j hj => ?_) (fun j hj k hk q => ?_)
        (fun j hj => hb i hi j hj) (fun j hj => (hv i hi j hj).1) (fun j hj => (hv i hi j hj).2) hdiag
        (fun j hj => ?_) (fun j hj => ?_) j (by omega)
      · rw [e i j hi hj]; simp only [FP.mul_comm' (w i _)]
      · exact ha k hk j hj ⟨by cases t <;> exact q.1, fun r => (q.2 r).symm⟩
      · rw [← hsolves i hi j hj]
        exact sum_congr rfl fun k _ => by
          rw [CInt.triOf_other t d (fun i j => (a i j).val), mul_comm]
      · refine le_of_eq_of_le (congrArg _ (sum_congr rfl fun k _ => ?_)) (hfit i hi j hj)
        rw [CInt.triOf_other t d (fun i j => (a i j).val), mul_comm]

example : Ends (trsmRight (⟨2, 2, fun i j => i + j⟩ : Mat).view .lower .explicit
    (⟨1, 2, fun _ j => 3 + j⟩ : Mat).view ⟨1, 2, fun _ j => 5 + j⟩) floatSystem fun _ h' =>
      (⟨1, 2, fun _ j => 5 + j⟩ : Mat).Becomes floatSystem h' fun i j =>
        fin ((fun _ j => if j = 0 then -4 else 3) i j) := by
  refine C70_trsm_right (g₁ := 1) (g₂ := 1) binary64_integers (mul_one (1 : ℝ) ▸ binary64_integers) _
    .lower .explicit _ ⟨1, 2, fun _ j => 5 + j⟩ _
    (fun i j => if i + j = 0 then fin 2 else if i + j = 1 then fin 3 else fin 5)
    (fun _ j => if j = 0 then fin 1 else fin 15) (fun _ j => if j = 0 then -4 else 3) ?_ ?_ ?_ rfl rfl
    rfl rfl ?_ ?_ ?_ ?_ (fun _ _ => ?_) (fun _ _ => ?_) ?_ (fun _ _ => ?_) (fun _ _ => ?_)
  · intro i j hi hj hr
    have hi : i < 2 := hi
    have hj : j < 2 := hj
    interval_cases i <;> interval_cases j <;> exact ⟨_, rfl, rfl⟩
  · intro i j hi hj _
    have hj : j < 2 := hj
    interval_cases j <;> exact ⟨_, rfl, rfl⟩
  · intro i j hi hj _
    have hj : j < 2 := hj
    interval_cases j <;> exact ⟨_, rfl⟩
  · view_facts
  · view_facts
  · view_facts
  · small
  · small
  · small
  · intro _; small
  · small
  · small

/-! ## The bound on the magnitudes -/

/-- `2^53 + 1` is not a `double`. -/
theorem Witness.not_double : binary64.rnd (2 ^ 53 + 1) ≠ 2 ^ 53 + 1 := by
  intro h
  have hx : |(2 ^ 53 + 1 : ℝ)| = 2 ^ 53 + 1 := abs_of_pos (by norm_num)
  have hlog : Int.log 2 (2 ^ 53 + 1 : ℝ) = 53 := by
    refine le_antisymm ?_ ?_
    · have := (Int.lt_zpow_iff_log_lt (b := 2) (R := ℝ) (by norm_num) (by norm_num)
        (r := (2 ^ 53 + 1 : ℝ)) (x := 54)).1 (by norm_num)
      omega
    · exact (Int.zpow_le_iff_le_log (b := 2) (R := ℝ) (by norm_num) (by norm_num)
        (r := (2 ^ 53 + 1 : ℝ)) (x := 53)).1 (by norm_num)
  obtain ⟨k, hk⟩ : Binary.On (Binary.ulpExp 53 (-1074) (2 ^ 53 + 1)) (binary64.rnd (2 ^ 53 + 1)) :=
    Binary.rnd_on _
  have hu : Binary.ulpExp 53 (-1074) (2 ^ 53 + 1) = 1 := by
    unfold Binary.ulpExp
    rw [hx, hlog]; rfl
  rw [h, hu, zpow_one] at hk
  have : (2 ^ 53 + 1 : ℤ) = k * 2 := by exact_mod_cast hk
  omega

/-- **C70** The bound cannot be dropped, nor increased by a single unit: `dot` of the integers
`(2^53, 1)` and `(1, 1)` in `double`. -/
theorem C70_bound_needed_false :
    ¬ ∀ (v1 v2 : VecV D) (h : Heap D) (f g : Nat → D), v1.Holds h f → v2.Holds h g →
      v1.ext ≤ v2.ext → (∀ k, k < v1.ext → (f k).On 1 ∧ (g k).On 1) →
      ∑ k ∈ range v1.ext, |(f k).val| * |(g k).val| ≤ (2 ^ 53 + 1) * 1 →
      Ends (dot v1 v2 0) h fun r _ => r = fin (∑ k ∈ range v1.ext, (f k).val * (g k).val) := by
  intro hall
  let v1 : VecV D := (⟨2, fun i => i⟩ : Vec).view
  let v2 : VecV D := (⟨2, fun _ => 1⟩ : Vec).view
  let h : Heap D := fun c => if c = 0 then some (fin (2 ^ 53)) else some (fin 1)
  let f : Nat → D := fun c => if c = 0 then fin (2 ^ 53) else fin 1
  let g : Nat → D := fun _ => fin 1
  have h1 : v1.Holds h f := fun i hi => by
    have hi : i < 2 := hi
    interval_cases i <;> exact ⟨_, rfl, rfl⟩
  have h2 : v2.Holds h g := fun i _ => ⟨_, rfl, rfl⟩
  have hon : ∀ k, k < 2 → (f k).On 1 ∧ (g k).On 1 := fun k hk => by
    interval_cases k
    · exact ⟨⟨2 ^ 53, by norm_num⟩, ⟨1, by norm_num⟩⟩
    · exact ⟨⟨1, by norm_num⟩, ⟨1, by norm_num⟩⟩
  have k1 := hall v1 v2 h f g h1 h2 le_rfl hon (by
    change ∑ k ∈ range 2, |(f k).val| * |(g k).val| ≤ _
    simp only [sum_range_succ, sum_range_zero]
    norm_num [f, g, FP.val, abs_of_pos])
  have k2 := C54_dot v1 v2 0 h f g h1 h2 le_rfl
  obtain ⟨r, _, _, q1, q2, _⟩ := k1.and k2
  have hv : r.Valid := by
    rw [q2]
    exact ((acc_products_zero binary64_errors 2 f g)).valid
  rw [q1] at hv
  change (fin (∑ k ∈ range 2, (f k).val * (g k).val) : D).Valid at hv
  have e : ∑ k ∈ range 2, (f k).val * (g k).val = 2 ^ 53 + 1 := by
    simp only [sum_range_succ, sum_range_zero]
    norm_num [f, g, FP.val]
  rw [e] at hv
  exact not_double hv.1

end StdBLAS

import Verif.Lemmas.ComplexExact
import Verif.Props.FloatExact
import Verif.Props.AccurateComplex

/-!
# Property C70: no rounding errors on Gaussian integers

As in `Props/FloatExact`, for `std::complex` elements whose parts are integers, or multiples of a unit
(`CFP.On`).  Magnitudes are measured by `size z = |Re z| + |Im z|`.  What a compiler does with products
whose parts are both NaN is a parameter `R`, and does not matter here.
-/

namespace StdBLAS
open Finset Witness CFP ComplexConjugate

/-! ## Vectors -/

/-- **C70** `dot(v1, v2, init)` -/
theorem C70_complex_dot {F : Format} {R : Recovery F} {N : ℕ} {g₁ g₂ : ℝ} (H : F.Grid N (g₁ * g₂)) (v1 v2 : VecV (CFP F R)) (init : CFP F R)
    (h : Heap (CFP F R)) (f g : Nat → CFP F R) (h1 : v1.Holds h f) (h2 : v2.Holds h g)
    (hext : v1.ext ≤ v2.ext) :
    Ends (dot v1 v2 init) h fun r h' => h' = h ∧
      CFP.Exact N (g₁ * g₂)
        (init.On (g₁ * g₂) ∧ ∀ k, k < v1.ext → (f k).On g₁ ∧ (g k).On g₂)
        r
        (init.val + ∑ k ∈ range v1.ext, (f k).val * (g k).val)
        (size init.val + ∑ k ∈ range v1.ext, size (f k).val * size (g k).val) := by
  refine (C54_dot v1 v2 init h f g h1 h2 hext).mono fun r h' hb => ⟨hb.2, ?_⟩
  rw [hb.1]
  exact (ex_products H v1.ext f g _).toExact

/-- `(2 - i) + (1 + 2 i) * (3 - 4 i) + (-5 + i) * (2 + 6 i)`, exactly. -/
example (x : VecV Z) (y : VecV Z) (h : Heap Z)
    (hx : x.Holds h fun k => if k = 0 then fin ⟨1, 2⟩ else fin ⟨-5, 1⟩)
    (hy : y.Holds h fun k => if k = 0 then fin ⟨3, -4⟩ else fin ⟨2, 6⟩) (hx2 : x.ext = 2)
    (hy2 : y.ext = 2) :
    Ends (dot x y (fin ⟨2, -1⟩)) h fun r _ => r = fin ⟨-3, -27⟩ := by
  refine (C70_complex_dot binary64_integers x y _ h _ _ hx hy (by omega)).mono fun r _ hb => ?_
  have on : ∀ a b : ℤ, (fin ⟨a, b⟩ : Z).On 1 := fun a b => ⟨⟨a, by simp⟩, ⟨b, by simp⟩⟩
  have on' := fun k : ℕ => show (if k = 0 then fin ⟨1, 2⟩ else fin ⟨-5, 1⟩ : Z).On 1 by
    split_ifs
    · exact_mod_cast on 1 2
    · exact_mod_cast on (-5) 1
  have on'' := fun k : ℕ => show (if k = 0 then fin ⟨3, -4⟩ else fin ⟨2, 6⟩ : Z).On 1 by
    split_ifs
    · exact_mod_cast on 3 (-4)
    · exact_mod_cast on 2 6
  have := hb.2 ⟨by rw [mul_one]; exact_mod_cast on 2 (-1), fun k _ => ⟨on' k, on'' k⟩⟩
  rw [hx2] at this
  simp only [sum_range_succ, sum_range_zero] at this
  rw [this (by norm_num [size, fin, CFP.val, FP.val, abs_of_neg])]
  congr 1
  apply Complex.ext <;> norm_num [fin, CFP.val, FP.val]

/-- **C70** `dotc(v1, v2, init)`: for real elements `conj` does nothing -/
theorem C70_complex_dotc {F : Format} {R : Recovery F} {N : ℕ} {g₁ g₂ : ℝ} (H : F.Grid N (g₁ * g₂)) (v1 v2 : VecV (CFP F R)) (init : CFP F R)
    (h : Heap (CFP F R)) (f g : Nat → CFP F R) (h1 : v1.Holds h f) (h2 : v2.Holds h g)
    (hext : v1.ext ≤ v2.ext) :
    Ends (dotc v1 v2 init) h fun r h' => h' = h ∧
      CFP.Exact N (g₁ * g₂)
        (init.On (g₁ * g₂) ∧ ∀ k, k < v1.ext → (f k).On g₁ ∧ (g k).On g₂)
        r
        (init.val + ∑ k ∈ range v1.ext, conj (f k).val * (g k).val)
        (size init.val + ∑ k ∈ range v1.ext, size (f k).val * size (g k).val) := by
  refine (C54_dotc v1 v2 init h f g h1 h2 hext).mono fun r h' hb => ⟨hb.2, ?_⟩
  rw [hb.1]
  exact ((Ex.leftSum H (ex_input init) fun k _ => ex_conj_mul H (f k) (g k))).toExact

example := C70_complex_dotc binary64_integers (x.view : VecV Z) y.view ((5 : ℤ) : Z) (heap Z) _ _ (holdsV bx)
  (holdsV by_) le_rfl

/-- **C70** `scale(alpha, x)` -/
theorem C70_complex_scale_vector {F : Format} {R : Recovery F} {N : ℕ} {g₁ g₂ : ℝ} (H : F.Grid N (g₁ * g₂)) (alpha : CFP F R) (x : Vec)
    (h : Heap (CFP F R)) (f : Nat → CFP F R) (hx : x.Holds h f) (hu : x.Unique) :
    Ends (scale1 alpha x) h fun _ h' => ∃ r, x.Becomes h h' r ∧ ∀ i, i < x.ext →
      CFP.Exact N (g₁ * g₂)
        ((f i).On g₁ ∧ alpha.On g₂)
        (r i)
        ((f i).val * alpha.val)
        (size (f i).val * size alpha.val) := by
  refine (C11_scale_vector alpha x h f hx hu).mono fun _ h' hb => ⟨_, hb, fun i hi => ?_⟩
  exact (ex_mul H _ _).toExact

example := C70_complex_scale_vector binary64_integers ((5 : ℤ) : Z) y (heap Z) _ (holds by_) (by view_facts)

/-- **C70** `scale(alpha, A)` -/
theorem C70_complex_scale_matrix {F : Format} {R : Recovery F} {N : ℕ} {g₁ g₂ : ℝ} (H : F.Grid N (g₁ * g₂)) (alpha : CFP F R) (A : Mat)
    (h : Heap (CFP F R)) (f : Nat → Nat → CFP F R) (hA : A.Holds h f) (hu : A.Unique) :
    Ends (scale2 alpha A) h fun _ h' => ∃ r, A.Becomes h h' r ∧
      ∀ i j, i < A.rows → j < A.cols →
      CFP.Exact N (g₁ * g₂)
        ((f i j).On g₁ ∧ alpha.On g₂)
        (r i j)
        ((f i j).val * alpha.val)
        (size (f i j).val * size alpha.val) := by
  refine (C11_scale_matrix alpha A h f hA hu).mono fun _ h' hb => ⟨_, hb, fun i j hi hj => ?_⟩
  exact (ex_mul H _ _).toExact

example := C70_complex_scale_matrix binary64_integers ((5 : ℤ) : Z) A (heap Z) _ (mholds bA) (by view_facts)

/-- **C70** `add(x, y, z)` -/
theorem C70_complex_add_vector {F : Format} {R : Recovery F} {N : ℕ} {G : ℝ} (H : F.Grid N G) (x y : VecV (CFP F R)) (z : Vec)
    (h : Heap (CFP F R)) (f g : Nat → CFP F R) (hx : x.Holds h f) (hy : y.Holds h g) (hz : z.Alloc h)
    (hex : z.ext ≤ x.ext) (hey : z.ext ≤ y.ext) (hu : z.Unique) (hax : x.toVec.Aligned z)
    (hay : y.toVec.Aligned z) :
    Ends (add1 x y z) h fun _ h' => ∃ r, z.Becomes h h' r ∧ ∀ i, i < z.ext →
      CFP.Exact N G
        ((f i).On G ∧ (g i).On G)
        (r i)
        ((f i).val + (g i).val)
        (size (f i).val + size (g i).val) := by
  refine (C12_add_vector x y z h f g hx hy hz hex hey hu hax hay).mono fun _ h' hb => ⟨_, hb, fun i hi => ?_⟩
  refine (((ex_input _).add H (ex_input _))).toExact

example := C70_complex_add_vector (binary64_grid 0 (by norm_num) (by norm_num)) (x.view : VecV Z) y.view z (heap Z) _ _ (holdsV bx) (holdsV by_)
  (alloc bz) le_rfl le_rfl (by view_facts) (by view_facts) (by view_facts)

/-- **C70** `add(x, y, z)` for matrices -/
theorem C70_complex_add_matrix {F : Format} {R : Recovery F} {N : ℕ} {G : ℝ} (H : F.Grid N G) (x y : MatV (CFP F R)) (z : Mat)
    (h : Heap (CFP F R)) (f g : Nat → Nat → CFP F R) (hx : x.Holds h f) (hy : y.Holds h g)
    (hz : z.Alloc h) (hr : x.rows = z.rows) (hc : x.cols = z.cols) (hr' : z.rows ≤ y.rows)
    (hc' : z.cols ≤ y.cols) (hu : z.Unique) (hax : x.toMat.Aligned z) (hay : y.toMat.Aligned z) :
    Ends (add2 x y z) h fun _ h' => ∃ r, z.Becomes h h' r ∧
      ∀ i j, i < z.rows → j < z.cols →
      CFP.Exact N G
        ((f i j).On G ∧ (g i j).On G)
        (r i j)
        ((f i j).val + (g i j).val)
        (size (f i j).val + size (g i j).val) := by
  refine (C12_add_matrix x y z h f g hx hy hz hr hc hr' hc' hu hax hay).mono fun _ h' hb => ⟨_, hb, fun i j hi hj => ?_⟩
  refine (((ex_input _).add H (ex_input _))).toExact

example := C70_complex_add_matrix (binary64_grid 0 (by norm_num) (by norm_num)) (A.view : MatV Z) B.view C (heap Z) _ _ (mholdsV bA) (mholdsV bB)
  (malloc bC) rfl rfl le_rfl le_rfl (by view_facts) (by view_facts) (by view_facts)

/-- **C70** `apply_givens_rotation(x, y, c, s)` -/
theorem C70_complex_apply_givens {F : Format} {R : Recovery F} {N : ℕ} {g₁ g₂ : ℝ} (H : F.Grid N (g₁ * g₂)) (x y : Vec) (h : Heap (CFP F R))
    (f g : Nat → CFP F R) (c s : CFP F R) (hx : x.Holds h f) (hy : y.Holds h g) (hext : x.ext = y.ext)
    (hux : x.Unique) (huy : y.Unique) (hap : Apart x.Cell y.Cell) :
    Ends (applyGivensC x y c s) h fun _ h' => ∃ r r', x.Holds h' r ∧ y.Holds h' r' ∧
      OnlyChanges (fun a => x.Cell a ∨ y.Cell a) h h' ∧ ∀ i, i < x.ext →
      CFP.Exact N (g₁ * g₂) ((c.On g₁ ∧ (f i).On g₂) ∧ s.On g₁ ∧ (g i).On g₂) (r i)
        (c.val * (f i).val + s.val * (g i).val) (size c.val * size (f i).val + size s.val * size (g i).val) ∧
      CFP.Exact N (g₁ * g₂) ((c.On g₁ ∧ (g i).On g₂) ∧ s.On g₁ ∧ (f i).On g₂) (r' i)
        (c.val * (g i).val - conj s.val * (f i).val) (size c.val * size (g i).val + size s.val * size (f i).val) := by
  refine (C15_apply_givens_complex x y h f g c s hx hy hext hux huy hap).mono fun _ h' hb =>
    ⟨_, _, hb.1, hb.2.1, hb.2.2, fun i _ => ⟨?_, ?_⟩⟩
  · exact (((ex_mul H _ _).add H (ex_mul H _ _))).toExact
  · exact (((ex_mul H _ _).sub H (ex_conj_mul H _ _))).toExact

example := C70_complex_apply_givens binary64_integers x y (heap Z) _ _ ((3 : ℤ) : Z) ((-2 : ℤ) : Z) (holds bx)
  (holds by_) rfl (by view_facts) (by view_facts) (by view_facts)

/-! ## Matrix times vector -/

/-- **C70** `matrix_vector_product(A, x, y)` -/
theorem C70_complex_gemv {F : Format} {R : Recovery F} {N : ℕ} {g₁ g₂ : ℝ} (H : F.Grid N (g₁ * g₂)) (A : MatV (CFP F R)) (x : VecV (CFP F R))
    (y : Vec) (h : Heap (CFP F R)) (a : Nat → Nat → CFP F R) (f : Nat → CFP F R) (hA : A.Holds h a)
    (hx : x.Holds h f) (hy : y.Alloc h) (hrows : y.ext = A.rows) (hcols : A.cols ≤ x.ext)
    (hu : y.Unique) (hAy : Apart A.toMat.Cell y.Cell) (hxy : Apart x.toVec.Cell y.Cell) :
    Ends (gemv A x y) h fun _ h' => ∃ r, y.Becomes h h' r ∧ ∀ i, i < y.ext →
      CFP.Exact N (g₁ * g₂)
        (∀ k, k < A.cols → (a i k).On g₁ ∧ (f k).On g₂)
        (r i)
        (∑ k ∈ range A.cols, (a i k).val * (f k).val)
        (∑ k ∈ range A.cols, size (a i k).val * size (f k).val) := by
  refine (C54_gemv A x y h a f hA hx hy hrows hcols hu hAy hxy).mono fun _ h' hb => ⟨_, hb, fun i hi => ?_⟩
  exact (ex_products_zero H A.cols (a i) f).toExact

example := C70_complex_gemv binary64_integers (A.view : MatV Z) x.view y (heap Z) _ _ (mholdsV bA) (holdsV bx) (alloc by_)
  rfl le_rfl (by view_facts) (by view_facts) (by view_facts)

/-- **C70** `matrix_vector_product(A, x, y, z)` -/
theorem C70_complex_gemv_update {F : Format} {R : Recovery F} {N : ℕ} {g₁ g₂ : ℝ} (H : F.Grid N (g₁ * g₂)) (A : MatV (CFP F R))
    (x y : VecV (CFP F R)) (z : Vec) (h : Heap (CFP F R)) (a : Nat → Nat → CFP F R) (f g : Nat → CFP F R)
    (hA : A.Holds h a) (hx : x.Holds h f) (hy : y.Holds h g) (hz : z.Alloc h)
    (hrows : z.ext = A.rows) (hcols : A.cols ≤ x.ext) (hye : A.rows ≤ y.ext) (hu : z.Unique)
    (hAz : Apart A.toMat.Cell z.Cell) (hxz : Apart x.toVec.Cell z.Cell) (hyz : y.toVec.Aligned z) :
    Ends (gemvUpdate A x y z) h fun _ h' => ∃ r, z.Becomes h h' r ∧ ∀ i, i < z.ext →
      CFP.Exact N (g₁ * g₂)
        ((g i).On (g₁ * g₂) ∧ ∀ k, k < A.cols → (a i k).On g₁ ∧ (f k).On g₂)
        (r i)
        ((g i).val + ∑ k ∈ range A.cols, (a i k).val * (f k).val)
        (size (g i).val + ∑ k ∈ range A.cols, size (a i k).val * size (f k).val) := by
  refine (C54_gemv_update A x y z h a f g hA hx hy hz hrows hcols hye hu hAz hxz hyz).mono fun _ h' hb => ⟨_, hb, fun i hi => ?_⟩
  exact (ex_products H A.cols (a i) f _).toExact

example := C70_complex_gemv_update binary64_integers (A.view : MatV Z) x.view y.view y (heap Z) _ _ _ (mholdsV bA) (holdsV bx)
  (holdsV by_) (alloc by_) rfl le_rfl le_rfl (by view_facts) (by view_facts) (by view_facts)
  (by view_facts)

/-- **C70** `symmetric_matrix_vector_product(A, t, x, y)` -/
theorem C70_complex_symv {F : Format} {R : Recovery F} {N : ℕ} {g₁ g₂ : ℝ} (H : F.Grid N (g₁ * g₂)) (A : MatV (CFP F R)) (t : Triangle)
    (x : VecV (CFP F R)) (y : Vec) (h : Heap (CFP F R)) (a : Nat → Nat → CFP F R) (f : Nat → CFP F R)
    (hA : A.HoldsOn h t.region a) (hx : x.Holds h f) (hy : y.Alloc h) (hsq : A.rows = A.cols)
    (hext : A.rows = y.ext) (hxe : A.cols ≤ x.ext) (hu : y.Unique)
    (hAy : Apart (A.toMat.CellOn t.region) y.Cell) (hxy : Apart x.toVec.Cell y.Cell) :
    Ends (symv A t x y) h fun _ h' => ∃ r, y.Becomes h h' r ∧ ∀ i, i < y.ext →
      CFP.Exact N (g₁ * g₂)
        (∀ k, k < A.cols → (symOf t a i k).On g₁ ∧ (f k).On g₂)
        (r i)
        (∑ k ∈ range A.cols, (symOf t a i k).val * (f k).val)
        (∑ k ∈ range A.cols, size (symOf t a i k).val * size (f k).val) := by
  refine (C54_symv A t x y h a f hA hx hy hsq hext hxe hu hAy hxy).mono fun _ h' hb => ⟨_, hb, fun i hi => ?_⟩
  exact (ex_products_zero H A.cols (symOf t a i) f).toExact

example (t : Triangle) := C70_complex_symv binary64_integers (A.view : MatV Z) t x.view y (heap Z) _ _ (mholdsV bA) (holdsV bx)
  (alloc by_) rfl rfl le_rfl (by view_facts) (by view_facts) (by view_facts)

/-- **C70** `symmetric_matrix_vector_product(A, t, x, y, z)` -/
theorem C70_complex_symv_update {F : Format} {R : Recovery F} {N : ℕ} {g₁ g₂ : ℝ} (H : F.Grid N (g₁ * g₂)) (A : MatV (CFP F R)) (t : Triangle)
    (x y : VecV (CFP F R)) (z : Vec) (h : Heap (CFP F R)) (a : Nat → Nat → CFP F R) (f g : Nat → CFP F R)
    (hA : A.HoldsOn h t.region a) (hx : x.Holds h f) (hy : y.Holds h g) (hz : z.Alloc h)
    (hsq : A.rows = A.cols) (hext : A.rows = z.ext) (hxe : A.cols ≤ x.ext) (hye : A.rows ≤ y.ext)
    (hu : z.Unique) (hAz : Apart (A.toMat.CellOn t.region) z.Cell)
    (hxz : Apart x.toVec.Cell z.Cell) (hyz : y.toVec.Aligned z) :
    Ends (symvUpdate A t x y z) h fun _ h' => ∃ r, z.Becomes h h' r ∧ ∀ i, i < z.ext →
      CFP.Exact N (g₁ * g₂)
        ((g i).On (g₁ * g₂) ∧ ∀ k, k < A.cols → (symOf t a i k).On g₁ ∧ (f k).On g₂)
        (r i)
        ((g i).val + ∑ k ∈ range A.cols, (symOf t a i k).val * (f k).val)
        (size (g i).val + ∑ k ∈ range A.cols, size (symOf t a i k).val * size (f k).val) := by
  refine (C54_symv_update A t x y z h a f g hA hx hy hz hsq hext hxe hye hu hAz hxz hyz).mono fun _ h' hb => ⟨_, hb, fun i hi => ?_⟩
  exact (ex_products H A.cols (symOf t a i) f _).toExact

example (t : Triangle) := C70_complex_symv_update binary64_integers (A.view : MatV Z) t x.view y.view y (heap Z) _ _ _
  (mholdsV bA) (holdsV bx) (holdsV by_) (alloc by_) rfl rfl le_rfl le_rfl (by view_facts)
  (by view_facts) (by view_facts) (by view_facts)

/-- **C70** `hermitian_matrix_vector_product(A, t, x, y)` -/
theorem C70_complex_hemv {F : Format} {R : Recovery F} {N : ℕ} {g₁ g₂ : ℝ} (H : F.Grid N (g₁ * g₂)) (A : MatV (CFP F R)) (t : Triangle)
    (x : VecV (CFP F R)) (y : Vec) (h : Heap (CFP F R)) (a : Nat → Nat → CFP F R) (f : Nat → CFP F R)
    (hA : A.HoldsOn h t.region a) (hx : x.Holds h f) (hy : y.Alloc h) (hsq : A.rows = A.cols)
    (hext : A.rows = y.ext) (hxe : A.cols ≤ x.ext) (hu : y.Unique)
    (hAy : Apart (A.toMat.CellOn t.region) y.Cell) (hxy : Apart x.toVec.Cell y.Cell) :
    Ends (hemv A t x y) h fun _ h' => ∃ r, y.Becomes h h' r ∧ ∀ i, i < y.ext →
      CFP.Exact N (g₁ * g₂)
        (∀ k, k < A.cols → (hermOf t a i k).On g₁ ∧ (f k).On g₂)
        (r i)
        (∑ k ∈ range A.cols, (hermOf t a i k).val * (f k).val)
        (∑ k ∈ range A.cols, size (hermOf t a i k).val * size (f k).val) := by
  refine (C54_hemv A t x y h a f hA hx hy hsq hext hxe hu hAy hxy).mono fun _ h' hb => ⟨_, hb, fun i hi => ?_⟩
  exact (ex_products_zero H A.cols (hermOf t a i) f).toExact

example (t : Triangle) := C70_complex_hemv binary64_integers (A.view : MatV Z) t x.view y (heap Z) _ _ (mholdsV bA) (holdsV bx)
  (alloc by_) rfl rfl le_rfl (by view_facts) (by view_facts) (by view_facts)

/-- **C70** `hermitian_matrix_vector_product(A, t, x, y, z)` -/
theorem C70_complex_hemv_update {F : Format} {R : Recovery F} {N : ℕ} {g₁ g₂ : ℝ} (H : F.Grid N (g₁ * g₂)) (A : MatV (CFP F R)) (t : Triangle)
    (x y : VecV (CFP F R)) (z : Vec) (h : Heap (CFP F R)) (a : Nat → Nat → CFP F R) (f g : Nat → CFP F R)
    (hA : A.HoldsOn h t.region a) (hx : x.Holds h f) (hy : y.Holds h g) (hz : z.Alloc h)
    (hsq : A.rows = A.cols) (hext : A.rows = z.ext) (hxe : A.cols ≤ x.ext) (hye : A.rows ≤ y.ext)
    (hu : z.Unique) (hAz : Apart (A.toMat.CellOn t.region) z.Cell)
    (hxz : Apart x.toVec.Cell z.Cell) (hyz : y.toVec.Aligned z) :
    Ends (hemvUpdate A t x y z) h fun _ h' => ∃ r, z.Becomes h h' r ∧ ∀ i, i < z.ext →
      CFP.Exact N (g₁ * g₂)
        ((g i).On (g₁ * g₂) ∧ ∀ k, k < A.cols → (hermOf t a i k).On g₁ ∧ (f k).On g₂)
        (r i)
        ((g i).val + ∑ k ∈ range A.cols, (hermOf t a i k).val * (f k).val)
        (size (g i).val + ∑ k ∈ range A.cols, size (hermOf t a i k).val * size (f k).val) := by
  refine (C54_hemv_update A t x y z h a f g hA hx hy hz hsq hext hxe hye hu hAz hxz hyz).mono fun _ h' hb => ⟨_, hb, fun i hi => ?_⟩
  exact (ex_products H A.cols (hermOf t a i) f _).toExact

example (t : Triangle) := C70_complex_hemv_update binary64_integers (A.view : MatV Z) t x.view y.view y (heap Z) _ _ _
  (mholdsV bA) (holdsV bx) (holdsV by_) (alloc by_) rfl rfl le_rfl le_rfl (by view_facts)
  (by view_facts) (by view_facts) (by view_facts)

/-- **C70** `triangular_matrix_vector_product(A, t, d, x, y)` -/
theorem C70_complex_trmv {F : Format} {R : Recovery F} {N : ℕ} {g₁ g₂ : ℝ} (H : F.Grid N (g₁ * g₂)) (A : MatV (CFP F R)) (t : Triangle) (d : Diag)
    (x : VecV (CFP F R)) (y : Vec) (h : Heap (CFP F R)) (a : Nat → Nat → CFP F R) (f : Nat → CFP F R)
    (hA : A.HoldsOn h (triRegion t d) a) (hx : x.Holds h f) (hy : y.Alloc h)
    (hsq : A.rows = A.cols) (hext : A.rows = y.ext) (hxe : A.cols ≤ x.ext) (hu : y.Unique)
    (hAy : Apart (A.toMat.CellOn (triRegion t d)) y.Cell) (hxy : Apart x.toVec.Cell y.Cell)
    (h1 : d = .implicitUnit → Multiple g₁ 1) :
    Ends (trmv A t d x y) h fun _ h' => ∃ r, y.Becomes h h' r ∧ ∀ i, i < y.ext →
      CFP.Exact N (g₁ * g₂)
        (∀ k, k < A.cols → t.region i k → (f k).On g₂ ∧ (triRegion t d i k → (a i k).On g₁))
        (r i)
        (∑ k ∈ range A.cols, triOf t d (fun i j => (a i j).val) i k * (f k).val)
        (∑ k ∈ range A.cols, size (triOf t d (fun i j => (a i j).val) i k) * size (f k).val) := by
  refine (C54_trmv A t d x y h a f hA hx hy hsq hext hxe hu hAy hxy).mono fun _ h' hb => ⟨_, hb, fun i hi => ?_⟩
  exact ((ex_triSeq H t d h1 a f _ (by omega)).from_zero).toExact

example (t : Triangle) (d : Diag) := C70_complex_trmv binary64_integers (A.view : MatV Z) t d x.view y (heap Z) _ _ (mholdsV bA)
  (holdsV bx) (alloc by_) rfl rfl le_rfl (by view_facts) (by view_facts) (by view_facts) H1

/-- **C70** `triangular_matrix_vector_product(A, t, d, x, y, z)` -/
theorem C70_complex_trmv_update {F : Format} {R : Recovery F} {N : ℕ} {g₁ g₂ : ℝ} (H : F.Grid N (g₁ * g₂)) (A : MatV (CFP F R)) (t : Triangle)
    (d : Diag) (x y : VecV (CFP F R)) (z : Vec) (h : Heap (CFP F R)) (a : Nat → Nat → CFP F R)
    (f g : Nat → CFP F R) (hA : A.HoldsOn h (triRegion t d) a) (hx : x.Holds h f) (hy : y.Holds h g)
    (hz : z.Alloc h) (hsq : A.rows = A.cols) (hext : A.rows = z.ext) (hxe : A.cols ≤ x.ext)
    (hye : A.rows ≤ y.ext) (hu : z.Unique) (hAz : Apart (A.toMat.CellOn (triRegion t d)) z.Cell)
    (hxz : Apart x.toVec.Cell z.Cell) (hyz : y.toVec.Aligned z)
    (h1 : d = .implicitUnit → Multiple g₁ 1) :
    Ends (trmvUpdate A t d x y z) h fun _ h' => ∃ r, z.Becomes h h' r ∧ ∀ i, i < z.ext →
      CFP.Exact N (g₁ * g₂)
        ((g i).On (g₁ * g₂) ∧ ∀ k, k < A.cols → t.region i k → (f k).On g₂ ∧ (triRegion t d i k → (a i k).On g₁))
        (r i)
        ((g i).val + ∑ k ∈ range A.cols, triOf t d (fun i j => (a i j).val) i k * (f k).val)
        (size (g i).val + ∑ k ∈ range A.cols, size (triOf t d (fun i j => (a i j).val) i k) * size (f k).val) := by
  refine (C54_trmv_update A t d x y z h a f g hA hx hy hz hsq hext hxe hye hu hAz hxz hyz).mono fun _ h' hb => ⟨_, hb, fun i hi => ?_⟩
  exact (ex_triSeq H t d h1 a f _ (by omega)).toExact

example (t : Triangle) (d : Diag) := C70_complex_trmv_update binary64_integers (A.view : MatV Z) t d x.view y.view y (heap Z)
  _ _ _ (mholdsV bA) (holdsV bx) (holdsV by_) (alloc by_) rfl rfl le_rfl le_rfl (by view_facts)
  (by view_facts) (by view_facts) (by view_facts) H1

/-- **C70** `triangular_matrix_vector_product(A, t, d, y)`, in place -/
theorem C70_complex_trmv_in_place {F : Format} {R : Recovery F} {N : ℕ} {g₁ g₂ : ℝ} (H : F.Grid N (g₁ * g₂)) (A : MatV (CFP F R)) (t : Triangle)
    (d : Diag) (y : Vec) (h : Heap (CFP F R)) (a : Nat → Nat → CFP F R) (f : Nat → CFP F R)
    (hA : A.HoldsOn h (triRegion t d) a) (hy : y.Holds h f) (hsq : A.rows = A.cols)
    (hext : A.rows = y.ext) (hu : y.Unique) (hAy : Apart (A.toMat.CellOn (triRegion t d)) y.Cell)
    (h1 : d = .implicitUnit → Multiple g₁ 1) :
    Ends (trmvInPlace A t d y) h fun _ h' => ∃ r, y.Becomes h h' r ∧ ∀ i, i < y.ext →
      CFP.Exact N (g₁ * g₂)
        (∀ k, k < A.cols → t.region i k → (f k).On g₂ ∧ (triRegion t d i k → (a i k).On g₁))
        (r i)
        (∑ k ∈ range A.cols, triOf t d (fun i j => (a i j).val) i k * (f k).val)
        (∑ k ∈ range A.cols, size (triOf t d (fun i j => (a i j).val) i k) * size (f k).val) := by
  refine (C54_trmv_in_place A t d y h a f hA hy hsq hext hu hAy).mono fun _ h' hb => ⟨_, hb, fun i hi => ?_⟩
  exact (ex_triSeqInPlace H t d h1 a f (by omega) (.inr rfl)).toExact

example (t : Triangle) (d : Diag) := C70_complex_trmv_in_place binary64_integers (A.view : MatV Z) t d y (heap Z) _ _ (mholdsV bA)
  (holds by_) rfl rfl (by view_facts) (by view_facts) H1

/-! ## Matrix times matrix -/

/-- **C70** `matrix_product(A, B, C)` -/
theorem C70_complex_gemm {F : Format} {R : Recovery F} {N : ℕ} {g₁ g₂ : ℝ} (H : F.Grid N (g₁ * g₂)) (A B : MatV (CFP F R)) (C : Mat)
    (h : Heap (CFP F R)) (a b : Nat → Nat → CFP F R) (hA : A.Holds h a) (hB : B.Holds h b)
    (hC : C.Alloc h) (hr : C.rows = A.rows) (hk : A.cols = B.rows) (hc : C.cols = B.cols)
    (hu : C.Unique) (hAC : Apart A.toMat.Cell C.Cell) (hBC : Apart B.toMat.Cell C.Cell) :
    Ends (gemm A B C) h fun _ h' => ∃ r, C.Becomes h h' r ∧
      ∀ i j, i < C.rows → j < C.cols →
      CFP.Exact N (g₁ * g₂)
        (∀ k, k < A.cols → (a i k).On g₁ ∧ (b k j).On g₂)
        (r i j)
        (∑ k ∈ range A.cols, (a i k).val * (b k j).val)
        (∑ k ∈ range A.cols, size (a i k).val * size (b k j).val) := by
  refine (C54_gemm A B C h a b hA hB hC hr hk hc hu hAC hBC).mono fun _ h' hb => ⟨_, hb, fun i j hi hj => ?_⟩
  exact (ex_products_zero H A.cols (a i) (fun k => b k j)).toExact

example := C70_complex_gemm binary64_integers (T.view : MatV Z) W.view C (heap Z) _ _ (mholdsV bT) (mholdsV bW) (malloc bC)
  rfl rfl rfl (by view_facts) (by view_facts) (by view_facts)

/-- **C70** `matrix_product(A, B, E, C)` -/
theorem C70_complex_gemm_update {F : Format} {R : Recovery F} {N : ℕ} {g₁ g₂ : ℝ} (H : F.Grid N (g₁ * g₂)) (A B E : MatV (CFP F R)) (C : Mat)
    (h : Heap (CFP F R)) (a b e : Nat → Nat → CFP F R) (hA : A.Holds h a) (hB : B.Holds h b)
    (hE : E.Holds h e) (hC : C.Alloc h) (hr : C.rows = A.rows) (hk : A.cols = B.rows)
    (hc : C.cols = B.cols) (her : C.rows ≤ E.rows) (hec : C.cols ≤ E.cols) (hu : C.Unique)
    (hAC : Apart A.toMat.Cell C.Cell) (hBC : Apart B.toMat.Cell C.Cell) (hEC : E.toMat.Aligned C) :
    Ends (gemmUpdate A B E C) h fun _ h' => ∃ r, C.Becomes h h' r ∧
      ∀ i j, i < C.rows → j < C.cols →
      CFP.Exact N (g₁ * g₂)
        ((e i j).On (g₁ * g₂) ∧ ∀ k, k < A.cols → (a i k).On g₁ ∧ (b k j).On g₂)
        (r i j)
        ((e i j).val + ∑ k ∈ range A.cols, (a i k).val * (b k j).val)
        (size (e i j).val + ∑ k ∈ range A.cols, size (a i k).val * size (b k j).val) := by
  refine (C54_gemm_update A B E C h a b e hA hB hE hC hr hk hc her hec hu hAC hBC hEC).mono fun _ h' hb => ⟨_, hb, fun i j hi hj => ?_⟩
  exact (ex_products H A.cols (a i) (fun k => b k j) _).toExact

example := C70_complex_gemm_update binary64_integers (T.view : MatV Z) W.view C.view C (heap Z) _ _ _ (mholdsV bT) (mholdsV bW)
  (mholdsV bC) (malloc bC) rfl rfl rfl le_rfl le_rfl (by view_facts) (by view_facts) (by view_facts)
  (by view_facts)

/-- **C70** `symmetric_matrix_product(A, t, B, C)` -/
theorem C70_complex_symm_left {F : Format} {R : Recovery F} {N : ℕ} {g₁ g₂ : ℝ} (H : F.Grid N (g₁ * g₂)) (A : MatV (CFP F R)) (t : Triangle)
    (B : MatV (CFP F R)) (C : Mat) (h : Heap (CFP F R)) (a b : Nat → Nat → CFP F R)
    (hA : A.HoldsOn h t.region a) (hB : B.Holds h b) (hC : C.Alloc h) (hsq : A.rows = A.cols)
    (hr : C.rows = A.rows) (hk : A.cols = B.rows) (hc : C.cols = B.cols) (hu : C.Unique)
    (hAC : Apart (A.toMat.CellOn t.region) C.Cell) (hBC : Apart B.toMat.Cell C.Cell) :
    Ends (symmLeft A t B C) h fun _ h' => ∃ r, C.Becomes h h' r ∧
      ∀ i j, i < C.rows → j < C.cols →
      CFP.Exact N (g₁ * g₂)
        (∀ k, k < A.cols → (symOf t a i k).On g₁ ∧ (b k j).On g₂)
        (r i j)
        (∑ k ∈ range A.cols, (symOf t a i k).val * (b k j).val)
        (∑ k ∈ range A.cols, size (symOf t a i k).val * size (b k j).val) := by
  refine (C54_symm_left A t B C h a b hA hB hC hsq hr hk hc hu hAC hBC).mono fun _ h' hb => ⟨_, hb, fun i j hi hj => ?_⟩
  exact (ex_products_zero H A.cols (symOf t a i) (fun k => b k j)).toExact

example (t : Triangle) := C70_complex_symm_left binary64_integers (A.view : MatV Z) t T.view ⟨3, 2, C.addr⟩ (heap Z) _ _
  (mholdsV bA) (mholdsV bT) (malloc fun i j hi hj => bC i j hi (by simp only [C] at *; omega)) rfl rfl rfl
  rfl (by view_facts) (by view_facts) (by view_facts)

/-- **C70** `symmetric_matrix_product(B, A, t, C)` -/
theorem C70_complex_symm_right {F : Format} {R : Recovery F} {N : ℕ} {g₁ g₂ : ℝ} (H : F.Grid N (g₁ * g₂)) (A : MatV (CFP F R)) (t : Triangle)
    (B : MatV (CFP F R)) (C : Mat) (h : Heap (CFP F R)) (a b : Nat → Nat → CFP F R)
    (hA : A.HoldsOn h t.region a) (hB : B.Holds h b) (hC : C.Alloc h) (hsq : A.rows = A.cols)
    (hr : C.rows = B.rows) (hk : B.cols = A.rows) (hc : C.cols = A.cols) (hu : C.Unique)
    (hAC : Apart (A.toMat.CellOn t.region) C.Cell) (hBC : Apart B.toMat.Cell C.Cell) :
    Ends (symmRight B A t C) h fun _ h' => ∃ r, C.Becomes h h' r ∧
      ∀ i j, i < C.rows → j < C.cols →
      CFP.Exact N (g₁ * g₂)
        (∀ k, k < A.cols → (b i k).On g₁ ∧ (symOf t a k j).On g₂)
        (r i j)
        (∑ k ∈ range A.cols, (b i k).val * (symOf t a k j).val)
        (∑ k ∈ range A.cols, size (b i k).val * size (symOf t a k j).val) := by
  refine (C54_symm_right A t B C h a b hA hB hC hsq hr hk hc hu hAC hBC).mono fun _ h' hb => ⟨_, hb, fun i j hi hj => ?_⟩
  exact (ex_products_zero H A.cols (b i) (fun k => symOf t a k j)).toExact

example (t : Triangle) := C70_complex_symm_right binary64_integers (A.view : MatV Z) t W.view ⟨2, 3, C.addr⟩ (heap Z) _ _
  (mholdsV bA) (mholdsV bW) (malloc fun i j hi hj => bC i j (by simp only [C] at *; omega) hj) rfl rfl rfl
  rfl (by view_facts) (by view_facts) (by view_facts)

/-- **C70** `hermitian_matrix_product(A, t, B, C)` -/
theorem C70_complex_hemm_left {F : Format} {R : Recovery F} {N : ℕ} {g₁ g₂ : ℝ} (H : F.Grid N (g₁ * g₂)) (A : MatV (CFP F R)) (t : Triangle)
    (B : MatV (CFP F R)) (C : Mat) (h : Heap (CFP F R)) (a b : Nat → Nat → CFP F R)
    (hA : A.HoldsOn h t.region a) (hB : B.Holds h b) (hC : C.Alloc h) (hsq : A.rows = A.cols)
    (hr : C.rows = A.rows) (hk : A.cols = B.rows) (hc : C.cols = B.cols) (hu : C.Unique)
    (hAC : Apart (A.toMat.CellOn t.region) C.Cell) (hBC : Apart B.toMat.Cell C.Cell) :
    Ends (hemmLeft A t B C) h fun _ h' => ∃ r, C.Becomes h h' r ∧
      ∀ i j, i < C.rows → j < C.cols →
      CFP.Exact N (g₁ * g₂)
        (∀ k, k < A.cols → (hermOf t a i k).On g₁ ∧ (b k j).On g₂)
        (r i j)
        (∑ k ∈ range A.cols, (hermOf t a i k).val * (b k j).val)
        (∑ k ∈ range A.cols, size (hermOf t a i k).val * size (b k j).val) := by
  refine (C54_hemm_left A t B C h a b hA hB hC hsq hr hk hc hu hAC hBC).mono fun _ h' hb => ⟨_, hb, fun i j hi hj => ?_⟩
  exact (ex_products_zero H A.cols (hermOf t a i) (fun k => b k j)).toExact

example (t : Triangle) := C70_complex_hemm_left binary64_integers (A.view : MatV Z) t T.view ⟨3, 2, C.addr⟩ (heap Z) _ _
  (mholdsV bA) (mholdsV bT) (malloc fun i j hi hj => bC i j hi (by simp only [C] at *; omega)) rfl rfl rfl
  rfl (by view_facts) (by view_facts) (by view_facts)

/-- **C70** `hermitian_matrix_product(B, A, t, C)` -/
theorem C70_complex_hemm_right {F : Format} {R : Recovery F} {N : ℕ} {g₁ g₂ : ℝ} (H : F.Grid N (g₁ * g₂)) (A : MatV (CFP F R)) (t : Triangle)
    (B : MatV (CFP F R)) (C : Mat) (h : Heap (CFP F R)) (a b : Nat → Nat → CFP F R)
    (hA : A.HoldsOn h t.region a) (hB : B.Holds h b) (hC : C.Alloc h) (hsq : A.rows = A.cols)
    (hr : C.rows = B.rows) (hk : B.cols = A.rows) (hc : C.cols = A.cols) (hu : C.Unique)
    (hAC : Apart (A.toMat.CellOn t.region) C.Cell) (hBC : Apart B.toMat.Cell C.Cell) :
    Ends (hemmRight B A t C) h fun _ h' => ∃ r, C.Becomes h h' r ∧
      ∀ i j, i < C.rows → j < C.cols →
      CFP.Exact N (g₁ * g₂)
        (∀ k, k < A.cols → (b i k).On g₁ ∧ (if k = j then a j j else hermOf t a k j).On g₂)
        (r i j)
        (∑ k ∈ range A.cols, (b i k).val * (if k = j then a j j else hermOf t a k j).val)
        (∑ k ∈ range A.cols, size (b i k).val * size (if k = j then a j j else hermOf t a k j).val) := by
  refine (C54_hemm_right A t B C h a b hA hB hC hsq hr hk hc hu hAC hBC).mono fun _ h' hb => ⟨_, hb, fun i j hi hj => ?_⟩
  exact (ex_products_zero H A.cols (b i) (fun k => if k = j then a j j else hermOf t a k j)).toExact

example (t : Triangle) := C70_complex_hemm_right binary64_integers (A.view : MatV Z) t W.view ⟨2, 3, C.addr⟩ (heap Z) _ _
  (mholdsV bA) (mholdsV bW) (malloc fun i j hi hj => bC i j (by simp only [C] at *; omega) hj) rfl rfl rfl
  rfl (by view_facts) (by view_facts) (by view_facts)

/-- **C70** `triangular_matrix_product(A, t, d, B, C)` -/
theorem C70_complex_trmm_left {F : Format} {R : Recovery F} {N : ℕ} {g₁ g₂ : ℝ} (H : F.Grid N (g₁ * g₂)) (A : MatV (CFP F R)) (t : Triangle)
    (d : Diag) (B : MatV (CFP F R)) (C : Mat) (h : Heap (CFP F R)) (a b : Nat → Nat → CFP F R)
    (hA : A.HoldsOn h (triRegion t d) a) (hB : B.Holds h b) (hC : C.Alloc h)
    (hsq : A.rows = A.cols) (hr : C.rows = A.rows) (hk : A.cols = B.rows) (hc : C.cols = B.cols)
    (hu : C.Unique) (hAC : Apart (A.toMat.CellOn (triRegion t d)) C.Cell)
    (hBC : Apart B.toMat.Cell C.Cell)
    (h1 : d = .implicitUnit → Multiple g₁ 1) :
    Ends (trmmLeft A t d B C) h fun _ h' => ∃ r, C.Becomes h h' r ∧
      ∀ i j, i < C.rows → j < C.cols →
      CFP.Exact N (g₁ * g₂)
        (∀ k, k < A.cols → t.region i k → (b k j).On g₂ ∧ (triRegion t d i k → (a i k).On g₁))
        (r i j)
        (∑ k ∈ range A.cols, triOf t d (fun i j => (a i j).val) i k * (b k j).val)
        (∑ k ∈ range A.cols, size (triOf t d (fun i j => (a i j).val) i k) * size (b k j).val) := by
  refine (C54_trmm_left A t d B C h a b hA hB hC hsq hr hk hc hu hAC hBC).mono fun _ h' hb => ⟨_, hb, fun i j hi hj => ?_⟩
  exact (ex_triLeft H t d h1 a (fun k => b k j) 0 hsq (by omega)).from_zero.toExact

example (t : Triangle) (d : Diag) := C70_complex_trmm_left binary64_integers (A.view : MatV Z) t d T.view ⟨3, 2, C.addr⟩ (heap Z) _ _
  (mholdsV bA) (mholdsV bT) (malloc fun i j hi hj => bC i j hi (by simp only [C] at *; omega)) rfl rfl rfl
  rfl (by view_facts) (by view_facts) (by view_facts) H1

/-- **C70** `triangular_matrix_product(B, A, t, d, C)` -/
theorem C70_complex_trmm_right {F : Format} {R : Recovery F} {N : ℕ} {g₁ g₂ : ℝ} (H : F.Grid N (g₁ * g₂)) (A : MatV (CFP F R)) (t : Triangle)
    (d : Diag) (B : MatV (CFP F R)) (C : Mat) (h : Heap (CFP F R)) (a b : Nat → Nat → CFP F R)
    (hA : A.HoldsOn h (triRegion t d) a) (hB : B.Holds h b) (hC : C.Alloc h)
    (hsq : A.rows = A.cols) (hr : C.rows = B.rows) (hk : B.cols = A.rows) (hc : C.cols = A.cols)
    (hu : C.Unique) (hAC : Apart (A.toMat.CellOn (triRegion t d)) C.Cell)
    (hBC : Apart B.toMat.Cell C.Cell)
    (h1 : d = .implicitUnit → Multiple g₂ 1) :
    Ends (trmmRight B A t d C) h fun _ h' => ∃ r, C.Becomes h h' r ∧
      ∀ i j, i < C.rows → j < C.cols →
      CFP.Exact N (g₁ * g₂)
        (∀ k, k < A.cols → t.region k j → (b i k).On g₁ ∧ (triRegion t d k j → (a k j).On g₂))
        (r i j)
        (∑ k ∈ range A.cols, (b i k).val * triOf t d (fun i j => (a i j).val) k j)
        (∑ k ∈ range A.cols, size (b i k).val * size (triOf t d (fun i j => (a i j).val) k j)) := by
  refine (C54_trmm_right A t d B C h a b hA hB hC hsq hr hk hc hu hAC hBC).mono fun _ h' hb => ⟨_, hb, fun i j hi hj => ?_⟩
  exact (ex_triRight H t d h1 a (b i) 0 hsq (by omega)).from_zero.toExact

example (t : Triangle) (d : Diag) := C70_complex_trmm_right binary64_integers (A.view : MatV Z) t d W.view ⟨2, 3, C.addr⟩ (heap Z) _ _
  (mholdsV bA) (mholdsV bW) (malloc fun i j hi hj => bC i j (by simp only [C] at *; omega) hj) rfl rfl rfl
  rfl (by view_facts) (by view_facts) (by view_facts) H1

/-- **C70** `triangular_matrix_left_product(A, t, d, C)`, in place -/
theorem C70_complex_trmm_left_in_place {F : Format} {R : Recovery F} {N : ℕ} {g₁ g₂ : ℝ} (H : F.Grid N (g₁ * g₂)) (A : MatV (CFP F R))
    (t : Triangle) (d : Diag) (C : Mat) (h : Heap (CFP F R)) (a c : Nat → Nat → CFP F R)
    (hA : A.HoldsOn h (triRegion t d) a) (hC : C.Holds h c) (hsq : A.rows = A.cols)
    (hr : C.rows = A.rows) (hu : C.Unique) (hAC : Apart (A.toMat.CellOn (triRegion t d)) C.Cell)
    (h1 : d = .implicitUnit → Multiple g₁ 1) :
    Ends (trmmLeftInPlace A t d C) h fun _ h' => ∃ r, C.Becomes h h' r ∧
      ∀ i j, i < C.rows → j < C.cols →
      CFP.Exact N (g₁ * g₂)
        (∀ k, k < A.cols → t.region i k → (c k j).On g₂ ∧ (triRegion t d i k → (a i k).On g₁))
        (r i j)
        (∑ k ∈ range A.cols, triOf t d (fun i j => (a i j).val) i k * (c k j).val)
        (∑ k ∈ range A.cols, size (triOf t d (fun i j => (a i j).val) i k) * size (c k j).val) := by
  refine (C54_trmm_left_in_place A t d C h a c hA hC hsq hr hu hAC).mono fun _ h' hb => ⟨_, hb, fun i j hi hj => ?_⟩
  exact (ex_triSeqInPlace H t d h1 a (fun k => c k j) (by omega) (.inl rfl)).toExact

example (t : Triangle) (d : Diag) := C70_complex_trmm_left_in_place binary64_integers (A.view : MatV Z) t d T (heap Z) _ _ (mholdsV bA)
  (mholds bT) rfl rfl (by view_facts) (by view_facts) H1

/-- **C70** `triangular_matrix_right_product(A, t, d, C)`, in place -/
theorem C70_complex_trmm_right_in_place {F : Format} {R : Recovery F} {N : ℕ} {g₁ g₂ : ℝ} (H : F.Grid N (g₁ * g₂)) (A : MatV (CFP F R))
    (t : Triangle) (d : Diag) (C : Mat) (h : Heap (CFP F R)) (a c : Nat → Nat → CFP F R)
    (hA : A.HoldsOn h (triRegion t d) a) (hC : C.Holds h c) (hsq : A.rows = A.cols)
    (hr : C.cols = A.cols) (hu : C.Unique) (hAC : Apart (A.toMat.CellOn (triRegion t d)) C.Cell)
    (h1 : d = .implicitUnit → Multiple g₂ 1) :
    Ends (trmmRightInPlace A t d C) h fun _ h' => ∃ r, C.Becomes h h' r ∧
      ∀ i j, i < C.rows → j < C.cols →
      CFP.Exact N (g₁ * g₂)
        (∀ k, k < A.cols → t.region k j → (c i k).On g₁ ∧ (triRegion t d k j → (a k j).On g₂))
        (r i j)
        (∑ k ∈ range A.cols, (c i k).val * triOf t d (fun i j => (a i j).val) k j)
        (∑ k ∈ range A.cols, size (c i k).val * size (triOf t d (fun i j => (a i j).val) k j)) := by
  refine (C54_trmm_right_in_place A t d C h a c hA hC hsq hr hu hAC).mono fun _ h' hb => ⟨_, hb, fun i j hi hj => ?_⟩
  cases t
  · exact (ex_triRightInPlace_upper H d h1 a (c i) (by omega)).toExact
  · exact (ex_triRightInPlace_lower H d h1 a (c i) (by omega)).toExact

example (t : Triangle) (d : Diag) := C70_complex_trmm_right_in_place binary64_integers (A.view : MatV Z) t d W (heap Z) _ _ (mholdsV bA)
  (mholds bW) rfl rfl (by view_facts) (by view_facts) H1

/-! ## Rank updates -/

/-- **C70** `matrix_rank_1_update(x, y, A)` -/
theorem C70_complex_ger {F : Format} {R : Recovery F} {N : ℕ} {g₁ g₂ : ℝ} (H : F.Grid N (g₁ * g₂)) (x y : VecV (CFP F R)) (A : Mat)
    (h : Heap (CFP F R)) (f g : Nat → CFP F R) (a : Nat → Nat → CFP F R) (hx : x.Holds h f)
    (hy : y.Holds h g) (hA : A.Holds h a) (hxe : A.rows ≤ x.ext) (hye : A.cols ≤ y.ext)
    (hu : A.Unique) (hxA : Apart x.toVec.Cell A.Cell) (hyA : Apart y.toVec.Cell A.Cell) :
    Ends (ger x y A) h fun _ h' => ∃ r, A.Becomes h h' r ∧
      ∀ i j, i < A.rows → j < A.cols →
      CFP.Exact N (g₁ * g₂)
        ((a i j).On (g₁ * g₂) ∧ (f i).On g₁ ∧ (g j).On g₂)
        (r i j)
        ((a i j).val + (f i).val * (g j).val)
        (size (a i j).val + size (f i).val * size (g j).val) := by
  refine (C25_ger x y A h f g a hx hy hA hxe hye hu hxA hyA).mono fun _ h' hb => ⟨_, hb, fun i j hi hj => ?_⟩
  exact (((ex_input _).add H (ex_mul H (f i) (g j)))).toExact

example := C70_complex_ger binary64_integers (x.view : VecV Z) y.view A (heap Z) _ _ _ (holdsV bx) (holdsV by_) (mholds bA)
  le_rfl le_rfl (by view_facts) (by view_facts) (by view_facts)

/-- **C70** `matrix_rank_1_update_c(x, y, A)` -/
theorem C70_complex_gerc {F : Format} {R : Recovery F} {N : ℕ} {g₁ g₂ : ℝ} (H : F.Grid N (g₁ * g₂)) (x y : VecV (CFP F R)) (A : Mat)
    (h : Heap (CFP F R)) (f g : Nat → CFP F R) (a : Nat → Nat → CFP F R) (hx : x.Holds h f)
    (hy : y.Holds h g) (hA : A.Holds h a) (hxe : A.rows ≤ x.ext) (hye : A.cols ≤ y.ext)
    (hu : A.Unique) (hxA : Apart x.toVec.Cell A.Cell) (hyA : Apart y.toVec.Cell A.Cell) :
    Ends (gerc x y A) h fun _ h' => ∃ r, A.Becomes h h' r ∧
      ∀ i j, i < A.rows → j < A.cols →
      CFP.Exact N (g₁ * g₂)
        ((a i j).On (g₁ * g₂) ∧ (f i).On g₁ ∧ (g j).On g₂)
        (r i j)
        ((a i j).val + (f i).val * conj (g j).val)
        (size (a i j).val + size (f i).val * size (g j).val) := by
  refine (C25_gerc x y A h f g a hx hy hA hxe hye hu hxA hyA).mono fun _ h' hb => ⟨_, hb, fun i j hi hj => ?_⟩
  exact (((ex_input _).add H (ex_mul_conj H (f i) (g j)))).toExact

example := C70_complex_gerc binary64_integers (x.view : VecV Z) y.view A (heap Z) _ _ _ (holdsV bx) (holdsV by_) (mholds bA)
  le_rfl le_rfl (by view_facts) (by view_facts) (by view_facts)

/-- **C70** `symmetric_matrix_rank_1_update(x, A, t)` -/
theorem C70_complex_syr {F : Format} {R : Recovery F} {N : ℕ} {g₁ g₂ : ℝ} (H : F.Grid N (g₁ * g₂)) (x : VecV (CFP F R)) (A : Mat) (t : Triangle)
    (h : Heap (CFP F R)) (f : Nat → CFP F R) (a : Nat → Nat → CFP F R) (hx : x.Holds h f)
    (hA : A.HoldsOn h t.region a) (hsq : A.rows = A.cols) (hxe : A.rows ≤ x.ext)
    (hu : A.UniqueOn t.region) (hxA : Apart x.toVec.Cell (A.CellOn t.region)) :
    Ends (syr x A t) h fun _ h' => ∃ r, A.BecomesOn h h' t.region r ∧
      ∀ i j, i < A.rows → j < A.cols → t.region i j →
      CFP.Exact N (g₁ * g₂)
        ((a i j).On (g₁ * g₂) ∧ (f i).On g₁ ∧ (f j).On g₂)
        (r i j)
        ((a i j).val + (f i).val * (f j).val)
        (size (a i j).val + size (f i).val * size (f j).val) := by
  refine (C26_syr x A t h f a hx hA hsq hxe hu hxA).mono fun _ h' hb => ⟨_, hb, fun i j hi hj hr => ?_⟩
  exact (((ex_input _).add H (ex_mul H (f i) (f j)))).toExact

example (t : Triangle) := C70_complex_syr binary64_integers (x.view : VecV Z) B t (heap Z) _ _ (holdsV bx) (mholds bB) rfl le_rfl
  (by view_facts) (by view_facts)

/-- **C70** `symmetric_matrix_rank_1_update(alpha, x, A, t)`: `alpha * x(i)` is computed first, and has
to be exact by itself -/
theorem C70_complex_syr_alpha {F : Format} {R : Recovery F} {N : ℕ} {g₁ g₂ g₃ : ℝ} (H : F.Grid N (g₁ * g₂))
    (H3 : F.Grid N (g₁ * g₂ * g₃)) (alpha : CFP F R) (x : VecV (CFP F R))
    (A : Mat) (t : Triangle) (h : Heap (CFP F R)) (f : Nat → CFP F R) (a : Nat → Nat → CFP F R)
    (hx : x.Holds h f) (hA : A.HoldsOn h t.region a) (hsq : A.rows = A.cols)
    (hxe : A.rows ≤ x.ext) (hu : A.UniqueOn t.region)
    (hxA : Apart x.toVec.Cell (A.CellOn t.region)) :
    Ends (syrAlpha alpha x A t) h fun _ h' => ∃ r, A.BecomesOn h h' t.region r ∧
      ∀ i j, i < A.rows → j < A.cols → t.region i j →
      CFP.Exact N (g₁ * g₂ * g₃)
        ((a i j).On (g₁ * g₂ * g₃) ∧ (alpha.On g₁ ∧ (f i).On g₂) ∧
          size alpha.val * size (f i).val ≤ N * (g₁ * g₂) ∧ (f j).On g₃)
        (r i j)
        ((a i j).val + alpha.val * (f i).val * (f j).val)
        (size (a i j).val + size alpha.val * size (f i).val * size (f j).val) := by
  refine (C26_syrAlpha alpha x A t h f a hx hA hsq hxe hu hxA).mono fun _ h' hb => ⟨_, hb, fun i j hi hj hr => ?_⟩
  exact (((ex_input _).add H3 ((ex_mul H alpha (f i)).mul_input H3 (b := f j)))).toExact

example (t : Triangle) := C70_complex_syr_alpha binary64_integers binary64_integers₃ ((5 : ℤ) : Z) (x.view : VecV Z) B t (heap Z) _ _ (holdsV bx)
  (mholds bB) rfl le_rfl (by view_facts) (by view_facts)

/-- **C70** `hermitian_matrix_rank_1_update(x, A, t)` -/
theorem C70_complex_her {F : Format} {R : Recovery F} {N : ℕ} {g₁ g₂ : ℝ} (H : F.Grid N (g₁ * g₂)) (x : VecV (CFP F R)) (A : Mat) (t : Triangle)
    (h : Heap (CFP F R)) (f : Nat → CFP F R) (a : Nat → Nat → CFP F R) (hx : x.Holds h f)
    (hA : A.HoldsOn h t.region a) (hsq : A.rows = A.cols) (hxe : A.rows ≤ x.ext)
    (hu : A.UniqueOn t.region) (hxA : Apart x.toVec.Cell (A.CellOn t.region)) :
    Ends (her x A t) h fun _ h' => ∃ r, A.BecomesOn h h' t.region r ∧
      ∀ i j, i < A.rows → j < A.cols → t.region i j →
      CFP.Exact N (g₁ * g₂)
        ((realDiag a i j).On (g₁ * g₂) ∧ (f i).On g₁ ∧ (f j).On g₂)
        (r i j)
        ((realDiag a i j).val + (f i).val * conj (f j).val)
        (size (realDiag a i j).val + size (f i).val * size (f j).val) := by
  refine (C26_her x A t h f a hx hA hsq hxe hu hxA).mono fun _ h' hb => ⟨_, hb, fun i j hi hj hr => ?_⟩
  exact (((ex_input _).add H (ex_mul_conj H (f i) (f j)))).toExact

example (t : Triangle) := C70_complex_her binary64_integers (x.view : VecV Z) B t (heap Z) _ _ (holdsV bx) (mholds bB) rfl le_rfl
  (by view_facts) (by view_facts)

/-- **C70** `hermitian_matrix_rank_1_update(alpha, x, A, t)`: `alpha * x(i)` is computed first, and has
to be exact by itself -/
theorem C70_complex_her_alpha {F : Format} {R : Recovery F} {N : ℕ} {g₁ g₂ g₃ : ℝ} (H : F.Grid N (g₁ * g₂))
    (H3 : F.Grid N (g₁ * g₂ * g₃)) (alpha : CFP F R) (x : VecV (CFP F R))
    (A : Mat) (t : Triangle) (h : Heap (CFP F R)) (f : Nat → CFP F R) (a : Nat → Nat → CFP F R)
    (hx : x.Holds h f) (hA : A.HoldsOn h t.region a) (hsq : A.rows = A.cols)
    (hxe : A.rows ≤ x.ext) (hu : A.UniqueOn t.region)
    (hxA : Apart x.toVec.Cell (A.CellOn t.region)) :
    Ends (herAlpha alpha x A t) h fun _ h' => ∃ r, A.BecomesOn h h' t.region r ∧
      ∀ i j, i < A.rows → j < A.cols → t.region i j →
      CFP.Exact N (g₁ * g₂ * g₃)
        ((realDiag a i j).On (g₁ * g₂ * g₃) ∧ (alpha.On g₁ ∧ (f i).On g₂) ∧
          size alpha.val * size (f i).val ≤ N * (g₁ * g₂) ∧ (f j).On g₃)
        (r i j)
        ((realDiag a i j).val + alpha.val * (f i).val * conj (f j).val)
        (size (realDiag a i j).val + size alpha.val * size (f i).val * size (f j).val) := by
  refine (C26_herAlpha alpha x A t h f a hx hA hsq hxe hu hxA).mono fun _ h' hb => ⟨_, hb, fun i j hi hj hr => ?_⟩
  exact (((ex_input _).add H3 ((ex_mul H alpha (f i)).mul_input_conj H3 (b := f j)))).toExact

example (t : Triangle) := C70_complex_her_alpha binary64_integers binary64_integers₃ ((5 : ℤ) : Z) (x.view : VecV Z) B t (heap Z) _ _ (holdsV bx)
  (mholds bB) rfl le_rfl (by view_facts) (by view_facts)

/-- **C70** `symmetric_matrix_rank_2_update(x, y, A, t)` -/
theorem C70_complex_syr2 {F : Format} {R : Recovery F} {N : ℕ} {g₁ g₂ : ℝ} (H : F.Grid N (g₁ * g₂)) (x y : VecV (CFP F R)) (A : Mat)
    (t : Triangle) (h : Heap (CFP F R)) (f g : Nat → CFP F R) (a : Nat → Nat → CFP F R) (hx : x.Holds h f)
    (hy : y.Holds h g) (hA : A.HoldsOn h t.region a) (hsq : A.rows = A.cols)
    (hxe : A.rows ≤ x.ext) (hye : A.rows ≤ y.ext) (hu : A.UniqueOn t.region)
    (hxA : Apart x.toVec.Cell (A.CellOn t.region)) (hyA : Apart y.toVec.Cell (A.CellOn t.region)) :
    Ends (syr2 x y A t) h fun _ h' => ∃ r, A.BecomesOn h h' t.region r ∧
      ∀ i j, i < A.rows → j < A.cols → t.region i j →
      CFP.Exact N (g₁ * g₂)
        ((a i j).On (g₁ * g₂) ∧ ((f i).On g₁ ∧ (g j).On g₂) ∧ (g i).On g₁ ∧ (f j).On g₂)
        (r i j)
        ((a i j).val + ((f i).val * (g j).val + (g i).val * (f j).val))
        (size (a i j).val + (size (f i).val * size (g j).val + size (g i).val * size (f j).val)) := by
  refine (C27_syr2 x y A t h f g a hx hy hA hsq hxe hye hu hxA hyA).mono fun _ h' hb => ⟨_, hb, fun i j hi hj hr => ?_⟩
  exact (((ex_input _).add H ((ex_mul H _ _).add H (ex_mul H _ _)))).toExact

example (t : Triangle) := C70_complex_syr2 binary64_integers (x.view : VecV Z) y.view B t (heap Z) _ _ _ (holdsV bx) (holdsV by_)
  (mholds bB) rfl le_rfl le_rfl (by view_facts) (by view_facts) (by view_facts)

/-- **C70** `hermitian_matrix_rank_2_update(x, y, A, t)` -/
theorem C70_complex_her2 {F : Format} {R : Recovery F} {N : ℕ} {g₁ g₂ : ℝ} (H : F.Grid N (g₁ * g₂)) (x y : VecV (CFP F R)) (A : Mat)
    (t : Triangle) (h : Heap (CFP F R)) (f g : Nat → CFP F R) (a : Nat → Nat → CFP F R) (hx : x.Holds h f)
    (hy : y.Holds h g) (hA : A.HoldsOn h t.region a) (hsq : A.rows = A.cols)
    (hxe : A.rows ≤ x.ext) (hye : A.rows ≤ y.ext) (hu : A.UniqueOn t.region)
    (hxA : Apart x.toVec.Cell (A.CellOn t.region)) (hyA : Apart y.toVec.Cell (A.CellOn t.region)) :
    Ends (her2 x y A t) h fun _ h' => ∃ r, A.BecomesOn h h' t.region r ∧
      ∀ i j, i < A.rows → j < A.cols → t.region i j →
      CFP.Exact N (g₁ * g₂)
        ((realDiag a i j).On (g₁ * g₂) ∧ ((f i).On g₁ ∧ (g j).On g₂) ∧ (g i).On g₁ ∧ (f j).On g₂)
        (r i j)
        ((realDiag a i j).val + ((f i).val * conj (g j).val + (g i).val * conj (f j).val))
        (size (realDiag a i j).val + (size (f i).val * size (g j).val + size (g i).val * size (f j).val)) := by
  refine (C27_her2 x y A t h f g a hx hy hA hsq hxe hye hu hxA hyA).mono fun _ h' hb => ⟨_, hb, fun i j hi hj hr => ?_⟩
  exact (((ex_input _).add H ((ex_mul_conj H _ _).add H (ex_mul_conj H _ _)))).toExact

example (t : Triangle) := C70_complex_her2 binary64_integers (x.view : VecV Z) y.view B t (heap Z) _ _ _ (holdsV bx) (holdsV by_)
  (mholds bB) rfl le_rfl le_rfl (by view_facts) (by view_facts) (by view_facts)

/-- **C70** `symmetric_matrix_rank_k_update(A, C, t)` -/
theorem C70_complex_syrk {F : Format} {R : Recovery F} {N : ℕ} {g₁ g₂ : ℝ} (H : F.Grid N (g₁ * g₂)) (A : MatV (CFP F R)) (C : Mat) (t : Triangle)
    (h : Heap (CFP F R)) (a c : Nat → Nat → CFP F R) (hA : A.Holds h a) (hC : C.HoldsOn h t.region c)
    (hsq : C.rows = C.cols) (hAe : C.rows ≤ A.rows) (hu : C.UniqueOn t.region)
    (hAC : Apart A.toMat.Cell (C.CellOn t.region)) :
    Ends (syrk A C t) h fun _ h' => ∃ r, C.BecomesOn h h' t.region r ∧
      ∀ i j, i < C.rows → j < C.cols → t.region i j →
      CFP.Exact N (g₁ * g₂)
        ((c i j).On (g₁ * g₂) ∧ ∀ k, k < A.cols → (a i k).On g₁ ∧ (a j k).On g₂)
        (r i j)
        ((c i j).val + ∑ k ∈ range A.cols, (a i k).val * (a j k).val)
        (size (c i j).val + ∑ k ∈ range A.cols, size (a i k).val * size (a j k).val) := by
  refine (C54_syrk A C t h a c hA hC hsq hAe hu hAC).mono fun _ h' hb => ⟨_, hb, fun i j hi hj hr => ?_⟩
  exact ((Ex.leftSum H (ex_input _) fun k _ =>
    ex_mul H (a i k) (a j k))).toExact

example (t : Triangle) := C70_complex_syrk binary64_integers (T.view : MatV Z) C t (heap Z) _ _ (mholdsV bT)
  (mholds bC) rfl le_rfl (by view_facts) (by view_facts)

/-- **C70** `symmetric_matrix_rank_k_update(alpha, A, C, t)` -/
theorem C70_complex_syrk_alpha {F : Format} {R : Recovery F} {N : ℕ} {g₁ g₂ g₃ : ℝ} (H : F.Grid N (g₁ * g₂))
    (H3 : F.Grid N (g₁ * g₂ * g₃)) (alpha : CFP F R) (A : MatV (CFP F R))
    (C : Mat) (t : Triangle) (h : Heap (CFP F R)) (a c : Nat → Nat → CFP F R) (hA : A.Holds h a)
    (hC : C.HoldsOn h t.region c) (hsq : C.rows = C.cols) (hAe : C.rows ≤ A.rows)
    (hu : C.UniqueOn t.region) (hAC : Apart A.toMat.Cell (C.CellOn t.region)) :
    Ends (syrkAlpha alpha A C t) h fun _ h' => ∃ r, C.BecomesOn h h' t.region r ∧
      ∀ i j, i < C.rows → j < C.cols → t.region i j →
      CFP.Exact N (g₁ * g₂ * g₃)
        ((c i j).On (g₁ * g₂ * g₃) ∧ ∀ k, k < A.cols → (alpha.On g₁ ∧ (a i k).On g₂) ∧
          size alpha.val * size (a i k).val ≤ N * (g₁ * g₂) ∧ (a j k).On g₃)
        (r i j)
        ((c i j).val + ∑ k ∈ range A.cols, alpha.val * (a i k).val * (a j k).val)
        (size (c i j).val + ∑ k ∈ range A.cols, size alpha.val * size (a i k).val * size (a j k).val) := by
  refine (C54_syrk_alpha alpha A C t h a c hA hC hsq hAe hu hAC).mono fun _ h' hb => ⟨_, hb, fun i j hi hj hr => ?_⟩
  exact ((Ex.leftSum H3 (ex_input _) fun k _ =>
    (ex_mul H alpha (a i k)).mul_input H3 (b := a j k))).toExact

example (t : Triangle) := C70_complex_syrk_alpha binary64_integers binary64_integers₃ ((5 : ℤ) : Z) (T.view : MatV Z) C t (heap Z) _ _ (mholdsV bT)
  (mholds bC) rfl le_rfl (by view_facts) (by view_facts)

/-- **C70** `hermitian_matrix_rank_k_update(A, C, t)` -/
theorem C70_complex_herk {F : Format} {R : Recovery F} {N : ℕ} {g₁ g₂ : ℝ} (H : F.Grid N (g₁ * g₂)) (A : MatV (CFP F R)) (C : Mat) (t : Triangle)
    (h : Heap (CFP F R)) (a c : Nat → Nat → CFP F R) (hA : A.Holds h a) (hC : C.HoldsOn h t.region c)
    (hsq : C.rows = C.cols) (hAe : C.rows ≤ A.rows) (hu : C.UniqueOn t.region)
    (hAC : Apart A.toMat.Cell (C.CellOn t.region)) :
    Ends (herk A C t) h fun _ h' => ∃ r, C.BecomesOn h h' t.region r ∧
      ∀ i j, i < C.rows → j < C.cols → t.region i j →
      CFP.Exact N (g₁ * g₂)
        ((realDiag c i j).On (g₁ * g₂) ∧ ∀ k, k < A.cols → (a i k).On g₁ ∧ (a j k).On g₂)
        (r i j)
        ((realDiag c i j).val + ∑ k ∈ range A.cols, (a i k).val * conj (a j k).val)
        (size (realDiag c i j).val + ∑ k ∈ range A.cols, size (a i k).val * size (a j k).val) := by
  refine (C54_herk A C t h a c hA hC hsq hAe hu hAC).mono fun _ h' hb => ⟨_, hb, fun i j hi hj hr => ?_⟩
  exact ((Ex.leftSum H (ex_input _) fun k _ =>
    ex_mul_conj H (a i k) (a j k))).toExact

example (t : Triangle) := C70_complex_herk binary64_integers (T.view : MatV Z) C t (heap Z) _ _ (mholdsV bT)
  (mholds bC) rfl le_rfl (by view_facts) (by view_facts)

/-- **C70** `hermitian_matrix_rank_k_update(alpha, A, C, t)` -/
theorem C70_complex_herk_alpha {F : Format} {R : Recovery F} {N : ℕ} {g₁ g₂ g₃ : ℝ} (H : F.Grid N (g₁ * g₂))
    (H3 : F.Grid N (g₁ * g₂ * g₃)) (alpha : CFP F R) (A : MatV (CFP F R))
    (C : Mat) (t : Triangle) (h : Heap (CFP F R)) (a c : Nat → Nat → CFP F R) (hA : A.Holds h a)
    (hC : C.HoldsOn h t.region c) (hsq : C.rows = C.cols) (hAe : C.rows ≤ A.rows)
    (hu : C.UniqueOn t.region) (hAC : Apart A.toMat.Cell (C.CellOn t.region)) :
    Ends (herkAlpha alpha A C t) h fun _ h' => ∃ r, C.BecomesOn h h' t.region r ∧
      ∀ i j, i < C.rows → j < C.cols → t.region i j →
      CFP.Exact N (g₁ * g₂ * g₃)
        ((realDiag c i j).On (g₁ * g₂ * g₃) ∧ ∀ k, k < A.cols → (alpha.On g₁ ∧ (a i k).On g₂) ∧
          size alpha.val * size (a i k).val ≤ N * (g₁ * g₂) ∧ (a j k).On g₃)
        (r i j)
        ((realDiag c i j).val + ∑ k ∈ range A.cols, alpha.val * (a i k).val * conj (a j k).val)
        (size (realDiag c i j).val + ∑ k ∈ range A.cols, size alpha.val * size (a i k).val * size (a j k).val) := by
  refine (C54_herk_alpha alpha A C t h a c hA hC hsq hAe hu hAC).mono fun _ h' hb => ⟨_, hb, fun i j hi hj hr => ?_⟩
  exact ((Ex.leftSum H3 (ex_input _) fun k _ =>
    (ex_mul H alpha (a i k)).mul_input_conj H3 (b := a j k))).toExact

example (t : Triangle) := C70_complex_herk_alpha binary64_integers binary64_integers₃ ((5 : ℤ) : Z) (T.view : MatV Z) C t (heap Z) _ _ (mholdsV bT)
  (mholds bC) rfl le_rfl (by view_facts) (by view_facts)

/-- **C70** `symmetric_matrix_rank_2k_update(A, B, C, t)` -/
theorem C70_complex_syr2k {F : Format} {R : Recovery F} {N : ℕ} {g₁ g₂ : ℝ} (H : F.Grid N (g₁ * g₂)) (A B : MatV (CFP F R)) (C : Mat)
    (t : Triangle) (h : Heap (CFP F R)) (a b c : Nat → Nat → CFP F R) (hA : A.Holds h a)
    (hB : B.Holds h b) (hC : C.HoldsOn h t.region c) (hsq : C.rows = C.cols)
    (hAe : C.rows ≤ A.rows) (hBe : C.rows ≤ B.rows) (hAB : A.cols ≤ B.cols)
    (hu : C.UniqueOn t.region) (hAC : Apart A.toMat.Cell (C.CellOn t.region))
    (hBC : Apart B.toMat.Cell (C.CellOn t.region)) :
    Ends (syr2k A B C t) h fun _ h' => ∃ r, C.BecomesOn h h' t.region r ∧
      ∀ i j, i < C.rows → j < C.cols → t.region i j →
      CFP.Exact N (g₁ * g₂)
        ((c i j).On (g₁ * g₂) ∧ ∀ k, k < A.cols →
          ((a i k).On g₁ ∧ (b j k).On g₂) ∧ (b i k).On g₁ ∧ (a j k).On g₂)
        (r i j)
        ((c i j).val + ∑ k ∈ range A.cols,
          ((a i k).val * (b j k).val + (b i k).val * (a j k).val))
        (size (c i j).val + ∑ k ∈ range A.cols,
          (size (a i k).val * size (b j k).val + size (b i k).val * size (a j k).val)) := by
  refine (C54_syr2k A B C t h a b c hA hB hC hsq hAe hBe hAB hu hAC hBC).mono fun _ h' hb => ⟨_, hb, fun i j hi hj hr => ?_⟩
  exact ((Ex.leftSum H (ex_input _) fun k _ =>
    (ex_mul H (a i k) (b j k)).add H (ex_mul H (b i k) (a j k)))).toExact

example (t : Triangle) := C70_complex_syr2k binary64_integers (T.view : MatV Z) A.view C t (heap Z) _ _ _ (mholdsV bT) (mholdsV bA)
  (mholds bC) rfl le_rfl le_rfl (by decide) (by view_facts) (by view_facts) (by view_facts)

/-- **C70** `hermitian_matrix_rank_2k_update(A, B, C, t)` -/
theorem C70_complex_her2k {F : Format} {R : Recovery F} {N : ℕ} {g₁ g₂ : ℝ} (H : F.Grid N (g₁ * g₂)) (A B : MatV (CFP F R)) (C : Mat)
    (t : Triangle) (h : Heap (CFP F R)) (a b c : Nat → Nat → CFP F R) (hA : A.Holds h a)
    (hB : B.Holds h b) (hC : C.HoldsOn h t.region c) (hsq : C.rows = C.cols)
    (hAe : C.rows ≤ A.rows) (hBe : C.rows ≤ B.rows) (hAB : A.cols ≤ B.cols)
    (hu : C.UniqueOn t.region) (hAC : Apart A.toMat.Cell (C.CellOn t.region))
    (hBC : Apart B.toMat.Cell (C.CellOn t.region)) :
    Ends (her2k A B C t) h fun _ h' => ∃ r, C.BecomesOn h h' t.region r ∧
      ∀ i j, i < C.rows → j < C.cols → t.region i j →
      CFP.Exact N (g₁ * g₂)
        ((realDiag c i j).On (g₁ * g₂) ∧ ∀ k, k < A.cols →
          ((a i k).On g₁ ∧ (b j k).On g₂) ∧ (b i k).On g₁ ∧ (a j k).On g₂)
        (r i j)
        ((realDiag c i j).val + ∑ k ∈ range A.cols,
          ((a i k).val * conj (b j k).val + (b i k).val * conj (a j k).val))
        (size (realDiag c i j).val + ∑ k ∈ range A.cols,
          (size (a i k).val * size (b j k).val + size (b i k).val * size (a j k).val)) := by
  refine (C54_her2k A B C t h a b c hA hB hC hsq hAe hBe hAB hu hAC hBC).mono fun _ h' hb => ⟨_, hb, fun i j hi hj hr => ?_⟩
  exact ((Ex.leftSum H (ex_input _) fun k _ =>
    (ex_mul_conj H (a i k) (b j k)).add H (ex_mul_conj H (b i k) (a j k)))).toExact

example (t : Triangle) := C70_complex_her2k binary64_integers (T.view : MatV Z) A.view C t (heap Z) _ _ _ (mholdsV bT) (mholdsV bA)
  (mholds bC) rfl le_rfl le_rfl (by decide) (by view_facts) (by view_facts) (by view_facts)

/-! ## Sums of absolute values -/

/-- **C70** `vector_abs_sum(v, init)` with a real `init`: the sum of `|Re v(k)| + |Im v(k)|`. -/
theorem C70_complex_vector_abs_sum {F : Format} {R : Recovery F} {N : ℕ} {G : ℝ} (H : F.Grid N G)
    (modulus : CFP F R → FP F) (v : VecV (CFP F R)) (init : FP F) (h : Heap (CFP F R))
    (f : Nat → CFP F R) (hv : v.Holds h f) :
    letI := magOps modulus
    Ends (vectorAbsSumOf v init) h fun r h' => h' = h ∧
      FP.Exact N G
        (init.On G ∧ ∀ k, k < v.ext → (f k).On G)
        r
        (init.val + ∑ k ∈ range v.ext, size (f k).val)
        (|init.val| + ∑ k ∈ range v.ext, size (f k).val) := by
  let _ := magOps modulus
  refine (absSumOf_run hv init).mono ?_
  rintro _ _ ⟨rfl, rfl⟩
  exact ⟨rfl, (ex_absSum H v.ext f init).toExact⟩

example (modulus : Z → D) := C70_complex_vector_abs_sum binary64_integers modulus (x.view : VecV Z)
  ((5 : ℤ) : D) (heap Z) _ (holdsV bx)

/-! ## Solves

If the system has a solution in multiples of `g₂`, and the terms of every equation fit, then the solve
finds it. -/

/-- **C70** `triangular_matrix_vector_solve(A, t, d, b, x)` -/
theorem C70_complex_trsv {F : Format} {R : Recovery F} {N : ℕ} [Div (CFP F R)] {g₁ g₂ : ℝ} (H : F.Grid N (g₁ * g₂))
    (A : MatV (CFP F R)) (t : Triangle) (d : Diag) (B : VecV (CFP F R)) (X : Vec) (h : Heap (CFP F R))
    (a : Nat → Nat → CFP F R) (b : Nat → CFP F R) (v : Nat → ℂ)
    (hA : A.HoldsOn h (triRegion t d) a) (hB : B.Holds h b) (hX : X.Alloc h)
    (hsq : A.rows = A.cols) (hext : A.rows = X.ext) (hBe : A.rows ≤ B.ext) (hu : X.Unique)
    (hAX : Apart (A.toMat.CellOn (triRegion t d)) X.Cell) (hBX : B.toVec.Aligned X)
    (ha : ∀ i, i < A.cols → ∀ k, k < A.cols → triRegion t d i k → (a i k).On g₁)
    (hb : ∀ i, i < A.cols → (b i).On (g₁ * g₂))
    (hv : ∀ i, i < A.cols → Multiple g₂ (v i).re ∧ Multiple g₂ (v i).im ∧ size (v i) ≤ N * g₂)
    (hdiag : d = .explicit → ∀ i, i < A.cols → DividesExactly (· / ·) N g₂ (a i i))
    (hsolves : ∀ i, i < A.cols →
      ∑ k ∈ range A.cols, triOf t d (fun i j => (a i j).val) i k * v k = (b i).val)
    (hfit : ∀ i, i < A.cols → size (b i).val +
      ∑ k ∈ range A.cols, size (triOf t d (fun i j => (a i j).val) i k) * size (v k) ≤ N * (g₁ * g₂)) :
    Ends (trsv (· / ·) A t d B X) h fun _ h' => X.Becomes h h' fun i => fin (v i) :=
  (C54_trsv A t d B X h a b hA hB hX hsq hext hBe hu hAX hBX).mono fun _ _ ⟨_, hw, e⟩ =>
    Vec.Becomes.congr hw fun i hi =>
      ex_solve H (fun i k => ex_mul H (a i k) _) (fun i hi => e i (by omega)) ha hb
        (fun i hi => ⟨(hv i hi).1, (hv i hi).2.1⟩) (fun i hi => (hv i hi).2.2) hdiag hsolves hfit i (by omega)

/-- A 2×2 upper triangular system `(1+i 2; 0 2i) (v₀, v₁) = (8+4i, -4+6i)` with solution
`(1-i, 3+2i)`. -/
noncomputable def complexSystem : Heap Z := fun k => match k with
  | 0 => some (fin ⟨1, 1⟩) | 1 => some (fin ⟨2, 0⟩) | 2 => some (fin ⟨0, 2⟩)
  | 3 => some (fin ⟨8, 4⟩) | 4 => some (fin ⟨-4, 6⟩)
  | 5 => some (fin 0) | 6 => some (fin 0) | _ => none

namespace Witness
noncomputable def cA (i j : Nat) : Z :=
  if i + j = 0 then fin ⟨1, 1⟩ else if i + j = 1 then fin ⟨2, 0⟩ else fin ⟨0, 2⟩
noncomputable def cB (i : Nat) : Z := if i = 0 then fin ⟨8, 4⟩ else fin ⟨-4, 6⟩
noncomputable def cV (i : Nat) : ℂ := if i = 0 then ⟨1, -1⟩ else ⟨3, 2⟩

theorem on_int (a b : ℤ) : (fin ⟨a, b⟩ : Z).On 1 := ⟨⟨a, by simp⟩, ⟨b, by simp⟩⟩

theorem cA_on (i j : Nat) : (cA i j).On 1 := by
  unfold cA
  split_ifs
  · exact_mod_cast on_int 1 1
  · exact_mod_cast on_int 2 0
  · exact_mod_cast on_int 0 2

theorem cB_on (i : Nat) : (cB i).On (1 * 1) := by
  rw [mul_one]
  unfold cB
  split_ifs
  · exact_mod_cast on_int 8 4
  · exact_mod_cast on_int (-4) 6

theorem cV_on (i : Nat) : Multiple 1 (cV i).re ∧ Multiple 1 (cV i).im ∧
    size (cV i) ≤ (2 ^ 53 : ℕ) * 1 := by
  unfold cV
  split_ifs
  · exact ⟨⟨1, by simp⟩, ⟨-1, by simp⟩, by norm_num [size]⟩
  · exact ⟨⟨3, by simp⟩, ⟨2, by simp⟩, by norm_num [size]⟩

theorem cA_div (i : Nat) : DividesExactly (· / ·) (2 ^ 53) 1 (cA i i) := by
  refine roundedQuotient_exact (mul_one (1 : ℝ) ▸ binary64_integers) ?_ ?_
  · unfold cA; split_ifs <;> exact ⟨trivial, trivial⟩
  · unfold cA
    split_ifs <;> intro h
    · have := congrArg Complex.re h; norm_num [fin, CFP.val, FP.val] at this
    · have := congrArg Complex.re h; norm_num [fin, CFP.val, FP.val] at this
    · have := congrArg Complex.im h; norm_num [fin, CFP.val, FP.val] at this

theorem c_solves (i : Nat) (hi : i < 2) :
    ∑ k ∈ range 2, triOf .upper .explicit (fun i j => (cA i j).val) i k * cV k = (cB i).val := by
  interval_cases i <;> apply Complex.ext <;>
    norm_num [triOf, sum_range_succ, Triangle.region, cA, cB, cV, fin, CFP.val, FP.val]

theorem c_fit (i : Nat) (hi : i < 2) : size (cB i).val +
    ∑ k ∈ range 2, size (triOf .upper .explicit (fun i j => (cA i j).val) i k) * size (cV k) ≤
      (2 ^ 53 : ℕ) * (1 * 1) := by
  interval_cases i <;>
    norm_num [triOf, sum_range_succ, Triangle.region, cA, cB, cV, fin, CFP.val, FP.val, size]
end Witness

example : Ends (trsv (· / ·) (⟨2, 2, fun i j => i + j⟩ : Mat).view .upper .explicit
    (⟨2, fun i => 3 + i⟩ : Vec).view ⟨2, fun i => 5 + i⟩) complexSystem fun _ h' =>
      (⟨2, fun i => 5 + i⟩ : Vec).Becomes complexSystem h' fun i => fin (cV i) := by
  refine C70_complex_trsv (g₁ := 1) (g₂ := 1) binary64_integers _ .upper .explicit _
    ⟨2, fun i => 5 + i⟩ _ cA cB cV ?_ ?_ ?_ rfl rfl le_rfl ?_ ?_ ?_ (fun _ _ _ _ _ => cA_on _ _)
    (fun _ _ => cB_on _) (fun _ _ => cV_on _) (fun _ _ _ => cA_div _) c_solves c_fit
  · intro i j hi hj hr
    have hi : i < 2 := hi
    have hj : j < 2 := hj
    interval_cases i <;> interval_cases j <;> exact ⟨_, rfl, rfl⟩
  · intro i hi
    have hi : i < 2 := hi
    interval_cases i <;> exact ⟨_, rfl, rfl⟩
  · intro i hi
    have hi : i < 2 := hi
    interval_cases i <;> exact ⟨_, rfl⟩
  · view_facts
  · view_facts
  · view_facts

/-- **C70** `triangular_matrix_matrix_left_solve(A, t, d, B, X)` -/
theorem C70_complex_trsm_left {F : Format} {R : Recovery F} {N : ℕ} [Div (CFP F R)] {g₁ g₂ : ℝ} (H : F.Grid N (g₁ * g₂))
    (A : MatV (CFP F R)) (t : Triangle) (d : Diag) (B : MatV (CFP F R)) (X : Mat) (h : Heap (CFP F R))
    (a b : Nat → Nat → CFP F R) (v : Nat → Nat → ℂ)
    (hA : A.HoldsOn h (triRegion t d) a) (hB : B.Holds h b) (hX : X.Alloc h)
    (hsq : A.rows = A.cols) (hr : X.rows = A.rows) (hBr : B.rows = A.rows) (hc : X.cols = B.cols)
    (hu : X.Unique) (hAX : Apart (A.toMat.CellOn (triRegion t d)) X.Cell)
    (hBX : B.toMat.Aligned X)
    (ha : ∀ i, i < A.cols → ∀ k, k < A.cols → triRegion t d i k → (a i k).On g₁)
    (hb : ∀ i, i < A.cols → ∀ j, j < X.cols → (b i j).On (g₁ * g₂))
    (hv : ∀ i, i < A.cols → ∀ j, j < X.cols → Multiple g₂ (v i j).re ∧ Multiple g₂ (v i j).im ∧ size (v i j) ≤ N * g₂)
    (hdiag : d = .explicit → ∀ i, i < A.cols → DividesExactly (· / ·) N g₂ (a i i))
    (hsolves : ∀ i, i < A.cols → ∀ j, j < X.cols →
      ∑ k ∈ range A.cols, triOf t d (fun i j => (a i j).val) i k * v k j = (b i j).val)
    (hfit : ∀ i, i < A.cols → ∀ j, j < X.cols → size (b i j).val +
      ∑ k ∈ range A.cols, size (triOf t d (fun i j => (a i j).val) i k) * size (v k j) ≤ N * (g₁ * g₂)) :
    Ends (trsmLeft A t d B X) h fun _ h' => X.Becomes h h' fun i j => fin (v i j) :=
  (C54_trsm_left A t d B X h a b hA hB hX hsq hr hBr hc hu hAX hBX).mono fun _ _ ⟨w, hw, e⟩ =>
    Mat.BecomesOn.congr hw fun i j hi hj _ =>
      ex_solve (r := fun k => w k j) H (fun i k => ex_mul H (a i k) _) (fun i hi => e i j (by omega) hj) ha
        (fun i hi => hb i hi j hj) (fun i hi => ⟨(hv i hi j hj).1, (hv i hi j hj).2.1⟩)
        (fun i hi => (hv i hi j hj).2.2) hdiag
        (fun i hi => hsolves i hi j hj) (fun i hi => hfit i hi j hj) i (by omega)

example : Ends (trsmLeft (⟨2, 2, fun i j => i + j⟩ : Mat).view .upper .explicit
    (⟨2, 1, fun i _ => 3 + i⟩ : Mat).view ⟨2, 1, fun i _ => 5 + i⟩) complexSystem fun _ h' =>
      (⟨2, 1, fun i _ => 5 + i⟩ : Mat).Becomes complexSystem h' fun i _ => fin (cV i) := by
  refine C70_complex_trsm_left (g₁ := 1) (g₂ := 1) binary64_integers _ .upper .explicit _
    ⟨2, 1, fun i _ => 5 + i⟩ _ cA (fun i _ => cB i) (fun i _ => cV i) ?_ ?_ ?_ rfl rfl rfl rfl ?_ ?_ ?_
    (fun _ _ _ _ _ => cA_on _ _) (fun _ _ _ _ => cB_on _) (fun _ _ _ _ => cV_on _)
    (fun _ _ _ => cA_div _) (fun i hi _ _ => c_solves i hi) (fun i hi _ _ => c_fit i hi)
  · intro i j hi hj hr
    have hi : i < 2 := hi
    have hj : j < 2 := hj
    interval_cases i <;> interval_cases j <;> exact ⟨_, rfl, rfl⟩
  · intro i j hi hj _
    have hi : i < 2 := hi
    interval_cases i <;> exact ⟨_, rfl, rfl⟩
  · intro i j hi hj _
    have hi : i < 2 := hi
    interval_cases i <;> exact ⟨_, rfl⟩
  · view_facts
  · view_facts
  · view_facts

/-- **C70** `triangular_matrix_matrix_right_solve(A, t, d, B, X)` -/
theorem C70_complex_trsm_right {F : Format} {R : Recovery F} {N : ℕ} [Div (CFP F R)] {g₁ g₂ : ℝ} (H : F.Grid N (g₁ * g₂))
    (A : MatV (CFP F R)) (t : Triangle) (d : Diag) (B : MatV (CFP F R)) (X : Mat) (h : Heap (CFP F R))
    (a b : Nat → Nat → CFP F R) (v : Nat → Nat → ℂ)
    (hA : A.HoldsOn h (triRegion t d) a) (hB : B.Holds h b) (hX : X.Alloc h)
    (hsq : A.rows = A.cols) (hr : X.cols = A.cols) (hBr : B.cols = A.cols) (hc : X.rows = B.rows)
    (hu : X.Unique) (hAX : Apart (A.toMat.CellOn (triRegion t d)) X.Cell)
    (hBX : B.toMat.Aligned X)
    (ha : ∀ k, k < A.cols → ∀ j, j < A.cols → triRegion t d k j → (a k j).On g₁)
    (hb : ∀ i, i < X.rows → ∀ j, j < A.cols → (b i j).On (g₁ * g₂))
    (hv : ∀ i, i < X.rows → ∀ j, j < A.cols → Multiple g₂ (v i j).re ∧ Multiple g₂ (v i j).im ∧ size (v i j) ≤ N * g₂)
    (hdiag : d = .explicit → ∀ j, j < A.cols → DividesExactly (· / ·) N g₂ (a j j))
    (hsolves : ∀ i, i < X.rows → ∀ j, j < A.cols →
      ∑ k ∈ range A.cols, v i k * triOf t d (fun i j => (a i j).val) k j = (b i j).val)
    (hfit : ∀ i, i < X.rows → ∀ j, j < A.cols → size (b i j).val +
      ∑ k ∈ range A.cols, size (v i k) * size (triOf t d (fun i j => (a i j).val) k j) ≤ N * (g₁ * g₂)) :
    Ends (trsmRight A t d B X) h fun _ h' => X.Becomes h h' fun i j => fin (v i j) :=
  (C54_trsm_right A t d B X h a b hA hB hX hsq hr hBr hc hu hAX hBX).mono fun _ _ ⟨w, hw, e⟩ =>
    Mat.BecomesOn.congr hw fun i j hi hj _ => by
      refine ex_solve (r := fun k => w i k) (v := fun k => v i k) (t := t.other) (d := d)
        (a := fun i j => a j i) (b := fun j => b i j) (term := fun j k => w i k * a k j) H (fun j k => ?_) (fun j hj => e i j hi hj)
        (fun j hj k hk q => ?_) (fun j hj => hb i hi j hj)
        (fun j hj => ⟨(hv i hi j hj).1, (hv i hi j hj).2.1⟩) (fun j hj => (hv i hi j hj).2.2) hdiag
        (fun j hj => ?_) (fun j hj => ?_) j (by omega)
      · have := ex_mul (R := R) (mul_comm g₁ g₂ ▸ H) (w i k) (a k j)
        rw [mul_comm g₂ g₁] at this
        exact this.congr (fun h => ⟨h.2, h.1⟩) (mul_comm _ _) (mul_comm _ _)
      · exact ha k hk j hj ⟨by cases t <;> exact q.1, fun r => (q.2 r).symm⟩
      · rw [← hsolves i hi j hj]
        exact sum_congr rfl fun k _ => by
          rw [CInt.triOf_other t d (fun i j => (a i j).val), mul_comm]
      · refine le_of_eq_of_le (congrArg _ (sum_congr rfl fun k _ => ?_)) (hfit i hi j hj)
        rw [CInt.triOf_other t d (fun i j => (a i j).val), mul_comm]

namespace Witness
theorem c_solves' (j : Nat) (hj : j < 2) :
    ∑ k ∈ range 2, cV k * triOf .lower .explicit (fun i j => (cA i j).val) k j = (cB j).val := by
  interval_cases j <;> apply Complex.ext <;>
    norm_num [triOf, sum_range_succ, Triangle.region, cA, cB, cV, fin, CFP.val, FP.val]

theorem c_fit' (j : Nat) (hj : j < 2) : size (cB j).val +
    ∑ k ∈ range 2, size (cV k) * size (triOf .lower .explicit (fun i j => (cA i j).val) k j) ≤
      (2 ^ 53 : ℕ) * (1 * 1) := by
  interval_cases j <;>
    norm_num [triOf, sum_range_succ, Triangle.region, cA, cB, cV, fin, CFP.val, FP.val, size]
end Witness

example : Ends (trsmRight (⟨2, 2, fun i j => i + j⟩ : Mat).view .lower .explicit
    (⟨1, 2, fun _ j => 3 + j⟩ : Mat).view ⟨1, 2, fun _ j => 5 + j⟩) complexSystem fun _ h' =>
      (⟨1, 2, fun _ j => 5 + j⟩ : Mat).Becomes complexSystem h' fun _ j => fin (cV j) := by
  refine C70_complex_trsm_right (g₁ := 1) (g₂ := 1) binary64_integers _ .lower .explicit _
    ⟨1, 2, fun _ j => 5 + j⟩ _ cA (fun _ j => cB j) (fun _ j => cV j) ?_ ?_ ?_ rfl rfl rfl rfl ?_ ?_ ?_
    (fun _ _ _ _ _ => cA_on _ _) (fun _ _ _ _ => cB_on _) (fun _ _ _ _ => cV_on _)
    (fun _ _ _ => cA_div _) (fun _ _ j hj => c_solves' j hj) (fun _ _ j hj => c_fit' j hj)
  · intro i j hi hj hr
    have hi : i < 2 := hi
    have hj : j < 2 := hj
    interval_cases i <;> interval_cases j <;> exact ⟨_, rfl, rfl⟩
  · intro i j hi hj _
    have hj : j < 2 := hj
    interval_cases j <;> exact ⟨_, rfl, rfl⟩
  · intro i j hi hj _
    have hj : j < 2 := hj
    interval_cases j <;> exact ⟨_, rfl⟩
  · view_facts
  · view_facts
  · view_facts

end StdBLAS

import Verif.Lemmas.AccurateComplex
import Verif.Props.Accurate

/-!
# Property C62: accuracy for complex elements

As in `Props/Accurate`, for `std::complex` elements (`Spec/AccurateComplex`): products of finite numbers
take four multiplications, a subtraction and an addition, and what is done with products whose parts
are both NaN is a parameter `R`.  Errors and magnitudes are measured by `size z = |Re z| + |Im z|`.

`CFP.Accurate u m z inputs r e w` says that

* if `r` is finite then all `inputs` were finite, and the size of `r - e` is at most
  `((1 + u)^m - 1) * w + (1 + u)^m * z`;
* if all `inputs` are finite and `(1 + u)^m * (w + z)` is at most the largest finite number, then `r`
  is finite.

Where the code multiplies a real number (`real_if_needed`, the `c` of a rotation) and a complex one, the
model multiplies two complex numbers, the first with imaginary part zero.  The two products differ only
where an operand is not finite, and then neither of them is finite.

In the examples the elements are `std::complex<double>` and products follow Annex G of the C standard.
-/

namespace StdBLAS
open Finset Witness CFP ComplexConjugate

namespace Witness
/-- `std::complex<double>` -/
abbrev Z : Type := CFP binary64 (annexG binary64)

/-- Test data: the integer `k` stands for the number `k + (1 - 2 k) i`. -/
noncomputable scoped instance : IntCast Z := ⟨fun k => ⟨(k : D), ((1 - 2 * k : ℤ) : D)⟩⟩

theorem zint_valid (k : ℤ) : (k : Z).Valid := ⟨int_valid _, int_valid _⟩
theorem zvals_valid (v : Vec) (i : Nat) : (vals Z v i).Valid := zint_valid _
theorem zmvals_valid (M : Mat) (i j : Nat) : (mvals Z M i j).Valid := zint_valid _

/-- A small integer is represented exactly. -/
theorem zint_exact (k : ℤ) (h : |k| ≤ 2 ^ 50) :
    (k : Z).Finite ∧ (k : Z).val = (⟨(k : ℝ), 1 - 2 * (k : ℝ)⟩ : ℂ) := by
  have h1 := int_exact k (h.trans (by norm_num))
  have h2 := int_exact (1 - 2 * k) (by rw [abs_le] at *; constructor <;> omega)
  change ((k : D).Finite ∧ ((1 - 2 * k : ℤ) : D).Finite) ∧
    (⟨(k : D).val, ((1 - 2 * k : ℤ) : D).val⟩ : ℂ) = _
  rw [h1, h2]
  refine ⟨⟨trivial, trivial⟩, ?_⟩
  change (⟨(k : ℝ), ((1 - 2 * k : ℤ) : ℝ)⟩ : ℂ) = _
  push_cast
  rfl

theorem zmvals_A_finite (i j : Nat) (hi : i < 3) (hj : j < 3) : (mvals Z A i j).Finite :=
  (zint_exact ((A.addr i j : ℤ) - 7) (by simp only [A]; rw [abs_le]; constructor <;> omega)).1

noncomputable scoped instance : Div Z := ⟨roundedQuotient⟩
end Witness

/-! ## Vectors -/

/-- **C62** `dot(v1, v2, init)` -/
theorem C62_complex_dot {F : Format} {R : Recovery F} {u η : ℝ} (H : F.Errors u η) (v1 v2 : VecV (CFP F R)) (init : CFP F R)
    (h : Heap (CFP F R)) (f g : Nat → CFP F R) (h1 : v1.Holds h f) (h2 : v2.Holds h g)
    (hext : v1.ext ≤ v2.ext) (hv : init.Valid) :
    Ends (dot v1 v2 init) h fun r h' => h' = h ∧
      CFP.Accurate u (v1.ext + 2) (v1.ext * (4 * η))
        (init.Finite ∧ ∀ k, k < v1.ext → (f k).Finite ∧ (g k).Finite)
        r
        (init.val + ∑ k ∈ range v1.ext, (f k).val * (g k).val)
        (size init.val + ∑ k ∈ range v1.ext, size (f k).val * size (g k).val) := by
  refine (C54_dot v1 v2 init h f g h1 h2 hext).mono fun r h' hb => ⟨hb.2, ?_⟩
  rw [hb.1]
  exact (acc_products H v1.ext f g hv).toAccurate

/-- The dot product of these three-element vectors is finite, and off by at most
`((1 + 2^-53)^4 - 1) * 91 + (1 + 2^-53)^4 * 3 * 2^-1075`. -/
example := C62_complex_dot binary64_errors (x.view : VecV Z) y.view ((5 : ℤ) : Z) (heap Z) _ _ (holdsV bx)
  (holdsV by_) le_rfl (zint_valid 5)

/-- **C62** `dotc(v1, v2, init)` -/
theorem C62_complex_dotc {F : Format} {R : Recovery F} {u η : ℝ} (H : F.Errors u η) (v1 v2 : VecV (CFP F R)) (init : CFP F R)
    (h : Heap (CFP F R)) (f g : Nat → CFP F R) (h1 : v1.Holds h f) (h2 : v2.Holds h g)
    (hext : v1.ext ≤ v2.ext) (hv : init.Valid) :
    Ends (dotc v1 v2 init) h fun r h' => h' = h ∧
      CFP.Accurate u (v1.ext + 2) (v1.ext * (4 * η))
        (init.Finite ∧ ∀ k, k < v1.ext → (f k).Finite ∧ (g k).Finite)
        r
        (init.val + ∑ k ∈ range v1.ext, conj (f k).val * (g k).val)
        (size init.val + ∑ k ∈ range v1.ext, size (f k).val * size (g k).val) := by
  refine (C54_dotc v1 v2 init h f g h1 h2 hext).mono fun r h' hb => ⟨hb.2, ?_⟩
  rw [hb.1]
  refine ((acc_products H v1.ext (fun k => ConjOps.conj (f k)) g hv).congr ?_ ?_ ?_ rfl).toAccurate
  · simp only [finite_conj]
  · simp only [val_conj]
  · simp only [val_conj, size_conj]

example := C62_complex_dotc binary64_errors (x.view : VecV Z) y.view ((5 : ℤ) : Z) (heap Z) _ _ (holdsV bx)
  (holdsV by_) le_rfl (zint_valid 5)

/-- **C62** `scale(alpha, x)` -/
theorem C62_complex_scale_vector {F : Format} {R : Recovery F} {u η : ℝ} (H : F.Errors u η) (alpha : CFP F R) (x : Vec)
    (h : Heap (CFP F R)) (f : Nat → CFP F R) (hx : x.Holds h f) (hu : x.Unique) :
    Ends (scale1 alpha x) h fun _ h' => ∃ r, x.Becomes h h' r ∧ ∀ i, i < x.ext →
      CFP.Accurate u 2 (4 * η)
        ((f i).Finite ∧ alpha.Finite)
        (r i)
        ((f i).val * alpha.val)
        (size (f i).val * size alpha.val) := by
  refine (C11_scale_vector alpha x h f hx hu).mono fun _ h' hb => ⟨_, hb, fun i hi => ?_⟩
  exact (acc_mul H _ _).toAccurate

example := C62_complex_scale_vector binary64_errors ((5 : ℤ) : Z) y (heap Z) _ (holds by_) (by view_facts)

/-- **C62** `scale(alpha, A)` -/
theorem C62_complex_scale_matrix {F : Format} {R : Recovery F} {u η : ℝ} (H : F.Errors u η) (alpha : CFP F R) (A : Mat)
    (h : Heap (CFP F R)) (f : Nat → Nat → CFP F R) (hA : A.Holds h f) (hu : A.Unique) :
    Ends (scale2 alpha A) h fun _ h' => ∃ r, A.Becomes h h' r ∧
      ∀ i j, i < A.rows → j < A.cols →
      CFP.Accurate u 2 (4 * η)
        ((f i j).Finite ∧ alpha.Finite)
        (r i j)
        ((f i j).val * alpha.val)
        (size (f i j).val * size alpha.val) := by
  refine (C11_scale_matrix alpha A h f hA hu).mono fun _ h' hb => ⟨_, hb, fun i j hi hj => ?_⟩
  exact (acc_mul H _ _).toAccurate

example := C62_complex_scale_matrix binary64_errors ((5 : ℤ) : Z) A (heap Z) _ (mholds bA) (by view_facts)

/-- **C62** `add(x, y, z)`: one rounding in each part, and no underflow -/
theorem C62_complex_add_vector {F : Format} {R : Recovery F} {u η : ℝ} (H : F.Errors u η) (x y : VecV (CFP F R)) (z : Vec)
    (h : Heap (CFP F R)) (f g : Nat → CFP F R) (hx : x.Holds h f) (hy : y.Holds h g) (hz : z.Alloc h)
    (hex : z.ext ≤ x.ext) (hey : z.ext ≤ y.ext) (hu : z.Unique) (hax : x.toVec.Aligned z)
    (hay : y.toVec.Aligned z) (vf : ∀ i, i < z.ext → (f i).Valid)
    (vg : ∀ i, i < z.ext → (g i).Valid) :
    Ends (add1 x y z) h fun _ h' => ∃ r, z.Becomes h h' r ∧ ∀ i, i < z.ext →
      CFP.Accurate u 1 0
        ((f i).Finite ∧ (g i).Finite)
        (r i)
        ((f i).val + (g i).val)
        (size (f i).val + size (g i).val) := by
  refine (C12_add_vector x y z h f g hx hy hz hex hey hu hax hay).mono fun _ h' hb => ⟨_, hb, fun i hi => ?_⟩
  refine (((acc_input H.u_nonneg 0 (vf i hi)).add H (acc_input H.u_nonneg 0 (vg i hi))).congr Iff.rfl
    rfl rfl ?_).toAccurate
  rw [add_zero]

example := C62_complex_add_vector binary64_errors (x.view : VecV Z) y.view z (heap Z) _ _ (holdsV bx) (holdsV by_)
  (alloc bz) le_rfl le_rfl (by view_facts) (by view_facts) (by view_facts)
  (fun i _ => zvals_valid x i) fun i _ => zvals_valid y i

/-- **C62** `add(x, y, z)` for matrices -/
theorem C62_complex_add_matrix {F : Format} {R : Recovery F} {u η : ℝ} (H : F.Errors u η) (x y : MatV (CFP F R)) (z : Mat)
    (h : Heap (CFP F R)) (f g : Nat → Nat → CFP F R) (hx : x.Holds h f) (hy : y.Holds h g)
    (hz : z.Alloc h) (hr : x.rows = z.rows) (hc : x.cols = z.cols) (hr' : z.rows ≤ y.rows)
    (hc' : z.cols ≤ y.cols) (hu : z.Unique) (hax : x.toMat.Aligned z) (hay : y.toMat.Aligned z)
    (vf : ∀ i j, i < z.rows → j < z.cols → (f i j).Valid)
    (vg : ∀ i j, i < z.rows → j < z.cols → (g i j).Valid) :
    Ends (add2 x y z) h fun _ h' => ∃ r, z.Becomes h h' r ∧
      ∀ i j, i < z.rows → j < z.cols →
      CFP.Accurate u 1 0
        ((f i j).Finite ∧ (g i j).Finite)
        (r i j)
        ((f i j).val + (g i j).val)
        (size (f i j).val + size (g i j).val) := by
  refine (C12_add_matrix x y z h f g hx hy hz hr hc hr' hc' hu hax hay).mono fun _ h' hb => ⟨_, hb, fun i j hi hj => ?_⟩
  refine (((acc_input H.u_nonneg 0 (vf i j hi hj)).add H (acc_input H.u_nonneg 0 (vg i j hi hj))).congr Iff.rfl
    rfl rfl ?_).toAccurate
  rw [add_zero]

example := C62_complex_add_matrix binary64_errors (A.view : MatV Z) B.view C (heap Z) _ _ (mholdsV bA) (mholdsV bB)
  (malloc bC) rfl rfl le_rfl le_rfl (by view_facts) (by view_facts) (by view_facts)
  (fun i j _ _ => zmvals_valid A i j) fun i j _ _ => zmvals_valid B i j

/-- **C62** `apply_givens_rotation(x, y, c, s)`: with complex `s` -/
theorem C62_complex_apply_givens {F : Format} {R : Recovery F} {u η : ℝ} (H : F.Errors u η) (x y : Vec) (h : Heap (CFP F R))
    (f g : Nat → CFP F R) (c s : CFP F R) (hx : x.Holds h f) (hy : y.Holds h g) (hext : x.ext = y.ext)
    (hux : x.Unique) (huy : y.Unique) (hap : Apart x.Cell y.Cell) :
    Ends (applyGivensC x y c s) h fun _ h' => ∃ r r', x.Holds h' r ∧ y.Holds h' r' ∧
      OnlyChanges (fun a => x.Cell a ∨ y.Cell a) h h' ∧ ∀ i, i < x.ext →
      CFP.Accurate u 3 (8 * η) ((c.Finite ∧ (f i).Finite) ∧ s.Finite ∧ (g i).Finite) (r i)
        (c.val * (f i).val + s.val * (g i).val) (size c.val * size (f i).val + size s.val * size (g i).val) ∧
      CFP.Accurate u 3 (8 * η) ((c.Finite ∧ (g i).Finite) ∧ s.Finite ∧ (f i).Finite) (r' i)
        (c.val * (g i).val - conj s.val * (f i).val) (size c.val * size (g i).val + size s.val * size (f i).val) := by
  refine (C15_apply_givens_complex x y h f g c s hx hy hext hux huy hap).mono fun _ h' hb =>
    ⟨_, _, hb.1, hb.2.1, hb.2.2, fun i _ => ⟨?_, ?_⟩⟩
  · exact (((acc_mul H _ _).add H (acc_mul H _ _)).congr Iff.rfl rfl rfl (by ring)).toAccurate
  · exact (((acc_mul H _ _).sub H (acc_conj_mul H _ _)).congr Iff.rfl rfl rfl (by ring)).toAccurate

example := C62_complex_apply_givens binary64_errors x y (heap Z) _ _ ((3 : ℤ) : Z) ((-2 : ℤ) : Z) (holds bx)
  (holds by_) rfl (by view_facts) (by view_facts) (by view_facts)

/-! ## Matrix times vector -/

/-- **C62** `matrix_vector_product(A, x, y)` -/
theorem C62_complex_gemv {F : Format} {R : Recovery F} {u η : ℝ} (H : F.Errors u η) (A : MatV (CFP F R)) (x : VecV (CFP F R))
    (y : Vec) (h : Heap (CFP F R)) (a : Nat → Nat → CFP F R) (f : Nat → CFP F R) (hA : A.Holds h a)
    (hx : x.Holds h f) (hy : y.Alloc h) (hrows : y.ext = A.rows) (hcols : A.cols ≤ x.ext)
    (hu : y.Unique) (hAy : Apart A.toMat.Cell y.Cell) (hxy : Apart x.toVec.Cell y.Cell) :
    Ends (gemv A x y) h fun _ h' => ∃ r, y.Becomes h h' r ∧ ∀ i, i < y.ext →
      CFP.Accurate u (A.cols + 2) (A.cols * (4 * η))
        (∀ k, k < A.cols → (a i k).Finite ∧ (f k).Finite)
        (r i)
        (∑ k ∈ range A.cols, (a i k).val * (f k).val)
        (∑ k ∈ range A.cols, size (a i k).val * size (f k).val) := by
  refine (C54_gemv A x y h a f hA hx hy hrows hcols hu hAy hxy).mono fun _ h' hb => ⟨_, hb, fun i hi => ?_⟩
  exact (acc_products_zero H A.cols (a i) f).toAccurate

example := C62_complex_gemv binary64_errors (A.view : MatV Z) x.view y (heap Z) _ _ (mholdsV bA) (holdsV bx) (alloc by_)
  rfl le_rfl (by view_facts) (by view_facts) (by view_facts)

/-- **C62** `matrix_vector_product(A, x, y, z)` -/
theorem C62_complex_gemv_update {F : Format} {R : Recovery F} {u η : ℝ} (H : F.Errors u η) (A : MatV (CFP F R))
    (x y : VecV (CFP F R)) (z : Vec) (h : Heap (CFP F R)) (a : Nat → Nat → CFP F R) (f g : Nat → CFP F R)
    (hA : A.Holds h a) (hx : x.Holds h f) (hy : y.Holds h g) (hz : z.Alloc h)
    (hrows : z.ext = A.rows) (hcols : A.cols ≤ x.ext) (hye : A.rows ≤ y.ext) (hu : z.Unique)
    (hAz : Apart A.toMat.Cell z.Cell) (hxz : Apart x.toVec.Cell z.Cell) (hyz : y.toVec.Aligned z)
    (vg : ∀ i, i < z.ext → (g i).Valid) :
    Ends (gemvUpdate A x y z) h fun _ h' => ∃ r, z.Becomes h h' r ∧ ∀ i, i < z.ext →
      CFP.Accurate u (A.cols + 2) (A.cols * (4 * η))
        ((g i).Finite ∧ ∀ k, k < A.cols → (a i k).Finite ∧ (f k).Finite)
        (r i)
        ((g i).val + ∑ k ∈ range A.cols, (a i k).val * (f k).val)
        (size (g i).val + ∑ k ∈ range A.cols, size (a i k).val * size (f k).val) := by
  refine (C54_gemv_update A x y z h a f g hA hx hy hz hrows hcols hye hu hAz hxz hyz).mono fun _ h' hb => ⟨_, hb, fun i hi => ?_⟩
  exact (acc_products H A.cols (a i) f (vg i hi)).toAccurate

example := C62_complex_gemv_update binary64_errors (A.view : MatV Z) x.view y.view y (heap Z) _ _ _ (mholdsV bA) (holdsV bx)
  (holdsV by_) (alloc by_) rfl le_rfl le_rfl (by view_facts) (by view_facts) (by view_facts)
  (by view_facts) fun i _ => zvals_valid y i

/-- **C62** `symmetric_matrix_vector_product(A, t, x, y)` -/
theorem C62_complex_symv {F : Format} {R : Recovery F} {u η : ℝ} (H : F.Errors u η) (A : MatV (CFP F R)) (t : Triangle)
    (x : VecV (CFP F R)) (y : Vec) (h : Heap (CFP F R)) (a : Nat → Nat → CFP F R) (f : Nat → CFP F R)
    (hA : A.HoldsOn h t.region a) (hx : x.Holds h f) (hy : y.Alloc h) (hsq : A.rows = A.cols)
    (hext : A.rows = y.ext) (hxe : A.cols ≤ x.ext) (hu : y.Unique)
    (hAy : Apart (A.toMat.CellOn t.region) y.Cell) (hxy : Apart x.toVec.Cell y.Cell) :
    Ends (symv A t x y) h fun _ h' => ∃ r, y.Becomes h h' r ∧ ∀ i, i < y.ext →
      CFP.Accurate u (A.cols + 2) (A.cols * (4 * η))
        (∀ k, k < A.cols → (symOf t a i k).Finite ∧ (f k).Finite)
        (r i)
        (∑ k ∈ range A.cols, (symOf t a i k).val * (f k).val)
        (∑ k ∈ range A.cols, size (symOf t a i k).val * size (f k).val) := by
  refine (C54_symv A t x y h a f hA hx hy hsq hext hxe hu hAy hxy).mono fun _ h' hb => ⟨_, hb, fun i hi => ?_⟩
  exact (acc_products_zero H A.cols (symOf t a i) f).toAccurate

example (t : Triangle) := C62_complex_symv binary64_errors (A.view : MatV Z) t x.view y (heap Z) _ _ (mholdsV bA) (holdsV bx)
  (alloc by_) rfl rfl le_rfl (by view_facts) (by view_facts) (by view_facts)

/-- **C62** `symmetric_matrix_vector_product(A, t, x, y, z)` -/
theorem C62_complex_symv_update {F : Format} {R : Recovery F} {u η : ℝ} (H : F.Errors u η) (A : MatV (CFP F R)) (t : Triangle)
    (x y : VecV (CFP F R)) (z : Vec) (h : Heap (CFP F R)) (a : Nat → Nat → CFP F R) (f g : Nat → CFP F R)
    (hA : A.HoldsOn h t.region a) (hx : x.Holds h f) (hy : y.Holds h g) (hz : z.Alloc h)
    (hsq : A.rows = A.cols) (hext : A.rows = z.ext) (hxe : A.cols ≤ x.ext) (hye : A.rows ≤ y.ext)
    (hu : z.Unique) (hAz : Apart (A.toMat.CellOn t.region) z.Cell)
    (hxz : Apart x.toVec.Cell z.Cell) (hyz : y.toVec.Aligned z)
    (vg : ∀ i, i < z.ext → (g i).Valid) :
    Ends (symvUpdate A t x y z) h fun _ h' => ∃ r, z.Becomes h h' r ∧ ∀ i, i < z.ext →
      CFP.Accurate u (A.cols + 2) (A.cols * (4 * η))
        ((g i).Finite ∧ ∀ k, k < A.cols → (symOf t a i k).Finite ∧ (f k).Finite)
        (r i)
        ((g i).val + ∑ k ∈ range A.cols, (symOf t a i k).val * (f k).val)
        (size (g i).val + ∑ k ∈ range A.cols, size (symOf t a i k).val * size (f k).val) := by
  refine (C54_symv_update A t x y z h a f g hA hx hy hz hsq hext hxe hye hu hAz hxz hyz).mono fun _ h' hb => ⟨_, hb, fun i hi => ?_⟩
  exact (acc_products H A.cols (symOf t a i) f (vg i hi)).toAccurate

example (t : Triangle) := C62_complex_symv_update binary64_errors (A.view : MatV Z) t x.view y.view y (heap Z) _ _ _
  (mholdsV bA) (holdsV bx) (holdsV by_) (alloc by_) rfl rfl le_rfl le_rfl (by view_facts)
  (by view_facts) (by view_facts) (by view_facts) fun i _ => zvals_valid y i

/-- **C62** `hermitian_matrix_vector_product(A, t, x, y)` -/
theorem C62_complex_hemv {F : Format} {R : Recovery F} {u η : ℝ} (H : F.Errors u η) (A : MatV (CFP F R)) (t : Triangle)
    (x : VecV (CFP F R)) (y : Vec) (h : Heap (CFP F R)) (a : Nat → Nat → CFP F R) (f : Nat → CFP F R)
    (hA : A.HoldsOn h t.region a) (hx : x.Holds h f) (hy : y.Alloc h) (hsq : A.rows = A.cols)
    (hext : A.rows = y.ext) (hxe : A.cols ≤ x.ext) (hu : y.Unique)
    (hAy : Apart (A.toMat.CellOn t.region) y.Cell) (hxy : Apart x.toVec.Cell y.Cell) :
    Ends (hemv A t x y) h fun _ h' => ∃ r, y.Becomes h h' r ∧ ∀ i, i < y.ext →
      CFP.Accurate u (A.cols + 2) (A.cols * (4 * η))
        (∀ k, k < A.cols → (hermOf t a i k).Finite ∧ (f k).Finite)
        (r i)
        (∑ k ∈ range A.cols, (hermOf t a i k).val * (f k).val)
        (∑ k ∈ range A.cols, size (hermOf t a i k).val * size (f k).val) := by
  refine (C54_hemv A t x y h a f hA hx hy hsq hext hxe hu hAy hxy).mono fun _ h' hb => ⟨_, hb, fun i hi => ?_⟩
  exact (acc_products_zero H A.cols (hermOf t a i) f).toAccurate

example (t : Triangle) := C62_complex_hemv binary64_errors (A.view : MatV Z) t x.view y (heap Z) _ _ (mholdsV bA) (holdsV bx)
  (alloc by_) rfl rfl le_rfl (by view_facts) (by view_facts) (by view_facts)

/-- **C62** `hermitian_matrix_vector_product(A, t, x, y, z)` -/
theorem C62_complex_hemv_update {F : Format} {R : Recovery F} {u η : ℝ} (H : F.Errors u η) (A : MatV (CFP F R)) (t : Triangle)
    (x y : VecV (CFP F R)) (z : Vec) (h : Heap (CFP F R)) (a : Nat → Nat → CFP F R) (f g : Nat → CFP F R)
    (hA : A.HoldsOn h t.region a) (hx : x.Holds h f) (hy : y.Holds h g) (hz : z.Alloc h)
    (hsq : A.rows = A.cols) (hext : A.rows = z.ext) (hxe : A.cols ≤ x.ext) (hye : A.rows ≤ y.ext)
    (hu : z.Unique) (hAz : Apart (A.toMat.CellOn t.region) z.Cell)
    (hxz : Apart x.toVec.Cell z.Cell) (hyz : y.toVec.Aligned z)
    (vg : ∀ i, i < z.ext → (g i).Valid) :
    Ends (hemvUpdate A t x y z) h fun _ h' => ∃ r, z.Becomes h h' r ∧ ∀ i, i < z.ext →
      CFP.Accurate u (A.cols + 2) (A.cols * (4 * η))
        ((g i).Finite ∧ ∀ k, k < A.cols → (hermOf t a i k).Finite ∧ (f k).Finite)
        (r i)
        ((g i).val + ∑ k ∈ range A.cols, (hermOf t a i k).val * (f k).val)
        (size (g i).val + ∑ k ∈ range A.cols, size (hermOf t a i k).val * size (f k).val) := by
  refine (C54_hemv_update A t x y z h a f g hA hx hy hz hsq hext hxe hye hu hAz hxz hyz).mono fun _ h' hb => ⟨_, hb, fun i hi => ?_⟩
  exact (acc_products H A.cols (hermOf t a i) f (vg i hi)).toAccurate

example (t : Triangle) := C62_complex_hemv_update binary64_errors (A.view : MatV Z) t x.view y.view y (heap Z) _ _ _
  (mholdsV bA) (holdsV bx) (holdsV by_) (alloc by_) rfl rfl le_rfl le_rfl (by view_facts)
  (by view_facts) (by view_facts) (by view_facts) fun i _ => zvals_valid y i

/-- **C62** `triangular_matrix_vector_product(A, t, d, x, y)`: the elements that are read must be finite -/
theorem C62_complex_trmv {F : Format} {R : Recovery F} {u η : ℝ} (H : F.Errors u η) (A : MatV (CFP F R)) (t : Triangle) (d : Diag)
    (x : VecV (CFP F R)) (y : Vec) (h : Heap (CFP F R)) (a : Nat → Nat → CFP F R) (f : Nat → CFP F R)
    (hA : A.HoldsOn h (triRegion t d) a) (hx : x.Holds h f) (hy : y.Alloc h)
    (hsq : A.rows = A.cols) (hext : A.rows = y.ext) (hxe : A.cols ≤ x.ext) (hu : y.Unique)
    (hAy : Apart (A.toMat.CellOn (triRegion t d)) y.Cell) (hxy : Apart x.toVec.Cell y.Cell)
    (vf : ∀ k, k < A.cols → (f k).Valid) :
    Ends (trmv A t d x y) h fun _ h' => ∃ r, y.Becomes h h' r ∧ ∀ i, i < y.ext →
      CFP.Accurate u (A.cols + 2) (A.cols * (4 * η))
        (∀ k, k < A.cols → t.region i k → (f k).Finite ∧ (triRegion t d i k → (a i k).Finite))
        (r i)
        (∑ k ∈ range A.cols, triOf t d (fun i j => (a i j).val) i k * (f k).val)
        (∑ k ∈ range A.cols, size (triOf t d (fun i j => (a i j).val) i k) * size (f k).val) := by
  refine (C54_trmv A t d x y h a f hA hx hy hsq hext hxe hu hAy hxy).mono fun _ h' hb => ⟨_, hb, fun i hi => ?_⟩
  exact ((acc_triSeq H t d a f vf zero_valid (by omega)).from_zero).toAccurate

example (t : Triangle) (d : Diag) := C62_complex_trmv binary64_errors (A.view : MatV Z) t d x.view y (heap Z) _ _ (mholdsV bA)
  (holdsV bx) (alloc by_) rfl rfl le_rfl (by view_facts) (by view_facts) (by view_facts)
  fun i _ => zvals_valid x i

/-- **C62** `triangular_matrix_vector_product(A, t, d, x, y, z)` -/
theorem C62_complex_trmv_update {F : Format} {R : Recovery F} {u η : ℝ} (H : F.Errors u η) (A : MatV (CFP F R)) (t : Triangle)
    (d : Diag) (x y : VecV (CFP F R)) (z : Vec) (h : Heap (CFP F R)) (a : Nat → Nat → CFP F R)
    (f g : Nat → CFP F R) (hA : A.HoldsOn h (triRegion t d) a) (hx : x.Holds h f) (hy : y.Holds h g)
    (hz : z.Alloc h) (hsq : A.rows = A.cols) (hext : A.rows = z.ext) (hxe : A.cols ≤ x.ext)
    (hye : A.rows ≤ y.ext) (hu : z.Unique) (hAz : Apart (A.toMat.CellOn (triRegion t d)) z.Cell)
    (hxz : Apart x.toVec.Cell z.Cell) (hyz : y.toVec.Aligned z)
    (vf : ∀ k, k < A.cols → (f k).Valid) (vg : ∀ i, i < z.ext → (g i).Valid) :
    Ends (trmvUpdate A t d x y z) h fun _ h' => ∃ r, z.Becomes h h' r ∧ ∀ i, i < z.ext →
      CFP.Accurate u (A.cols + 2) (A.cols * (4 * η))
        ((g i).Finite ∧ ∀ k, k < A.cols → t.region i k → (f k).Finite ∧ (triRegion t d i k → (a i k).Finite))
        (r i)
        ((g i).val + ∑ k ∈ range A.cols, triOf t d (fun i j => (a i j).val) i k * (f k).val)
        (size (g i).val + ∑ k ∈ range A.cols, size (triOf t d (fun i j => (a i j).val) i k) * size (f k).val) := by
  refine (C54_trmv_update A t d x y z h a f g hA hx hy hz hsq hext hxe hye hu hAz hxz hyz).mono fun _ h' hb => ⟨_, hb, fun i hi => ?_⟩
  exact (acc_triSeq H t d a f vf (vg i hi) (by omega)).toAccurate

example (t : Triangle) (d : Diag) := C62_complex_trmv_update binary64_errors (A.view : MatV Z) t d x.view y.view y (heap Z)
  _ _ _ (mholdsV bA) (holdsV bx) (holdsV by_) (alloc by_) rfl rfl le_rfl le_rfl (by view_facts)
  (by view_facts) (by view_facts) (by view_facts) (fun i _ => zvals_valid x i)
  fun i _ => zvals_valid y i

/-- **C62** `triangular_matrix_vector_product(A, t, d, y)`, in place -/
theorem C62_complex_trmv_in_place {F : Format} {R : Recovery F} {u η : ℝ} (H : F.Errors u η) (A : MatV (CFP F R)) (t : Triangle)
    (d : Diag) (y : Vec) (h : Heap (CFP F R)) (a : Nat → Nat → CFP F R) (f : Nat → CFP F R)
    (hA : A.HoldsOn h (triRegion t d) a) (hy : y.Holds h f) (hsq : A.rows = A.cols)
    (hext : A.rows = y.ext) (hu : y.Unique) (hAy : Apart (A.toMat.CellOn (triRegion t d)) y.Cell)
    (vf : ∀ k, k < A.cols → (f k).Valid) :
    Ends (trmvInPlace A t d y) h fun _ h' => ∃ r, y.Becomes h h' r ∧ ∀ i, i < y.ext →
      CFP.Accurate u (A.cols + 1) (A.cols * (4 * η))
        (∀ k, k < A.cols → t.region i k → (f k).Finite ∧ (triRegion t d i k → (a i k).Finite))
        (r i)
        (∑ k ∈ range A.cols, triOf t d (fun i j => (a i j).val) i k * (f k).val)
        (∑ k ∈ range A.cols, size (triOf t d (fun i j => (a i j).val) i k) * size (f k).val) := by
  refine (C54_trmv_in_place A t d y h a f hA hy hsq hext hu hAy).mono fun _ h' hb => ⟨_, hb, fun i hi => ?_⟩
  refine (acc_triSeqInPlace H t d a f vf (by omega) ?_).toAccurate
  exact .inr rfl

example (t : Triangle) (d : Diag) := C62_complex_trmv_in_place binary64_errors (A.view : MatV Z) t d y (heap Z) _ _ (mholdsV bA)
  (holds by_) rfl rfl (by view_facts) (by view_facts) fun i _ => zvals_valid y i

/-! ## Matrix times matrix -/

/-- **C62** `matrix_product(A, B, C)` -/
theorem C62_complex_gemm {F : Format} {R : Recovery F} {u η : ℝ} (H : F.Errors u η) (A B : MatV (CFP F R)) (C : Mat)
    (h : Heap (CFP F R)) (a b : Nat → Nat → CFP F R) (hA : A.Holds h a) (hB : B.Holds h b)
    (hC : C.Alloc h) (hr : C.rows = A.rows) (hk : A.cols = B.rows) (hc : C.cols = B.cols)
    (hu : C.Unique) (hAC : Apart A.toMat.Cell C.Cell) (hBC : Apart B.toMat.Cell C.Cell) :
    Ends (gemm A B C) h fun _ h' => ∃ r, C.Becomes h h' r ∧
      ∀ i j, i < C.rows → j < C.cols →
      CFP.Accurate u (A.cols + 2) (A.cols * (4 * η))
        (∀ k, k < A.cols → (a i k).Finite ∧ (b k j).Finite)
        (r i j)
        (∑ k ∈ range A.cols, (a i k).val * (b k j).val)
        (∑ k ∈ range A.cols, size (a i k).val * size (b k j).val) := by
  refine (C54_gemm A B C h a b hA hB hC hr hk hc hu hAC hBC).mono fun _ h' hb => ⟨_, hb, fun i j hi hj => ?_⟩
  exact (acc_products_zero H A.cols (a i) (fun k => b k j)).toAccurate

example := C62_complex_gemm binary64_errors (T.view : MatV Z) W.view C (heap Z) _ _ (mholdsV bT) (mholdsV bW) (malloc bC)
  rfl rfl rfl (by view_facts) (by view_facts) (by view_facts)

/-- **C62** `matrix_product(A, B, E, C)` -/
theorem C62_complex_gemm_update {F : Format} {R : Recovery F} {u η : ℝ} (H : F.Errors u η) (A B E : MatV (CFP F R)) (C : Mat)
    (h : Heap (CFP F R)) (a b e : Nat → Nat → CFP F R) (hA : A.Holds h a) (hB : B.Holds h b)
    (hE : E.Holds h e) (hC : C.Alloc h) (hr : C.rows = A.rows) (hk : A.cols = B.rows)
    (hc : C.cols = B.cols) (her : C.rows ≤ E.rows) (hec : C.cols ≤ E.cols) (hu : C.Unique)
    (hAC : Apart A.toMat.Cell C.Cell) (hBC : Apart B.toMat.Cell C.Cell) (hEC : E.toMat.Aligned C)
    (ve : ∀ i j, i < C.rows → j < C.cols → (e i j).Valid) :
    Ends (gemmUpdate A B E C) h fun _ h' => ∃ r, C.Becomes h h' r ∧
      ∀ i j, i < C.rows → j < C.cols →
      CFP.Accurate u (A.cols + 2) (A.cols * (4 * η))
        ((e i j).Finite ∧ ∀ k, k < A.cols → (a i k).Finite ∧ (b k j).Finite)
        (r i j)
        ((e i j).val + ∑ k ∈ range A.cols, (a i k).val * (b k j).val)
        (size (e i j).val + ∑ k ∈ range A.cols, size (a i k).val * size (b k j).val) := by
  refine (C54_gemm_update A B E C h a b e hA hB hE hC hr hk hc her hec hu hAC hBC hEC).mono fun _ h' hb => ⟨_, hb, fun i j hi hj => ?_⟩
  exact (acc_products H A.cols (a i) (fun k => b k j) (ve i j hi hj)).toAccurate

example := C62_complex_gemm_update binary64_errors (T.view : MatV Z) W.view C.view C (heap Z) _ _ _ (mholdsV bT) (mholdsV bW)
  (mholdsV bC) (malloc bC) rfl rfl rfl le_rfl le_rfl (by view_facts) (by view_facts) (by view_facts)
  (by view_facts) fun i j _ _ => zmvals_valid C i j

/-- **C62** `symmetric_matrix_product(A, t, B, C)` -/
theorem C62_complex_symm_left {F : Format} {R : Recovery F} {u η : ℝ} (H : F.Errors u η) (A : MatV (CFP F R)) (t : Triangle)
    (B : MatV (CFP F R)) (C : Mat) (h : Heap (CFP F R)) (a b : Nat → Nat → CFP F R)
    (hA : A.HoldsOn h t.region a) (hB : B.Holds h b) (hC : C.Alloc h) (hsq : A.rows = A.cols)
    (hr : C.rows = A.rows) (hk : A.cols = B.rows) (hc : C.cols = B.cols) (hu : C.Unique)
    (hAC : Apart (A.toMat.CellOn t.region) C.Cell) (hBC : Apart B.toMat.Cell C.Cell) :
    Ends (symmLeft A t B C) h fun _ h' => ∃ r, C.Becomes h h' r ∧
      ∀ i j, i < C.rows → j < C.cols →
      CFP.Accurate u (A.cols + 2) (A.cols * (4 * η))
        (∀ k, k < A.cols → (symOf t a i k).Finite ∧ (b k j).Finite)
        (r i j)
        (∑ k ∈ range A.cols, (symOf t a i k).val * (b k j).val)
        (∑ k ∈ range A.cols, size (symOf t a i k).val * size (b k j).val) := by
  refine (C54_symm_left A t B C h a b hA hB hC hsq hr hk hc hu hAC hBC).mono fun _ h' hb => ⟨_, hb, fun i j hi hj => ?_⟩
  exact (acc_products_zero H A.cols (symOf t a i) (fun k => b k j)).toAccurate

example (t : Triangle) := C62_complex_symm_left binary64_errors (A.view : MatV Z) t T.view ⟨3, 2, C.addr⟩ (heap Z) _ _
  (mholdsV bA) (mholdsV bT) (malloc fun i j hi hj => bC i j hi (by simp only [C] at *; omega)) rfl rfl rfl
  rfl (by view_facts) (by view_facts) (by view_facts)

/-- **C62** `symmetric_matrix_product(B, A, t, C)` -/
theorem C62_complex_symm_right {F : Format} {R : Recovery F} {u η : ℝ} (H : F.Errors u η) (A : MatV (CFP F R)) (t : Triangle)
    (B : MatV (CFP F R)) (C : Mat) (h : Heap (CFP F R)) (a b : Nat → Nat → CFP F R)
    (hA : A.HoldsOn h t.region a) (hB : B.Holds h b) (hC : C.Alloc h) (hsq : A.rows = A.cols)
    (hr : C.rows = B.rows) (hk : B.cols = A.rows) (hc : C.cols = A.cols) (hu : C.Unique)
    (hAC : Apart (A.toMat.CellOn t.region) C.Cell) (hBC : Apart B.toMat.Cell C.Cell) :
    Ends (symmRight B A t C) h fun _ h' => ∃ r, C.Becomes h h' r ∧
      ∀ i j, i < C.rows → j < C.cols →
      CFP.Accurate u (A.cols + 2) (A.cols * (4 * η))
        (∀ k, k < A.cols → (b i k).Finite ∧ (symOf t a k j).Finite)
        (r i j)
        (∑ k ∈ range A.cols, (b i k).val * (symOf t a k j).val)
        (∑ k ∈ range A.cols, size (b i k).val * size (symOf t a k j).val) := by
  refine (C54_symm_right A t B C h a b hA hB hC hsq hr hk hc hu hAC hBC).mono fun _ h' hb => ⟨_, hb, fun i j hi hj => ?_⟩
  exact (acc_products_zero H A.cols (b i) (fun k => symOf t a k j)).toAccurate

example (t : Triangle) := C62_complex_symm_right binary64_errors (A.view : MatV Z) t W.view ⟨2, 3, C.addr⟩ (heap Z) _ _
  (mholdsV bA) (mholdsV bW) (malloc fun i j hi hj => bC i j (by simp only [C] at *; omega) hj) rfl rfl rfl
  rfl (by view_facts) (by view_facts) (by view_facts)

/-- **C62** `hermitian_matrix_product(A, t, B, C)` -/
theorem C62_complex_hemm_left {F : Format} {R : Recovery F} {u η : ℝ} (H : F.Errors u η) (A : MatV (CFP F R)) (t : Triangle)
    (B : MatV (CFP F R)) (C : Mat) (h : Heap (CFP F R)) (a b : Nat → Nat → CFP F R)
    (hA : A.HoldsOn h t.region a) (hB : B.Holds h b) (hC : C.Alloc h) (hsq : A.rows = A.cols)
    (hr : C.rows = A.rows) (hk : A.cols = B.rows) (hc : C.cols = B.cols) (hu : C.Unique)
    (hAC : Apart (A.toMat.CellOn t.region) C.Cell) (hBC : Apart B.toMat.Cell C.Cell) :
    Ends (hemmLeft A t B C) h fun _ h' => ∃ r, C.Becomes h h' r ∧
      ∀ i j, i < C.rows → j < C.cols →
      CFP.Accurate u (A.cols + 2) (A.cols * (4 * η))
        (∀ k, k < A.cols → (hermOf t a i k).Finite ∧ (b k j).Finite)
        (r i j)
        (∑ k ∈ range A.cols, (hermOf t a i k).val * (b k j).val)
        (∑ k ∈ range A.cols, size (hermOf t a i k).val * size (b k j).val) := by
  refine (C54_hemm_left A t B C h a b hA hB hC hsq hr hk hc hu hAC hBC).mono fun _ h' hb => ⟨_, hb, fun i j hi hj => ?_⟩
  exact (acc_products_zero H A.cols (hermOf t a i) (fun k => b k j)).toAccurate

example (t : Triangle) := C62_complex_hemm_left binary64_errors (A.view : MatV Z) t T.view ⟨3, 2, C.addr⟩ (heap Z) _ _
  (mholdsV bA) (mholdsV bT) (malloc fun i j hi hj => bC i j hi (by simp only [C] at *; omega)) rfl rfl rfl
  rfl (by view_facts) (by view_facts) (by view_facts)

/-- **C62** `hermitian_matrix_product(B, A, t, C)` -/
theorem C62_complex_hemm_right {F : Format} {R : Recovery F} {u η : ℝ} (H : F.Errors u η) (A : MatV (CFP F R)) (t : Triangle)
    (B : MatV (CFP F R)) (C : Mat) (h : Heap (CFP F R)) (a b : Nat → Nat → CFP F R)
    (hA : A.HoldsOn h t.region a) (hB : B.Holds h b) (hC : C.Alloc h) (hsq : A.rows = A.cols)
    (hr : C.rows = B.rows) (hk : B.cols = A.rows) (hc : C.cols = A.cols) (hu : C.Unique)
    (hAC : Apart (A.toMat.CellOn t.region) C.Cell) (hBC : Apart B.toMat.Cell C.Cell) :
    Ends (hemmRight B A t C) h fun _ h' => ∃ r, C.Becomes h h' r ∧
      ∀ i j, i < C.rows → j < C.cols →
      CFP.Accurate u (A.cols + 2) (A.cols * (4 * η))
        (∀ k, k < A.cols → (b i k).Finite ∧ (if k = j then a j j else hermOf t a k j).Finite)
        (r i j)
        (∑ k ∈ range A.cols, (b i k).val * (if k = j then a j j else hermOf t a k j).val)
        (∑ k ∈ range A.cols, size (b i k).val * size (if k = j then a j j else hermOf t a k j).val) := by
  refine (C54_hemm_right A t B C h a b hA hB hC hsq hr hk hc hu hAC hBC).mono fun _ h' hb => ⟨_, hb, fun i j hi hj => ?_⟩
  exact (acc_products_zero H A.cols (b i) (fun k => if k = j then a j j else hermOf t a k j)).toAccurate

example (t : Triangle) := C62_complex_hemm_right binary64_errors (A.view : MatV Z) t W.view ⟨2, 3, C.addr⟩ (heap Z) _ _
  (mholdsV bA) (mholdsV bW) (malloc fun i j hi hj => bC i j (by simp only [C] at *; omega) hj) rfl rfl rfl
  rfl (by view_facts) (by view_facts) (by view_facts)

/-- **C62** `triangular_matrix_product(A, t, d, B, C)` -/
theorem C62_complex_trmm_left {F : Format} {R : Recovery F} {u η : ℝ} (H : F.Errors u η) (A : MatV (CFP F R)) (t : Triangle)
    (d : Diag) (B : MatV (CFP F R)) (C : Mat) (h : Heap (CFP F R)) (a b : Nat → Nat → CFP F R)
    (hA : A.HoldsOn h (triRegion t d) a) (hB : B.Holds h b) (hC : C.Alloc h)
    (hsq : A.rows = A.cols) (hr : C.rows = A.rows) (hk : A.cols = B.rows) (hc : C.cols = B.cols)
    (hu : C.Unique) (hAC : Apart (A.toMat.CellOn (triRegion t d)) C.Cell)
    (hBC : Apart B.toMat.Cell C.Cell) (vb : ∀ i j, i < B.rows → j < B.cols → (b i j).Valid) :
    Ends (trmmLeft A t d B C) h fun _ h' => ∃ r, C.Becomes h h' r ∧
      ∀ i j, i < C.rows → j < C.cols →
      CFP.Accurate u (A.cols + 2) (A.cols * (4 * η))
        (∀ k, k < A.cols → t.region i k → (b k j).Finite ∧ (triRegion t d i k → (a i k).Finite))
        (r i j)
        (∑ k ∈ range A.cols, triOf t d (fun i j => (a i j).val) i k * (b k j).val)
        (∑ k ∈ range A.cols, size (triOf t d (fun i j => (a i j).val) i k) * size (b k j).val) := by
  refine (C54_trmm_left A t d B C h a b hA hB hC hsq hr hk hc hu hAC hBC).mono fun _ h' hb => ⟨_, hb, fun i j hi hj => ?_⟩
  exact (acc_triLeft H t d a (fun k => b k j) (fun k hk => vb k j (by omega) (by omega)) hsq (by omega)).toAccurate

example (t : Triangle) (d : Diag) := C62_complex_trmm_left binary64_errors (A.view : MatV Z) t d T.view ⟨3, 2, C.addr⟩ (heap Z) _ _
  (mholdsV bA) (mholdsV bT) (malloc fun i j hi hj => bC i j hi (by simp only [C] at *; omega)) rfl rfl rfl
  rfl (by view_facts) (by view_facts) (by view_facts) fun i j _ _ => zmvals_valid T i j

/-- **C62** `triangular_matrix_product(B, A, t, d, C)` -/
theorem C62_complex_trmm_right {F : Format} {R : Recovery F} {u η : ℝ} (H : F.Errors u η) (A : MatV (CFP F R)) (t : Triangle)
    (d : Diag) (B : MatV (CFP F R)) (C : Mat) (h : Heap (CFP F R)) (a b : Nat → Nat → CFP F R)
    (hA : A.HoldsOn h (triRegion t d) a) (hB : B.Holds h b) (hC : C.Alloc h)
    (hsq : A.rows = A.cols) (hr : C.rows = B.rows) (hk : B.cols = A.rows) (hc : C.cols = A.cols)
    (hu : C.Unique) (hAC : Apart (A.toMat.CellOn (triRegion t d)) C.Cell)
    (hBC : Apart B.toMat.Cell C.Cell) (vb : ∀ i j, i < B.rows → j < B.cols → (b i j).Valid) :
    Ends (trmmRight B A t d C) h fun _ h' => ∃ r, C.Becomes h h' r ∧
      ∀ i j, i < C.rows → j < C.cols →
      CFP.Accurate u (A.cols + 2) (A.cols * (4 * η))
        (∀ k, k < A.cols → t.region k j → (b i k).Finite ∧ (triRegion t d k j → (a k j).Finite))
        (r i j)
        (∑ k ∈ range A.cols, (b i k).val * triOf t d (fun i j => (a i j).val) k j)
        (∑ k ∈ range A.cols, size (b i k).val * size (triOf t d (fun i j => (a i j).val) k j)) := by
  refine (C54_trmm_right A t d B C h a b hA hB hC hsq hr hk hc hu hAC hBC).mono fun _ h' hb => ⟨_, hb, fun i j hi hj => ?_⟩
  exact (acc_triRight H t d a (b i) (fun k hk => vb i k (by omega) (by omega)) hsq (by omega)).toAccurate

example (t : Triangle) (d : Diag) := C62_complex_trmm_right binary64_errors (A.view : MatV Z) t d W.view ⟨2, 3, C.addr⟩ (heap Z) _ _
  (mholdsV bA) (mholdsV bW) (malloc fun i j hi hj => bC i j (by simp only [C] at *; omega) hj) rfl rfl rfl
  rfl (by view_facts) (by view_facts) (by view_facts) fun i j _ _ => zmvals_valid W i j

/-- **C62** `triangular_matrix_left_product(A, t, d, C)`, in place -/
theorem C62_complex_trmm_left_in_place {F : Format} {R : Recovery F} {u η : ℝ} (H : F.Errors u η) (A : MatV (CFP F R))
    (t : Triangle) (d : Diag) (C : Mat) (h : Heap (CFP F R)) (a c : Nat → Nat → CFP F R)
    (hA : A.HoldsOn h (triRegion t d) a) (hC : C.Holds h c) (hsq : A.rows = A.cols)
    (hr : C.rows = A.rows) (hu : C.Unique) (hAC : Apart (A.toMat.CellOn (triRegion t d)) C.Cell)
    (vb : ∀ i j, i < C.rows → j < C.cols → (c i j).Valid) :
    Ends (trmmLeftInPlace A t d C) h fun _ h' => ∃ r, C.Becomes h h' r ∧
      ∀ i j, i < C.rows → j < C.cols →
      CFP.Accurate u (A.cols + 1) (A.cols * (4 * η))
        (∀ k, k < A.cols → t.region i k → (c k j).Finite ∧ (triRegion t d i k → (a i k).Finite))
        (r i j)
        (∑ k ∈ range A.cols, triOf t d (fun i j => (a i j).val) i k * (c k j).val)
        (∑ k ∈ range A.cols, size (triOf t d (fun i j => (a i j).val) i k) * size (c k j).val) := by
  refine (C54_trmm_left_in_place A t d C h a c hA hC hsq hr hu hAC).mono fun _ h' hb => ⟨_, hb, fun i j hi hj => ?_⟩
  exact (acc_triSeqInPlace H t d a (fun k => c k j) (fun k hk => vb k j (by omega) hj) (by omega) (.inl rfl)).toAccurate

example (t : Triangle) (d : Diag) := C62_complex_trmm_left_in_place binary64_errors (A.view : MatV Z) t d T (heap Z) _ _ (mholdsV bA)
  (mholds bT) rfl rfl (by view_facts) (by view_facts) fun i j _ _ => zmvals_valid T i j

/-- **C62** `triangular_matrix_right_product(A, t, d, C)`, in place -/
theorem C62_complex_trmm_right_in_place {F : Format} {R : Recovery F} {u η : ℝ} (H : F.Errors u η) (A : MatV (CFP F R))
    (t : Triangle) (d : Diag) (C : Mat) (h : Heap (CFP F R)) (a c : Nat → Nat → CFP F R)
    (hA : A.HoldsOn h (triRegion t d) a) (hC : C.Holds h c) (hsq : A.rows = A.cols)
    (hr : C.cols = A.cols) (hu : C.Unique) (hAC : Apart (A.toMat.CellOn (triRegion t d)) C.Cell)
    (vb : ∀ i j, i < C.rows → j < C.cols → (c i j).Valid) :
    Ends (trmmRightInPlace A t d C) h fun _ h' => ∃ r, C.Becomes h h' r ∧
      ∀ i j, i < C.rows → j < C.cols →
      CFP.Accurate u (A.cols + 1) (A.cols * (4 * η))
        (∀ k, k < A.cols → t.region k j → (c i k).Finite ∧ (triRegion t d k j → (a k j).Finite))
        (r i j)
        (∑ k ∈ range A.cols, (c i k).val * triOf t d (fun i j => (a i j).val) k j)
        (∑ k ∈ range A.cols, size (c i k).val * size (triOf t d (fun i j => (a i j).val) k j)) := by
  refine (C54_trmm_right_in_place A t d C h a c hA hC hsq hr hu hAC).mono fun _ h' hb => ⟨_, hb, fun i j hi hj => ?_⟩
  cases t
  · exact (acc_triRightInPlace_upper H d a (c i) (fun k hk => vb i k hi (by omega)) (by omega)).toAccurate
  · exact (acc_triRightInPlace_lower H d a (c i) (fun k hk => vb i k hi (by omega)) (by omega)).toAccurate

example (t : Triangle) (d : Diag) := C62_complex_trmm_right_in_place binary64_errors (A.view : MatV Z) t d W (heap Z) _ _ (mholdsV bA)
  (mholds bW) rfl rfl (by view_facts) (by view_facts) fun i j _ _ => zmvals_valid W i j

/-! ## Rank updates -/

/-- **C62** `matrix_rank_1_update(x, y, A)` -/
theorem C62_complex_ger {F : Format} {R : Recovery F} {u η : ℝ} (H : F.Errors u η) (x y : VecV (CFP F R)) (A : Mat)
    (h : Heap (CFP F R)) (f g : Nat → CFP F R) (a : Nat → Nat → CFP F R) (hx : x.Holds h f)
    (hy : y.Holds h g) (hA : A.Holds h a) (hxe : A.rows ≤ x.ext) (hye : A.cols ≤ y.ext)
    (hu : A.Unique) (hxA : Apart x.toVec.Cell A.Cell) (hyA : Apart y.toVec.Cell A.Cell)
    (va : ∀ i j, i < A.rows → j < A.cols → (a i j).Valid) :
    Ends (ger x y A) h fun _ h' => ∃ r, A.Becomes h h' r ∧
      ∀ i j, i < A.rows → j < A.cols →
      CFP.Accurate u 3 (4 * η)
        ((a i j).Finite ∧ (f i).Finite ∧ (g j).Finite)
        (r i j)
        ((a i j).val + (f i).val * (g j).val)
        (size (a i j).val + size (f i).val * size (g j).val) := by
  refine (C25_ger x y A h f g a hx hy hA hxe hye hu hxA hyA).mono fun _ h' hb => ⟨_, hb, fun i j hi hj => ?_⟩
  exact (((acc_input H.u_nonneg 2 (va i j hi hj)).add H (acc_mul H (f i) (g j))).congr Iff.rfl rfl rfl
    (zero_add _).symm).toAccurate

example := C62_complex_ger binary64_errors (x.view : VecV Z) y.view A (heap Z) _ _ _ (holdsV bx) (holdsV by_) (mholds bA)
  le_rfl le_rfl (by view_facts) (by view_facts) (by view_facts) fun i j _ _ => zmvals_valid A i j

/-- **C62** `matrix_rank_1_update_c(x, y, A)` -/
theorem C62_complex_gerc {F : Format} {R : Recovery F} {u η : ℝ} (H : F.Errors u η) (x y : VecV (CFP F R)) (A : Mat)
    (h : Heap (CFP F R)) (f g : Nat → CFP F R) (a : Nat → Nat → CFP F R) (hx : x.Holds h f)
    (hy : y.Holds h g) (hA : A.Holds h a) (hxe : A.rows ≤ x.ext) (hye : A.cols ≤ y.ext)
    (hu : A.Unique) (hxA : Apart x.toVec.Cell A.Cell) (hyA : Apart y.toVec.Cell A.Cell)
    (va : ∀ i j, i < A.rows → j < A.cols → (a i j).Valid) :
    Ends (gerc x y A) h fun _ h' => ∃ r, A.Becomes h h' r ∧
      ∀ i j, i < A.rows → j < A.cols →
      CFP.Accurate u 3 (4 * η)
        ((a i j).Finite ∧ (f i).Finite ∧ (g j).Finite)
        (r i j)
        ((a i j).val + (f i).val * conj (g j).val)
        (size (a i j).val + size (f i).val * size (g j).val) := by
  refine (C25_gerc x y A h f g a hx hy hA hxe hye hu hxA hyA).mono fun _ h' hb => ⟨_, hb, fun i j hi hj => ?_⟩
  exact (((acc_input H.u_nonneg 2 (va i j hi hj)).add H (acc_mul_conj H (f i) (g j))).congr Iff.rfl rfl rfl
    (zero_add _).symm).toAccurate

example := C62_complex_gerc binary64_errors (x.view : VecV Z) y.view A (heap Z) _ _ _ (holdsV bx) (holdsV by_) (mholds bA)
  le_rfl le_rfl (by view_facts) (by view_facts) (by view_facts) fun i j _ _ => zmvals_valid A i j

/-- **C62** `symmetric_matrix_rank_1_update(x, A, t)` -/
theorem C62_complex_syr {F : Format} {R : Recovery F} {u η : ℝ} (H : F.Errors u η) (x : VecV (CFP F R)) (A : Mat) (t : Triangle)
    (h : Heap (CFP F R)) (f : Nat → CFP F R) (a : Nat → Nat → CFP F R) (hx : x.Holds h f)
    (hA : A.HoldsOn h t.region a) (hsq : A.rows = A.cols) (hxe : A.rows ≤ x.ext)
    (hu : A.UniqueOn t.region) (hxA : Apart x.toVec.Cell (A.CellOn t.region))
    (va : ∀ i j, i < A.rows → j < A.cols → t.region i j → (a i j).Valid) :
    Ends (syr x A t) h fun _ h' => ∃ r, A.BecomesOn h h' t.region r ∧
      ∀ i j, i < A.rows → j < A.cols → t.region i j →
      CFP.Accurate u 3 (4 * η)
        ((a i j).Finite ∧ (f i).Finite ∧ (f j).Finite)
        (r i j)
        ((a i j).val + (f i).val * (f j).val)
        (size (a i j).val + size (f i).val * size (f j).val) := by
  refine (C26_syr x A t h f a hx hA hsq hxe hu hxA).mono fun _ h' hb => ⟨_, hb, fun i j hi hj hr => ?_⟩
  exact (((acc_input H.u_nonneg 2 (va i j hi hj hr)).add H (acc_mul H (f i) (f j))).congr Iff.rfl rfl
    rfl (zero_add _).symm).toAccurate

example (t : Triangle) := C62_complex_syr binary64_errors (x.view : VecV Z) B t (heap Z) _ _ (holdsV bx) (mholds bB) rfl le_rfl
  (by view_facts) (by view_facts) fun i j _ _ _ => zmvals_valid B i j

/-- **C62** `symmetric_matrix_rank_1_update(alpha, x, A, t)`: `alpha * x(i)` is computed first, and has
to be finite by itself -/
theorem C62_complex_syr_alpha {F : Format} {R : Recovery F} {u η : ℝ} (H : F.Errors u η) (alpha : CFP F R) (x : VecV (CFP F R))
    (A : Mat) (t : Triangle) (h : Heap (CFP F R)) (f : Nat → CFP F R) (a : Nat → Nat → CFP F R)
    (hx : x.Holds h f) (hA : A.HoldsOn h t.region a) (hsq : A.rows = A.cols)
    (hxe : A.rows ≤ x.ext) (hu : A.UniqueOn t.region)
    (hxA : Apart x.toVec.Cell (A.CellOn t.region))
    (va : ∀ i j, i < A.rows → j < A.cols → t.region i j → (a i j).Valid) :
    Ends (syrAlpha alpha x A t) h fun _ h' => ∃ r, A.BecomesOn h h' t.region r ∧
      ∀ i j, i < A.rows → j < A.cols → t.region i j →
      CFP.Accurate u 5 (4 * η * size (f j).val + 4 * η)
        ((a i j).Finite ∧ (alpha * f i).Finite ∧ (f j).Finite)
        (r i j)
        ((a i j).val + alpha.val * (f i).val * (f j).val)
        (size (a i j).val + size alpha.val * size (f i).val * size (f j).val) := by
  refine (C26_syrAlpha alpha x A t h f a hx hA hsq hxe hu hxA).mono fun _ h' hb => ⟨_, hb, fun i j hi hj hr => ?_⟩
  exact (((acc_input H.u_nonneg 4 (va i j hi hj hr)).add H ((acc_mul H alpha (f i)).mul_input H (b := f j))).congr
    Iff.rfl rfl rfl (zero_add _).symm).toAccurate

example (t : Triangle) := C62_complex_syr_alpha binary64_errors ((5 : ℤ) : Z) (x.view : VecV Z) B t (heap Z) _ _ (holdsV bx)
  (mholds bB) rfl le_rfl (by view_facts) (by view_facts) fun i j _ _ _ => zmvals_valid B i j

/-- **C62** `hermitian_matrix_rank_1_update(x, A, t)` -/
theorem C62_complex_her {F : Format} {R : Recovery F} {u η : ℝ} (H : F.Errors u η) (x : VecV (CFP F R)) (A : Mat) (t : Triangle)
    (h : Heap (CFP F R)) (f : Nat → CFP F R) (a : Nat → Nat → CFP F R) (hx : x.Holds h f)
    (hA : A.HoldsOn h t.region a) (hsq : A.rows = A.cols) (hxe : A.rows ≤ x.ext)
    (hu : A.UniqueOn t.region) (hxA : Apart x.toVec.Cell (A.CellOn t.region))
    (va : ∀ i j, i < A.rows → j < A.cols → t.region i j → (a i j).Valid) :
    Ends (her x A t) h fun _ h' => ∃ r, A.BecomesOn h h' t.region r ∧
      ∀ i j, i < A.rows → j < A.cols → t.region i j →
      CFP.Accurate u 3 (4 * η)
        ((realDiag a i j).Finite ∧ (f i).Finite ∧ (f j).Finite)
        (r i j)
        ((realDiag a i j).val + (f i).val * conj (f j).val)
        (size (realDiag a i j).val + size (f i).val * size (f j).val) := by
  refine (C26_her x A t h f a hx hA hsq hxe hu hxA).mono fun _ h' hb => ⟨_, hb, fun i j hi hj hr => ?_⟩
  exact (((acc_input H.u_nonneg 2 (realDiag_valid (va i j hi hj hr))).add H (acc_mul_conj H (f i) (f j))).congr Iff.rfl rfl
    rfl (zero_add _).symm).toAccurate

example (t : Triangle) := C62_complex_her binary64_errors (x.view : VecV Z) B t (heap Z) _ _ (holdsV bx) (mholds bB) rfl le_rfl
  (by view_facts) (by view_facts) fun i j _ _ _ => zmvals_valid B i j

/-- **C62** `hermitian_matrix_rank_1_update(alpha, x, A, t)`: `alpha * x(i)` is computed first, and has
to be finite by itself -/
theorem C62_complex_her_alpha {F : Format} {R : Recovery F} {u η : ℝ} (H : F.Errors u η) (alpha : CFP F R) (x : VecV (CFP F R))
    (A : Mat) (t : Triangle) (h : Heap (CFP F R)) (f : Nat → CFP F R) (a : Nat → Nat → CFP F R)
    (hx : x.Holds h f) (hA : A.HoldsOn h t.region a) (hsq : A.rows = A.cols)
    (hxe : A.rows ≤ x.ext) (hu : A.UniqueOn t.region)
    (hxA : Apart x.toVec.Cell (A.CellOn t.region))
    (va : ∀ i j, i < A.rows → j < A.cols → t.region i j → (a i j).Valid) :
    Ends (herAlpha alpha x A t) h fun _ h' => ∃ r, A.BecomesOn h h' t.region r ∧
      ∀ i j, i < A.rows → j < A.cols → t.region i j →
      CFP.Accurate u 5 (4 * η * size (f j).val + 4 * η)
        ((realDiag a i j).Finite ∧ (alpha * f i).Finite ∧ (f j).Finite)
        (r i j)
        ((realDiag a i j).val + alpha.val * (f i).val * conj (f j).val)
        (size (realDiag a i j).val + size alpha.val * size (f i).val * size (f j).val) := by
  refine (C26_herAlpha alpha x A t h f a hx hA hsq hxe hu hxA).mono fun _ h' hb => ⟨_, hb, fun i j hi hj hr => ?_⟩
  exact (((acc_input H.u_nonneg 4 (realDiag_valid (va i j hi hj hr))).add H ((acc_mul H alpha (f i)).mul_input_conj H (b := f j))).congr
    Iff.rfl rfl rfl (zero_add _).symm).toAccurate

example (t : Triangle) := C62_complex_her_alpha binary64_errors ((5 : ℤ) : Z) (x.view : VecV Z) B t (heap Z) _ _ (holdsV bx)
  (mholds bB) rfl le_rfl (by view_facts) (by view_facts) fun i j _ _ _ => zmvals_valid B i j

/-- **C62** `symmetric_matrix_rank_2_update(x, y, A, t)` -/
theorem C62_complex_syr2 {F : Format} {R : Recovery F} {u η : ℝ} (H : F.Errors u η) (x y : VecV (CFP F R)) (A : Mat)
    (t : Triangle) (h : Heap (CFP F R)) (f g : Nat → CFP F R) (a : Nat → Nat → CFP F R) (hx : x.Holds h f)
    (hy : y.Holds h g) (hA : A.HoldsOn h t.region a) (hsq : A.rows = A.cols)
    (hxe : A.rows ≤ x.ext) (hye : A.rows ≤ y.ext) (hu : A.UniqueOn t.region)
    (hxA : Apart x.toVec.Cell (A.CellOn t.region)) (hyA : Apart y.toVec.Cell (A.CellOn t.region))
    (va : ∀ i j, i < A.rows → j < A.cols → t.region i j → (a i j).Valid) :
    Ends (syr2 x y A t) h fun _ h' => ∃ r, A.BecomesOn h h' t.region r ∧
      ∀ i j, i < A.rows → j < A.cols → t.region i j →
      CFP.Accurate u 4 (8 * η)
        ((a i j).Finite ∧ ((f i).Finite ∧ (g j).Finite) ∧ (g i).Finite ∧ (f j).Finite)
        (r i j)
        ((a i j).val + ((f i).val * (g j).val + (g i).val * (f j).val))
        (size (a i j).val + (size (f i).val * size (g j).val + size (g i).val * size (f j).val)) := by
  refine (C27_syr2 x y A t h f g a hx hy hA hsq hxe hye hu hxA hyA).mono fun _ h' hb => ⟨_, hb, fun i j hi hj hr => ?_⟩
  exact (((acc_input H.u_nonneg 3 (va i j hi hj hr)).add H ((acc_mul H _ _).add H (acc_mul H _ _))).congr
    Iff.rfl rfl rfl (by ring)).toAccurate

example (t : Triangle) := C62_complex_syr2 binary64_errors (x.view : VecV Z) y.view B t (heap Z) _ _ _ (holdsV bx) (holdsV by_)
  (mholds bB) rfl le_rfl le_rfl (by view_facts) (by view_facts) (by view_facts) fun i j _ _ _ => zmvals_valid B i j

/-- **C62** `hermitian_matrix_rank_2_update(x, y, A, t)` -/
theorem C62_complex_her2 {F : Format} {R : Recovery F} {u η : ℝ} (H : F.Errors u η) (x y : VecV (CFP F R)) (A : Mat)
    (t : Triangle) (h : Heap (CFP F R)) (f g : Nat → CFP F R) (a : Nat → Nat → CFP F R) (hx : x.Holds h f)
    (hy : y.Holds h g) (hA : A.HoldsOn h t.region a) (hsq : A.rows = A.cols)
    (hxe : A.rows ≤ x.ext) (hye : A.rows ≤ y.ext) (hu : A.UniqueOn t.region)
    (hxA : Apart x.toVec.Cell (A.CellOn t.region)) (hyA : Apart y.toVec.Cell (A.CellOn t.region))
    (va : ∀ i j, i < A.rows → j < A.cols → t.region i j → (a i j).Valid) :
    Ends (her2 x y A t) h fun _ h' => ∃ r, A.BecomesOn h h' t.region r ∧
      ∀ i j, i < A.rows → j < A.cols → t.region i j →
      CFP.Accurate u 4 (8 * η)
        ((realDiag a i j).Finite ∧ ((f i).Finite ∧ (g j).Finite) ∧ (g i).Finite ∧ (f j).Finite)
        (r i j)
        ((realDiag a i j).val + ((f i).val * conj (g j).val + (g i).val * conj (f j).val))
        (size (realDiag a i j).val + (size (f i).val * size (g j).val + size (g i).val * size (f j).val)) := by
  refine (C27_her2 x y A t h f g a hx hy hA hsq hxe hye hu hxA hyA).mono fun _ h' hb => ⟨_, hb, fun i j hi hj hr => ?_⟩
  exact (((acc_input H.u_nonneg 3 (realDiag_valid (va i j hi hj hr))).add H ((acc_mul_conj H _ _).add H (acc_mul_conj H _ _))).congr
    Iff.rfl rfl rfl (by ring)).toAccurate

example (t : Triangle) := C62_complex_her2 binary64_errors (x.view : VecV Z) y.view B t (heap Z) _ _ _ (holdsV bx) (holdsV by_)
  (mholds bB) rfl le_rfl le_rfl (by view_facts) (by view_facts) (by view_facts) fun i j _ _ _ => zmvals_valid B i j

/-- **C62** `symmetric_matrix_rank_k_update(A, C, t)` -/
theorem C62_complex_syrk {F : Format} {R : Recovery F} {u η : ℝ} (H : F.Errors u η) (A : MatV (CFP F R)) (C : Mat) (t : Triangle)
    (h : Heap (CFP F R)) (a c : Nat → Nat → CFP F R) (hA : A.Holds h a) (hC : C.HoldsOn h t.region c)
    (hsq : C.rows = C.cols) (hAe : C.rows ≤ A.rows) (hu : C.UniqueOn t.region)
    (hAC : Apart A.toMat.Cell (C.CellOn t.region))
    (va : ∀ i j, i < C.rows → j < C.cols → t.region i j → (c i j).Valid) :
    Ends (syrk A C t) h fun _ h' => ∃ r, C.BecomesOn h h' t.region r ∧
      ∀ i j, i < C.rows → j < C.cols → t.region i j →
      CFP.Accurate u (2 + A.cols) (∑ _k ∈ range A.cols, 4 * η)
        ((c i j).Finite ∧ ∀ k, k < A.cols → (a i k).Finite ∧ (a j k).Finite)
        (r i j)
        ((c i j).val + ∑ k ∈ range A.cols, (a i k).val * (a j k).val)
        (size (c i j).val + ∑ k ∈ range A.cols, size (a i k).val * size (a j k).val) := by
  refine (C54_syrk A C t h a c hA hC hsq hAe hu hAC).mono fun _ h' hb => ⟨_, hb, fun i j hi hj hr => ?_⟩
  exact ((Acc.leftSum H (acc_input H.u_nonneg 2 (va i j hi hj hr)) fun k _ =>
    acc_mul H (a i k) (a j k)).congr Iff.rfl rfl rfl (zero_add _).symm).toAccurate

example (t : Triangle) := C62_complex_syrk binary64_errors (T.view : MatV Z) C t (heap Z) _ _ (mholdsV bT)
  (mholds bC) rfl le_rfl (by view_facts) (by view_facts) fun i j _ _ _ => zmvals_valid C i j

/-- **C62** `symmetric_matrix_rank_k_update(alpha, A, C, t)` -/
theorem C62_complex_syrk_alpha {F : Format} {R : Recovery F} {u η : ℝ} (H : F.Errors u η) (alpha : CFP F R) (A : MatV (CFP F R))
    (C : Mat) (t : Triangle) (h : Heap (CFP F R)) (a c : Nat → Nat → CFP F R) (hA : A.Holds h a)
    (hC : C.HoldsOn h t.region c) (hsq : C.rows = C.cols) (hAe : C.rows ≤ A.rows)
    (hu : C.UniqueOn t.region) (hAC : Apart A.toMat.Cell (C.CellOn t.region))
    (va : ∀ i j, i < C.rows → j < C.cols → t.region i j → (c i j).Valid) :
    Ends (syrkAlpha alpha A C t) h fun _ h' => ∃ r, C.BecomesOn h h' t.region r ∧
      ∀ i j, i < C.rows → j < C.cols → t.region i j →
      CFP.Accurate u (4 + A.cols) (∑ k ∈ range A.cols, (4 * η * size (a j k).val + 4 * η))
        ((c i j).Finite ∧ ∀ k, k < A.cols → (alpha * a i k).Finite ∧ (a j k).Finite)
        (r i j)
        ((c i j).val + ∑ k ∈ range A.cols, alpha.val * (a i k).val * (a j k).val)
        (size (c i j).val + ∑ k ∈ range A.cols, size alpha.val * size (a i k).val * size (a j k).val) := by
  refine (C54_syrk_alpha alpha A C t h a c hA hC hsq hAe hu hAC).mono fun _ h' hb => ⟨_, hb, fun i j hi hj hr => ?_⟩
  exact ((Acc.leftSum H (acc_input H.u_nonneg 4 (va i j hi hj hr)) fun k _ =>
    (acc_mul H alpha (a i k)).mul_input H (b := a j k)).congr Iff.rfl rfl rfl (zero_add _).symm).toAccurate

example (t : Triangle) := C62_complex_syrk_alpha binary64_errors ((5 : ℤ) : Z) (T.view : MatV Z) C t (heap Z) _ _ (mholdsV bT)
  (mholds bC) rfl le_rfl (by view_facts) (by view_facts) fun i j _ _ _ => zmvals_valid C i j

/-- **C62** `hermitian_matrix_rank_k_update(A, C, t)` -/
theorem C62_complex_herk {F : Format} {R : Recovery F} {u η : ℝ} (H : F.Errors u η) (A : MatV (CFP F R)) (C : Mat) (t : Triangle)
    (h : Heap (CFP F R)) (a c : Nat → Nat → CFP F R) (hA : A.Holds h a) (hC : C.HoldsOn h t.region c)
    (hsq : C.rows = C.cols) (hAe : C.rows ≤ A.rows) (hu : C.UniqueOn t.region)
    (hAC : Apart A.toMat.Cell (C.CellOn t.region))
    (va : ∀ i j, i < C.rows → j < C.cols → t.region i j → (c i j).Valid) :
    Ends (herk A C t) h fun _ h' => ∃ r, C.BecomesOn h h' t.region r ∧
      ∀ i j, i < C.rows → j < C.cols → t.region i j →
      CFP.Accurate u (2 + A.cols) (∑ _k ∈ range A.cols, 4 * η)
        ((realDiag c i j).Finite ∧ ∀ k, k < A.cols → (a i k).Finite ∧ (a j k).Finite)
        (r i j)
        ((realDiag c i j).val + ∑ k ∈ range A.cols, (a i k).val * conj (a j k).val)
        (size (realDiag c i j).val + ∑ k ∈ range A.cols, size (a i k).val * size (a j k).val) := by
  refine (C54_herk A C t h a c hA hC hsq hAe hu hAC).mono fun _ h' hb => ⟨_, hb, fun i j hi hj hr => ?_⟩
  exact ((Acc.leftSum H (acc_input H.u_nonneg 2 (realDiag_valid (va i j hi hj hr))) fun k _ =>
    acc_mul_conj H (a i k) (a j k)).congr Iff.rfl rfl rfl (zero_add _).symm).toAccurate

example (t : Triangle) := C62_complex_herk binary64_errors (T.view : MatV Z) C t (heap Z) _ _ (mholdsV bT)
  (mholds bC) rfl le_rfl (by view_facts) (by view_facts) fun i j _ _ _ => zmvals_valid C i j

/-- **C62** `hermitian_matrix_rank_k_update(alpha, A, C, t)` -/
theorem C62_complex_herk_alpha {F : Format} {R : Recovery F} {u η : ℝ} (H : F.Errors u η) (alpha : CFP F R) (A : MatV (CFP F R))
    (C : Mat) (t : Triangle) (h : Heap (CFP F R)) (a c : Nat → Nat → CFP F R) (hA : A.Holds h a)
    (hC : C.HoldsOn h t.region c) (hsq : C.rows = C.cols) (hAe : C.rows ≤ A.rows)
    (hu : C.UniqueOn t.region) (hAC : Apart A.toMat.Cell (C.CellOn t.region))
    (va : ∀ i j, i < C.rows → j < C.cols → t.region i j → (c i j).Valid) :
    Ends (herkAlpha alpha A C t) h fun _ h' => ∃ r, C.BecomesOn h h' t.region r ∧
      ∀ i j, i < C.rows → j < C.cols → t.region i j →
      CFP.Accurate u (4 + A.cols) (∑ k ∈ range A.cols, (4 * η * size (a j k).val + 4 * η))
        ((realDiag c i j).Finite ∧ ∀ k, k < A.cols → (alpha * a i k).Finite ∧ (a j k).Finite)
        (r i j)
        ((realDiag c i j).val + ∑ k ∈ range A.cols, alpha.val * (a i k).val * conj (a j k).val)
        (size (realDiag c i j).val + ∑ k ∈ range A.cols, size alpha.val * size (a i k).val * size (a j k).val) := by
  refine (C54_herk_alpha alpha A C t h a c hA hC hsq hAe hu hAC).mono fun _ h' hb => ⟨_, hb, fun i j hi hj hr => ?_⟩
  exact ((Acc.leftSum H (acc_input H.u_nonneg 4 (realDiag_valid (va i j hi hj hr))) fun k _ =>
    (acc_mul H alpha (a i k)).mul_input_conj H (b := a j k)).congr Iff.rfl rfl rfl (zero_add _).symm).toAccurate

example (t : Triangle) := C62_complex_herk_alpha binary64_errors ((5 : ℤ) : Z) (T.view : MatV Z) C t (heap Z) _ _ (mholdsV bT)
  (mholds bC) rfl le_rfl (by view_facts) (by view_facts) fun i j _ _ _ => zmvals_valid C i j

/-- **C62** `symmetric_matrix_rank_2k_update(A, B, C, t)` -/
theorem C62_complex_syr2k {F : Format} {R : Recovery F} {u η : ℝ} (H : F.Errors u η) (A B : MatV (CFP F R)) (C : Mat)
    (t : Triangle) (h : Heap (CFP F R)) (a b c : Nat → Nat → CFP F R) (hA : A.Holds h a)
    (hB : B.Holds h b) (hC : C.HoldsOn h t.region c) (hsq : C.rows = C.cols)
    (hAe : C.rows ≤ A.rows) (hBe : C.rows ≤ B.rows) (hAB : A.cols ≤ B.cols)
    (hu : C.UniqueOn t.region) (hAC : Apart A.toMat.Cell (C.CellOn t.region))
    (hBC : Apart B.toMat.Cell (C.CellOn t.region))
    (va : ∀ i j, i < C.rows → j < C.cols → t.region i j → (c i j).Valid) :
    Ends (syr2k A B C t) h fun _ h' => ∃ r, C.BecomesOn h h' t.region r ∧
      ∀ i j, i < C.rows → j < C.cols → t.region i j →
      CFP.Accurate u (3 + A.cols) (∑ _k ∈ range A.cols, 8 * η)
        ((c i j).Finite ∧ ∀ k, k < A.cols →
          ((a i k).Finite ∧ (b j k).Finite) ∧ (b i k).Finite ∧ (a j k).Finite)
        (r i j)
        ((c i j).val + ∑ k ∈ range A.cols,
          ((a i k).val * (b j k).val + (b i k).val * (a j k).val))
        (size (c i j).val + ∑ k ∈ range A.cols,
          (size (a i k).val * size (b j k).val + size (b i k).val * size (a j k).val)) := by
  refine (C54_syr2k A B C t h a b c hA hB hC hsq hAe hBe hAB hu hAC hBC).mono fun _ h' hb => ⟨_, hb, fun i j hi hj hr => ?_⟩
  exact ((Acc.leftSum H (acc_input H.u_nonneg 3 (va i j hi hj hr)) fun k _ =>
    (acc_mul H (a i k) (b j k)).add H (acc_mul H (b i k) (a j k))).congr Iff.rfl rfl rfl
    (by simp only [zero_add]; exact sum_congr rfl fun _ _ => by ring)).toAccurate

example (t : Triangle) := C62_complex_syr2k binary64_errors (T.view : MatV Z) A.view C t (heap Z) _ _ _ (mholdsV bT) (mholdsV bA)
  (mholds bC) rfl le_rfl le_rfl (by decide) (by view_facts) (by view_facts) (by view_facts)
  fun i j _ _ _ => zmvals_valid C i j

/-- **C62** `hermitian_matrix_rank_2k_update(A, B, C, t)` -/
theorem C62_complex_her2k {F : Format} {R : Recovery F} {u η : ℝ} (H : F.Errors u η) (A B : MatV (CFP F R)) (C : Mat)
    (t : Triangle) (h : Heap (CFP F R)) (a b c : Nat → Nat → CFP F R) (hA : A.Holds h a)
    (hB : B.Holds h b) (hC : C.HoldsOn h t.region c) (hsq : C.rows = C.cols)
    (hAe : C.rows ≤ A.rows) (hBe : C.rows ≤ B.rows) (hAB : A.cols ≤ B.cols)
    (hu : C.UniqueOn t.region) (hAC : Apart A.toMat.Cell (C.CellOn t.region))
    (hBC : Apart B.toMat.Cell (C.CellOn t.region))
    (va : ∀ i j, i < C.rows → j < C.cols → t.region i j → (c i j).Valid) :
    Ends (her2k A B C t) h fun _ h' => ∃ r, C.BecomesOn h h' t.region r ∧
      ∀ i j, i < C.rows → j < C.cols → t.region i j →
      CFP.Accurate u (3 + A.cols) (∑ _k ∈ range A.cols, 8 * η)
        ((realDiag c i j).Finite ∧ ∀ k, k < A.cols →
          ((a i k).Finite ∧ (b j k).Finite) ∧ (b i k).Finite ∧ (a j k).Finite)
        (r i j)
        ((realDiag c i j).val + ∑ k ∈ range A.cols,
          ((a i k).val * conj (b j k).val + (b i k).val * conj (a j k).val))
        (size (realDiag c i j).val + ∑ k ∈ range A.cols,
          (size (a i k).val * size (b j k).val + size (b i k).val * size (a j k).val)) := by
  refine (C54_her2k A B C t h a b c hA hB hC hsq hAe hBe hAB hu hAC hBC).mono fun _ h' hb => ⟨_, hb, fun i j hi hj hr => ?_⟩
  exact ((Acc.leftSum H (acc_input H.u_nonneg 3 (realDiag_valid (va i j hi hj hr))) fun k _ =>
    (acc_mul_conj H (a i k) (b j k)).add H (acc_mul_conj H (b i k) (a j k))).congr Iff.rfl rfl rfl
    (by simp only [zero_add]; exact sum_congr rfl fun _ _ => by ring)).toAccurate

example (t : Triangle) := C62_complex_her2k binary64_errors (T.view : MatV Z) A.view C t (heap Z) _ _ _ (mholdsV bT) (mholdsV bA)
  (mholds bC) rfl le_rfl le_rfl (by decide) (by view_facts) (by view_facts) (by view_facts)
  fun i j _ _ _ => zmvals_valid C i j

/-! ## Sums of absolute values -/

/-- **C62** `vector_abs_sum(v, init)` with a real `init`: the sum of `|Re v(k)| + |Im v(k)|`. -/
theorem C62_complex_vector_abs_sum {F : Format} {R : Recovery F} {u η : ℝ} (H : F.Errors u η)
    (modulus : CFP F R → FP F) (v : VecV (CFP F R)) (init : FP F) (h : Heap (CFP F R))
    (f : Nat → CFP F R) (hv : v.Holds h f) (vi : init.Valid) (vf : ∀ k, k < v.ext → (f k).Valid) :
    letI := magOps modulus
    Ends (vectorAbsSumOf v init) h fun r h' => h' = h ∧
      FP.Accurate u (2 * v.ext) 0
        (init.Finite ∧ ∀ k, k < v.ext → (f k).Finite)
        r
        (init.val + ∑ k ∈ range v.ext, size (f k).val)
        (|init.val| + ∑ k ∈ range v.ext, size (f k).val) := by
  let _ := magOps modulus
  refine (absSumOf_run hv init).mono ?_
  rintro _ _ ⟨rfl, rfl⟩
  exact ⟨rfl, (acc_absSum H v.ext f vi vf).toAccurate⟩

example (modulus : Z → D) := C62_complex_vector_abs_sum binary64_errors modulus (x.view : VecV Z)
  ((5 : ℤ) : D) (heap Z) _ (holdsV bx) (int_valid 5) fun i _ => zvals_valid x i

/-! ## Solves

The division of complex numbers is a parameter.  `Divides (· / ·) δ ζ` (`Spec/AccurateComplex`) says that
finite quotients have a relative residual of at most `δ`; in the examples it is the exact quotient with
both parts rounded. -/

/-- **C62** `triangular_matrix_vector_solve(A, t, d, b, x)` -/
theorem C62_complex_trsv {F : Format} {R : Recovery F} [Div (CFP F R)] {u η δ ζ : ℝ}
    (H : F.Errors u η) (D : Divides (R := R) (· / ·) δ ζ) (A : MatV (CFP F R)) (t : Triangle) (d : Diag)
    (B : VecV (CFP F R)) (X : Vec) (h : Heap (CFP F R)) (a : Nat → Nat → CFP F R) (b : Nat → CFP F R)
    (hA : A.HoldsOn h (triRegion t d) a) (hB : B.Holds h b) (hX : X.Alloc h)
    (hsq : A.rows = A.cols) (hext : A.rows = X.ext) (hBe : A.rows ≤ B.ext) (hu : X.Unique)
    (hAX : Apart (A.toMat.CellOn (triRegion t d)) X.Cell) (hBX : B.toVec.Aligned X)
    (vb : ∀ i, i < A.rows → (b i).Valid) (hd : d = .explicit → ∀ i, i < A.rows → (a i i).Finite) :
    Ends (trsv (· / ·) A t d B X) h fun _ h' => ∃ r, X.Becomes h h' r ∧
      ∀ i, i < A.rows → (r i).Finite →
        (b i).Finite ∧ (d = .explicit → (a i i).val ≠ 0) ∧
        (∀ k, k < A.cols → t.region i k → k ≠ i → (a i k).Finite ∧ (r k).Finite) ∧
        size ((b i).val - ∑ k ∈ range A.cols, triOf t d (fun i j => (a i j).val) i k * (r k).val) ≤
          ((1 + δ) * (1 + u) ^ (A.cols + 1) - 1) * (size (b i).val +
            ∑ k ∈ range A.cols, size (triOf t d (fun i j => (a i j).val) i k) * size (r k).val) +
          ((1 + δ) * (1 + u) ^ (A.cols + 1) * (A.cols * (4 * η)) +
            if d = .explicit then ζ * size (a i i).val else 0) := by
  refine (C54_trsv A t d B X h a b hA hB hX hsq hext hBe hu hAX hBX).mono ?_
  rintro _ h' ⟨v, hb, hv⟩
  refine ⟨v, hb, fun i hi hf => ?_⟩
  have := acc_solveLeft H D (a := a) (hsq ▸ hi) (vb i hi) (fun e => hd e i hi) (hv i hi) hf
  exact ⟨this.1.1, this.1.2.1, this.1.2.2, this.2⟩

example (t : Triangle) (d : Diag) := C62_complex_trsv binary64_errors
  (roundedQuotient_divides binary64_errors) (A.view : MatV Z) t d x.view x (heap Z) _ _ (mholdsV bA)
  (holdsV bx) (alloc bx) rfl rfl le_rfl (by view_facts) (by view_facts) (by view_facts)
  (fun i _ => zvals_valid x i) fun _ i hi => zmvals_A_finite i i hi hi

/-- **C62** `triangular_matrix_matrix_left_solve(A, t, d, B, X)` -/
theorem C62_complex_trsm_left {F : Format} {R : Recovery F} [Div (CFP F R)] {u η δ ζ : ℝ}
    (H : F.Errors u η) (D : Divides (R := R) (· / ·) δ ζ) (A : MatV (CFP F R)) (t : Triangle)
    (d : Diag) (B : MatV (CFP F R)) (X : Mat) (h : Heap (CFP F R)) (a b : Nat → Nat → CFP F R)
    (hA : A.HoldsOn h (triRegion t d) a) (hB : B.Holds h b) (hX : X.Alloc h)
    (hsq : A.rows = A.cols) (hr : X.rows = A.rows) (hBr : B.rows = A.rows) (hc : X.cols = B.cols)
    (hu : X.Unique) (hAX : Apart (A.toMat.CellOn (triRegion t d)) X.Cell)
    (hBX : B.toMat.Aligned X) (vb : ∀ i j, i < B.rows → j < B.cols → (b i j).Valid)
    (hd : d = .explicit → ∀ i, i < A.rows → (a i i).Finite) :
    Ends (trsmLeft A t d B X) h fun _ h' => ∃ r, X.Becomes h h' r ∧
      ∀ i j, i < A.rows → j < X.cols → (r i j).Finite →
        (b i j).Finite ∧ (d = .explicit → (a i i).val ≠ 0) ∧
        (∀ k, k < A.cols → t.region i k → k ≠ i → (a i k).Finite ∧ (r k j).Finite) ∧
        size ((b i j).val - ∑ k ∈ range A.cols, triOf t d (fun i j => (a i j).val) i k * (r k j).val) ≤
          ((1 + δ) * (1 + u) ^ (A.cols + 1) - 1) * (size (b i j).val +
            ∑ k ∈ range A.cols, size (triOf t d (fun i j => (a i j).val) i k) * size (r k j).val) +
          ((1 + δ) * (1 + u) ^ (A.cols + 1) * (A.cols * (4 * η)) +
            if d = .explicit then ζ * size (a i i).val else 0) := by
  refine (C54_trsm_left A t d B X h a b hA hB hX hsq hr hBr hc hu hAX hBX).mono ?_
  rintro _ h' ⟨v, hb, hv⟩
  refine ⟨v, hb, fun i j hi hj hf => ?_⟩
  have := acc_solveLeft H D (a := a) (r := fun k => v k j) (hsq ▸ hi)
    (vb i j (by omega) (by omega)) (fun e => hd e i hi) (hv i j hi hj) hf
  exact ⟨this.1.1, this.1.2.1, this.1.2.2, this.2⟩

example (t : Triangle) (d : Diag) := C62_complex_trsm_left binary64_errors
  (roundedQuotient_divides binary64_errors) (A.view : MatV Z) t d T.view T (heap Z) _ _
  (mholdsV bA) (mholdsV bT) (malloc bT) rfl rfl rfl rfl (by view_facts) (by view_facts)
  (by view_facts) (fun i j _ _ => zmvals_valid T i j) fun _ i hi => zmvals_A_finite i i hi hi

/-- **C62** `triangular_matrix_matrix_right_solve(A, t, d, B, X)` -/
theorem C62_complex_trsm_right {F : Format} {R : Recovery F} [Div (CFP F R)] {u η δ ζ : ℝ}
    (H : F.Errors u η) (D : Divides (R := R) (· / ·) δ ζ) (A : MatV (CFP F R)) (t : Triangle)
    (d : Diag) (B : MatV (CFP F R)) (X : Mat) (h : Heap (CFP F R)) (a b : Nat → Nat → CFP F R)
    (hA : A.HoldsOn h (triRegion t d) a) (hB : B.Holds h b) (hX : X.Alloc h)
    (hsq : A.rows = A.cols) (hr : X.cols = A.cols) (hBr : B.cols = A.cols) (hc : X.rows = B.rows)
    (hu : X.Unique) (hAX : Apart (A.toMat.CellOn (triRegion t d)) X.Cell)
    (hBX : B.toMat.Aligned X) (vb : ∀ i j, i < B.rows → j < B.cols → (b i j).Valid)
    (hd : d = .explicit → ∀ i, i < A.rows → (a i i).Finite) :
    Ends (trsmRight A t d B X) h fun _ h' => ∃ r, X.Becomes h h' r ∧
      ∀ i j, i < X.rows → j < A.cols → (r i j).Finite →
        (b i j).Finite ∧ (d = .explicit → (a j j).val ≠ 0) ∧
        (∀ k, k < A.cols → t.region k j → k ≠ j → (r i k).Finite ∧ (a k j).Finite) ∧
        size ((b i j).val - ∑ k ∈ range A.cols, (r i k).val * triOf t d (fun i j => (a i j).val) k j) ≤
          ((1 + δ) * (1 + u) ^ (A.cols + 1) - 1) * (size (b i j).val +
            ∑ k ∈ range A.cols, size (r i k).val * size (triOf t d (fun i j => (a i j).val) k j)) +
          ((1 + δ) * (1 + u) ^ (A.cols + 1) * (A.cols * (4 * η)) +
            if d = .explicit then ζ * size (a j j).val else 0) := by
  refine (C54_trsm_right A t d B X h a b hA hB hX hsq hr hBr hc hu hAX hBX).mono ?_
  rintro _ h' ⟨v, hb, hv⟩
  refine ⟨v, hb, fun i j hi hj hf => ?_⟩
  have := acc_solveRight H D (a := a) (r := v i) hj
    (vb i j (by omega) (by omega)) (fun e => hd e j (by omega)) (hv i j hi hj) hf
  exact ⟨this.1.1, this.1.2.1, this.1.2.2, this.2⟩

example (t : Triangle) (d : Diag) := C62_complex_trsm_right binary64_errors
  (roundedQuotient_divides binary64_errors) (A.view : MatV Z) t d W.view W (heap Z) _ _
  (mholdsV bA) (mholdsV bW) (malloc bW) rfl rfl rfl rfl (by view_facts) (by view_facts)
  (by view_facts) (fun i j _ _ => zmvals_valid W i j) fun _ i hi => zmvals_A_finite i i hi hi

end StdBLAS

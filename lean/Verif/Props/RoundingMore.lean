import Verif.Lemmas.RoundingSeq
import Verif.Props.Rounding
import Verif.Props.EvaluationOrder
import Verif.Props.Blas1Elementwise

/-!
# Property C47, continued: rounding errors of the structured algorithms

As in `Props/Rounding.lean`: `F` has rounded operations, `val x` is the exact number that `x` stands
for, `u` bounds the relative error of each operation.  `conj` and `re` are operations of `F` of which
nothing is assumed: the bounds are in terms of the exact values of the conjugated elements.
-/

namespace StdBLAS
open Finset Witness
variable {F K : Type} [Zero F] [Add F] [Sub F] [Mul F] [Div F] [NormedField K]

/-- Real elements: conjugation does nothing. -/
noncomputable instance : ConjOps F53 := ⟨id, id⟩

/-! ## Elementwise operations: one rounding -/

/-- **C47** `scale(alpha, x)` -/
theorem C47_scale_vector (val : F → K) (u : ℝ) (R : Rounded val u) (alpha : F) (x : Vec) (h : Heap F) (f : Nat → F)
    (hx : x.Holds h f) (hu : x.Unique) :
    Ends (scale1 alpha x) h fun _ h' => ∃ r, x.Becomes h h' r ∧ ∀ i, i < x.ext →
      ‖val (r i) - (val (f i) * val alpha)‖ ≤
        ((1 + u) ^ (1) - 1) * (‖val (f i)‖ * ‖val alpha‖) := by
  refine (C11_scale_vector alpha x h f hx hu).mono fun _ h' hb => ⟨_, hb, fun i hi => ?_⟩
  exact (R.close_mul _ _).2

example : Ends (scale1 ⟨5⟩ y) (heap F53) fun _ h' => ∃ r, y.Becomes (heap F53) h' r ∧ ∀ i, i < 3 →
    ‖(r i).val - (vals F53 y i).val * 5‖ ≤
      ((1 + (2 : ℝ)⁻¹ ^ 53) ^ 1 - 1) * (‖(vals F53 y i).val‖ * ‖(5 : ℝ)‖) :=
  C47_scale_vector _ _ R53 _ _ _ _ (holds by_) (by view_facts)

/-- **C47** `scale(alpha, A)` -/
theorem C47_scale_matrix (val : F → K) (u : ℝ) (R : Rounded val u) (alpha : F) (A : Mat) (h : Heap F) (f : Nat → Nat → F)
    (hA : A.Holds h f) (hu : A.Unique) :
    Ends (scale2 alpha A) h fun _ h' => ∃ r, A.Becomes h h' r ∧ ∀ i j, i < A.rows → j < A.cols →
      ‖val (r i j) - (val (f i j) * val alpha)‖ ≤
        ((1 + u) ^ (1) - 1) * (‖val (f i j)‖ * ‖val alpha‖) := by
  refine (C11_scale_matrix alpha A h f hA hu).mono fun _ h' hb => ⟨_, hb, fun i j hi hj => ?_⟩
  exact (R.close_mul _ _).2

example : Ends (scale2 ⟨5⟩ A) (heap F53) fun _ h' => ∃ r, A.Becomes (heap F53) h' r ∧
    ∀ i j, i < 3 → j < 3 → ‖(r i j).val - (mvals F53 A i j).val * 5‖ ≤
      ((1 + (2 : ℝ)⁻¹ ^ 53) ^ 1 - 1) * (‖(mvals F53 A i j).val‖ * ‖(5 : ℝ)‖) :=
  C47_scale_matrix _ _ R53 _ _ _ _ (mholds bA) (by view_facts)

/-- **C47** `add(x, y, z)` -/
theorem C47_add_vector (val : F → K) (u : ℝ) (R : Rounded val u) (x y : VecV F) (z : Vec) (h : Heap F) (f g : Nat → F)
    (hx : x.Holds h f) (hy : y.Holds h g) (hz : z.Alloc h)
    (hex : z.ext ≤ x.ext) (hey : z.ext ≤ y.ext) (hu : z.Unique)
    (hax : x.toVec.Aligned z) (hay : y.toVec.Aligned z) :
    Ends (add1 x y z) h fun _ h' => ∃ r, z.Becomes h h' r ∧ ∀ i, i < z.ext →
      ‖val (r i) - (val (f i) + val (g i))‖ ≤
        ((1 + u) ^ (1) - 1) * (‖val (f i)‖ + ‖val (g i)‖) := by
  refine (C12_add_vector x y z h f g hx hy hz hex hey hu hax hay).mono fun _ h' hb => ⟨_, hb, fun i hi => ?_⟩
  exact (R.close_add (Close.refl 0 R.nonneg) (Close.refl 0 R.nonneg)).2

example : Ends (add1 (x.view : VecV F53) y.view z) (heap F53) fun _ h' => ∃ r,
    z.Becomes (heap F53) h' r ∧ ∀ i, i < 3 →
    ‖(r i).val - ((vals F53 x i).val + (vals F53 y i).val)‖ ≤
      ((1 + (2 : ℝ)⁻¹ ^ 53) ^ 1 - 1) * (‖(vals F53 x i).val‖ + ‖(vals F53 y i).val‖) :=
  C47_add_vector _ _ R53 _ _ _ _ _ _ (holdsV bx) (holdsV by_) (alloc bz) le_rfl le_rfl
    (by view_facts) (by view_facts) (by view_facts)

/-- **C47** `add(x, y, z)` for matrices -/
theorem C47_add_matrix (val : F → K) (u : ℝ) (R : Rounded val u) (x y : MatV F) (z : Mat) (h : Heap F) (f g : Nat → Nat → F)
    (hx : x.Holds h f) (hy : y.Holds h g) (hz : z.Alloc h)
    (hr : x.rows = z.rows) (hc : x.cols = z.cols) (hr' : z.rows ≤ y.rows) (hc' : z.cols ≤ y.cols)
    (hu : z.Unique) (hax : x.toMat.Aligned z) (hay : y.toMat.Aligned z) :
    Ends (add2 x y z) h fun _ h' => ∃ r, z.Becomes h h' r ∧ ∀ i j, i < z.rows → j < z.cols →
      ‖val (r i j) - (val (f i j) + val (g i j))‖ ≤
        ((1 + u) ^ (1) - 1) * (‖val (f i j)‖ + ‖val (g i j)‖) := by
  refine (C12_add_matrix x y z h f g hx hy hz hr hc hr' hc' hu hax hay).mono fun _ h' hb => ⟨_, hb, fun i j hi hj => ?_⟩
  exact (R.close_add (Close.refl 0 R.nonneg) (Close.refl 0 R.nonneg)).2

example : Ends (add2 (A.view : MatV F53) B.view C) (heap F53) fun _ h' => ∃ r,
    C.Becomes (heap F53) h' r ∧ ∀ i j, i < 3 → j < 3 →
    ‖(r i j).val - ((mvals F53 A i j).val + (mvals F53 B i j).val)‖ ≤
      ((1 + (2 : ℝ)⁻¹ ^ 53) ^ 1 - 1) * (‖(mvals F53 A i j).val‖ + ‖(mvals F53 B i j).val‖) :=
  C47_add_matrix _ _ R53 _ _ _ _ _ _ (mholdsV bA) (mholdsV bB) (malloc bC) rfl rfl le_rfl le_rfl
    (by view_facts) (by view_facts) (by view_facts)

/-! ## Symmetric, Hermitian and triangular matrix times vector -/

/-- **C47** `symmetric_matrix_vector_product(A, t, x, y)` -/
theorem C47_symv (val : F → K) (u : ℝ) (R : Rounded val u) (A : MatV F) (t : Triangle) (x : VecV F) (y : Vec)
    (h : Heap F) (a : Nat → Nat → F) (f : Nat → F) (hA : A.HoldsOn h t.region a)
    (hx : x.Holds h f) (hy : y.Alloc h) (hsq : A.rows = A.cols) (hext : A.rows = y.ext)
    (hxe : A.cols ≤ x.ext) (hu : y.Unique) (hAy : Apart (A.toMat.CellOn t.region) y.Cell)
    (hxy : Apart x.toVec.Cell y.Cell) :
    Ends (symv A t x y) h fun _ h' => ∃ r, y.Becomes h h' r ∧ ∀ i, i < y.ext →
      ‖val (r i) - (∑ k ∈ range A.cols, symOf t (fun i j => val (a i j)) i k * val (f k))‖ ≤
        ((1 + u) ^ (A.cols + 1) - 1) * (∑ k ∈ range A.cols, ‖symOf t (fun i j => val (a i j)) i k‖ * ‖val (f k)‖) := by
  refine (C54_symv A t x y h a f hA hx hy hsq hext hxe hu hAy hxy).mono fun _ h' hb => ⟨_, hb, fun i hi => ?_⟩
  simpa only [R.zero, zero_add, norm_zero, val_symOf] using (R.close_leftProducts A.cols (symOf t a i) f 0).2

example (t : Triangle) : Ends (symv (A.view : MatV F53) t x.view y) (heap F53) fun _ h' => ∃ r,
    y.Becomes (heap F53) h' r ∧ ∀ i, i < 3 →
      ‖(r i).val - (∑ k ∈ range 3, symOf t (fun i j => (mvals F53 A i j).val) i k * (vals F53 x k).val)‖ ≤
        ((1 + (2 : ℝ)⁻¹ ^ 53) ^ (3 + 1) - 1) *
          (∑ k ∈ range 3, ‖symOf t (fun i j => (mvals F53 A i j).val) i k‖ * ‖(vals F53 x k).val‖) :=
  C47_symv _ _ R53 _ _ _ _ _ _ _ (mholdsV bA) (holdsV bx) (alloc by_) rfl rfl le_rfl
    (by view_facts) (by view_facts) (by view_facts)

/-- **C47** `symmetric_matrix_vector_product(A, t, x, y, z)` -/
theorem C47_symv_update (val : F → K) (u : ℝ) (R : Rounded val u) (A : MatV F) (t : Triangle) (x y : VecV F) (z : Vec)
    (h : Heap F) (a : Nat → Nat → F) (f g : Nat → F) (hA : A.HoldsOn h t.region a)
    (hx : x.Holds h f) (hy : y.Holds h g) (hz : z.Alloc h) (hsq : A.rows = A.cols)
    (hext : A.rows = z.ext) (hxe : A.cols ≤ x.ext) (hye : A.rows ≤ y.ext) (hu : z.Unique)
    (hAz : Apart (A.toMat.CellOn t.region) z.Cell) (hxz : Apart x.toVec.Cell z.Cell)
    (hyz : y.toVec.Aligned z) :
    Ends (symvUpdate A t x y z) h fun _ h' => ∃ r, z.Becomes h h' r ∧ ∀ i, i < z.ext →
      ‖val (r i) - (val (g i) + ∑ k ∈ range A.cols, symOf t (fun i j => val (a i j)) i k * val (f k))‖ ≤
        ((1 + u) ^ (A.cols + 1) - 1) * (‖val (g i)‖ + ∑ k ∈ range A.cols, ‖symOf t (fun i j => val (a i j)) i k‖ * ‖val (f k)‖) := by
  refine (C54_symv_update A t x y z h a f g hA hx hy hz hsq hext hxe hye hu hAz hxz hyz).mono fun _ h' hb => ⟨_, hb, fun i hi => ?_⟩
  simpa only [val_symOf] using (R.close_leftProducts A.cols (symOf t a i) f (g i)).2

example (t : Triangle) : Ends (symvUpdate (A.view : MatV F53) t x.view y.view y) (heap F53) fun _ h' =>
    ∃ r, y.Becomes (heap F53) h' r ∧ ∀ i, i < 3 →
      ‖(r i).val - ((vals F53 y i).val + ∑ k ∈ range 3, symOf t (fun i j => (mvals F53 A i j).val) i k * (vals F53 x k).val)‖ ≤
        ((1 + (2 : ℝ)⁻¹ ^ 53) ^ (3 + 1) - 1) * (‖(vals F53 y i).val‖ +
          ∑ k ∈ range 3, ‖symOf t (fun i j => (mvals F53 A i j).val) i k‖ * ‖(vals F53 x k).val‖) :=
  C47_symv_update _ _ R53 _ _ _ _ _ _ _ _ _ (mholdsV bA) (holdsV bx) (holdsV by_) (alloc by_) rfl rfl
    le_rfl le_rfl (by view_facts) (by view_facts) (by view_facts) (by view_facts)

/-- **C47** `hermitian_matrix_vector_product(A, t, x, y)` -/
theorem C47_hemv [ConjOps F] (val : F → K) (u : ℝ) (R : Rounded val u) (A : MatV F) (t : Triangle) (x : VecV F)
    (y : Vec) (h : Heap F) (a : Nat → Nat → F) (f : Nat → F) (hA : A.HoldsOn h t.region a)
    (hx : x.Holds h f) (hy : y.Alloc h) (hsq : A.rows = A.cols) (hext : A.rows = y.ext)
    (hxe : A.cols ≤ x.ext) (hu : y.Unique) (hAy : Apart (A.toMat.CellOn t.region) y.Cell)
    (hxy : Apart x.toVec.Cell y.Cell) :
    Ends (hemv A t x y) h fun _ h' => ∃ r, y.Becomes h h' r ∧ ∀ i, i < y.ext →
      ‖val (r i) - (∑ k ∈ range A.cols, val (hermOf t a i k) * val (f k))‖ ≤
        ((1 + u) ^ (A.cols + 1) - 1) * (∑ k ∈ range A.cols, ‖val (hermOf t a i k)‖ * ‖val (f k)‖) := by
  refine (C54_hemv A t x y h a f hA hx hy hsq hext hxe hu hAy hxy).mono fun _ h' hb => ⟨_, hb, fun i hi => ?_⟩
  simpa only [R.zero, zero_add, norm_zero] using (R.close_leftProducts A.cols (hermOf t a i) f 0).2

example (t : Triangle) : Ends (hemv (A.view : MatV F53) t x.view y) (heap F53) fun _ h' => ∃ r,
    y.Becomes (heap F53) h' r ∧ ∀ i, i < 3 →
      ‖(r i).val - (∑ k ∈ range 3, (hermOf t (mvals F53 A) i k).val * (vals F53 x k).val)‖ ≤
        ((1 + (2 : ℝ)⁻¹ ^ 53) ^ (3 + 1) - 1) *
          (∑ k ∈ range 3, ‖(hermOf t (mvals F53 A) i k).val‖ * ‖(vals F53 x k).val‖) :=
  C47_hemv _ _ R53 _ _ _ _ _ _ _ (mholdsV bA) (holdsV bx) (alloc by_) rfl rfl le_rfl
    (by view_facts) (by view_facts) (by view_facts)

/-- **C47** `hermitian_matrix_vector_product(A, t, x, y, z)` -/
theorem C47_hemv_update [ConjOps F] (val : F → K) (u : ℝ) (R : Rounded val u) (A : MatV F) (t : Triangle) (x y : VecV F)
    (z : Vec) (h : Heap F) (a : Nat → Nat → F) (f g : Nat → F) (hA : A.HoldsOn h t.region a)
    (hx : x.Holds h f) (hy : y.Holds h g) (hz : z.Alloc h) (hsq : A.rows = A.cols)
    (hext : A.rows = z.ext) (hxe : A.cols ≤ x.ext) (hye : A.rows ≤ y.ext) (hu : z.Unique)
    (hAz : Apart (A.toMat.CellOn t.region) z.Cell) (hxz : Apart x.toVec.Cell z.Cell)
    (hyz : y.toVec.Aligned z) :
    Ends (hemvUpdate A t x y z) h fun _ h' => ∃ r, z.Becomes h h' r ∧ ∀ i, i < z.ext →
      ‖val (r i) - (val (g i) + ∑ k ∈ range A.cols, val (hermOf t a i k) * val (f k))‖ ≤
        ((1 + u) ^ (A.cols + 1) - 1) * (‖val (g i)‖ + ∑ k ∈ range A.cols, ‖val (hermOf t a i k)‖ * ‖val (f k)‖) := by
  refine (C54_hemv_update A t x y z h a f g hA hx hy hz hsq hext hxe hye hu hAz hxz hyz).mono fun _ h' hb => ⟨_, hb, fun i hi => ?_⟩
  exact (R.close_leftProducts A.cols (hermOf t a i) f (g i)).2

example (t : Triangle) : Ends (hemvUpdate (A.view : MatV F53) t x.view y.view y) (heap F53) fun _ h' =>
    ∃ r, y.Becomes (heap F53) h' r ∧ ∀ i, i < 3 →
      ‖(r i).val - ((vals F53 y i).val + ∑ k ∈ range 3, (hermOf t (mvals F53 A) i k).val * (vals F53 x k).val)‖ ≤
        ((1 + (2 : ℝ)⁻¹ ^ 53) ^ (3 + 1) - 1) * (‖(vals F53 y i).val‖ +
          ∑ k ∈ range 3, ‖(hermOf t (mvals F53 A) i k).val‖ * ‖(vals F53 x k).val‖) :=
  C47_hemv_update _ _ R53 _ _ _ _ _ _ _ _ _ (mholdsV bA) (holdsV bx) (holdsV by_) (alloc by_) rfl rfl
    le_rfl le_rfl (by view_facts) (by view_facts) (by view_facts) (by view_facts)

/-- **C47** `triangular_matrix_vector_product(A, t, d, x, y)` -/
theorem C47_trmv (val : F → K) (u : ℝ) (R : Rounded val u) (A : MatV F) (t : Triangle) (d : Diag) (x : VecV F)
    (y : Vec) (h : Heap F) (a : Nat → Nat → F) (f : Nat → F) (hA : A.HoldsOn h (triRegion t d) a)
    (hx : x.Holds h f) (hy : y.Alloc h) (hsq : A.rows = A.cols) (hext : A.rows = y.ext)
    (hxe : A.cols ≤ x.ext) (hu : y.Unique) (hAy : Apart (A.toMat.CellOn (triRegion t d)) y.Cell)
    (hxy : Apart x.toVec.Cell y.Cell) :
    Ends (trmv A t d x y) h fun _ h' => ∃ r, y.Becomes h h' r ∧ ∀ i, i < y.ext →
      ‖val (r i) - (∑ k ∈ range A.cols, triOf t d (fun i j => val (a i j)) i k * val (f k))‖ ≤
        ((1 + u) ^ (A.cols + 1) - 1) * (∑ k ∈ range A.cols, ‖triOf t d (fun i j => val (a i j)) i k‖ * ‖val (f k)‖) := by
  refine (C54_trmv A t d x y h a f hA hx hy hsq hext hxe hu hAy hxy).mono fun _ h' hb => ⟨_, hb, fun i hi => ?_⟩
  simpa only [R.zero, zero_add, norm_zero] using (R.close_triSeq t d a f 0 (show i < A.cols by omega)).2

example (t : Triangle) (d : Diag) : Ends (trmv (A.view : MatV F53) t d x.view y) (heap F53)
    fun _ h' => ∃ r, y.Becomes (heap F53) h' r ∧ ∀ i, i < 3 →
      ‖(r i).val - (∑ k ∈ range 3, triOf t d (fun i j => (mvals F53 A i j).val) i k * (vals F53 x k).val)‖ ≤
        ((1 + (2 : ℝ)⁻¹ ^ 53) ^ (3 + 1) - 1) *
          (∑ k ∈ range 3, ‖triOf t d (fun i j => (mvals F53 A i j).val) i k‖ * ‖(vals F53 x k).val‖) :=
  C47_trmv _ _ R53 _ _ _ _ _ _ _ _ (mholdsV bA) (holdsV bx) (alloc by_) rfl rfl le_rfl
    (by view_facts) (by view_facts) (by view_facts)

/-- **C47** `triangular_matrix_vector_product(A, t, d, x, y, z)` -/
theorem C47_trmv_update (val : F → K) (u : ℝ) (R : Rounded val u) (A : MatV F) (t : Triangle) (d : Diag) (x y : VecV F)
    (z : Vec) (h : Heap F) (a : Nat → Nat → F) (f g : Nat → F)
    (hA : A.HoldsOn h (triRegion t d) a) (hx : x.Holds h f) (hy : y.Holds h g) (hz : z.Alloc h)
    (hsq : A.rows = A.cols) (hext : A.rows = z.ext) (hxe : A.cols ≤ x.ext) (hye : A.rows ≤ y.ext)
    (hu : z.Unique) (hAz : Apart (A.toMat.CellOn (triRegion t d)) z.Cell)
    (hxz : Apart x.toVec.Cell z.Cell) (hyz : y.toVec.Aligned z) :
    Ends (trmvUpdate A t d x y z) h fun _ h' => ∃ r, z.Becomes h h' r ∧ ∀ i, i < z.ext →
      ‖val (r i) - (val (g i) + ∑ k ∈ range A.cols, triOf t d (fun i j => val (a i j)) i k * val (f k))‖ ≤
        ((1 + u) ^ (A.cols + 1) - 1) * (‖val (g i)‖ + ∑ k ∈ range A.cols, ‖triOf t d (fun i j => val (a i j)) i k‖ * ‖val (f k)‖) := by
  refine (C54_trmv_update A t d x y z h a f g hA hx hy hz hsq hext hxe hye hu hAz hxz hyz).mono fun _ h' hb => ⟨_, hb, fun i hi => ?_⟩
  exact (R.close_triSeq t d a f (g i) (show i < A.cols by omega)).2

example (t : Triangle) (d : Diag) : Ends (trmvUpdate (A.view : MatV F53) t d x.view y.view y)
    (heap F53) fun _ h' => ∃ r, y.Becomes (heap F53) h' r ∧ ∀ i, i < 3 →
      ‖(r i).val - ((vals F53 y i).val + ∑ k ∈ range 3, triOf t d (fun i j => (mvals F53 A i j).val) i k * (vals F53 x k).val)‖ ≤
        ((1 + (2 : ℝ)⁻¹ ^ 53) ^ (3 + 1) - 1) * (‖(vals F53 y i).val‖ +
          ∑ k ∈ range 3, ‖triOf t d (fun i j => (mvals F53 A i j).val) i k‖ * ‖(vals F53 x k).val‖) :=
  C47_trmv_update _ _ R53 _ _ _ _ _ _ _ _ _ _ (mholdsV bA) (holdsV bx) (holdsV by_) (alloc by_) rfl rfl
    le_rfl le_rfl (by view_facts) (by view_facts) (by view_facts) (by view_facts)

/-- **C47** `triangular_matrix_vector_product(A, t, d, y)`, in place -/
theorem C47_trmv_in_place (val : F → K) (u : ℝ) (R : Rounded val u) (A : MatV F) (t : Triangle) (d : Diag) (y : Vec)
    (h : Heap F) (a : Nat → Nat → F) (f : Nat → F) (hA : A.HoldsOn h (triRegion t d) a)
    (hy : y.Holds h f) (hsq : A.rows = A.cols) (hext : A.rows = y.ext) (hu : y.Unique)
    (hAy : Apart (A.toMat.CellOn (triRegion t d)) y.Cell) :
    Ends (trmvInPlace A t d y) h fun _ h' => ∃ r, y.Becomes h h' r ∧ ∀ i, i < y.ext →
      ‖val (r i) - (∑ k ∈ range A.cols, triOf t d (fun i j => val (a i j)) i k * val (f k))‖ ≤
        ((1 + u) ^ (A.cols) - 1) * (∑ k ∈ range A.cols, ‖triOf t d (fun i j => val (a i j)) i k‖ * ‖val (f k)‖) := by
  refine (C54_trmv_in_place A t d y h a f hA hy hsq hext hu hAy).mono fun _ h' hb => ⟨_, hb, fun i hi => ?_⟩
  refine (R.close_triSeqInPlace t d a f (show i < A.cols by omega) ?_).2
  rw [triOf_diag]
  cases d
  · rw [if_neg (by decide)]
    simpa using Close.refl (v := val (f i)) 1 R.nonneg
  · rw [if_pos rfl]
    simpa only [mul_comm (val (f i)), mul_comm ‖val (f i)‖] using R.close_mul (f i) (a i i)

example (t : Triangle) (d : Diag) : Ends (trmvInPlace (A.view : MatV F53) t d y) (heap F53)
    fun _ h' => ∃ r, y.Becomes (heap F53) h' r ∧ ∀ i, i < 3 →
      ‖(r i).val - (∑ k ∈ range 3, triOf t d (fun i j => (mvals F53 A i j).val) i k * (vals F53 y k).val)‖ ≤
        ((1 + (2 : ℝ)⁻¹ ^ 53) ^ 3 - 1) *
          (∑ k ∈ range 3, ‖triOf t d (fun i j => (mvals F53 A i j).val) i k‖ * ‖(vals F53 y k).val‖) :=
  C47_trmv_in_place _ _ R53 _ _ _ _ _ _ _ (mholdsV bA) (holds by_) rfl rfl (by view_facts)
    (by view_facts)

/-! ## Hermitian and triangular matrix products -/

/-- **C47** `hermitian_matrix_product(A, t, B, C)` -/
theorem C47_hemm_left [ConjOps F] (val : F → K) (u : ℝ) (R : Rounded val u) (A : MatV F) (t : Triangle)
    (B : MatV F) (C : Mat) (h : Heap F) (a b : Nat → Nat → F) (hA : A.HoldsOn h t.region a)
    (hB : B.Holds h b) (hC : C.Alloc h) (hsq : A.rows = A.cols) (hr : C.rows = A.rows)
    (hk : A.cols = B.rows) (hc : C.cols = B.cols) (hu : C.Unique)
    (hAC : Apart (A.toMat.CellOn t.region) C.Cell) (hBC : Apart B.toMat.Cell C.Cell) :
    Ends (hemmLeft A t B C) h fun _ h' => ∃ r, C.Becomes h h' r ∧ ∀ i j, i < C.rows → j < C.cols →
      ‖val (r i j) - (∑ k ∈ range A.cols, val (hermOf t a i k) * val (b k j))‖ ≤
        ((1 + u) ^ (A.cols + 1) - 1) * (∑ k ∈ range A.cols, ‖val (hermOf t a i k)‖ * ‖val (b k j)‖) := by
  refine (C54_hemm_left A t B C h a b hA hB hC hsq hr hk hc hu hAC hBC).mono fun _ h' hb => ⟨_, hb, fun i j hi hj => ?_⟩
  simpa only [R.zero, zero_add, norm_zero] using
    (R.close_leftProducts A.cols (hermOf t a i) (fun k => b k j) 0).2

example (t : Triangle) : Ends (hemmLeft (A.view : MatV F53) t T.view ⟨3, 2, C.addr⟩) (heap F53)
    fun _ h' => ∃ r, (⟨3, 2, C.addr⟩ : Mat).Becomes (heap F53) h' r ∧ ∀ i j, i < 3 → j < 2 →
      ‖(r i j).val - (∑ k ∈ range 3, (hermOf t (mvals F53 A) i k).val * (mvals F53 T k j).val)‖ ≤
        ((1 + (2 : ℝ)⁻¹ ^ 53) ^ (3 + 1) - 1) *
          (∑ k ∈ range 3, ‖(hermOf t (mvals F53 A) i k).val‖ * ‖(mvals F53 T k j).val‖) :=
  C47_hemm_left _ _ R53 _ _ _ _ _ _ _ (mholdsV bA) (mholdsV bT)
    (malloc fun i j hi hj => bC i j hi (by simp only [C] at *; omega)) rfl rfl rfl rfl
    (by view_facts) (by view_facts) (by view_facts)

/-- **C47** `hermitian_matrix_product(B, A, t, C)` (with the diagonal as the code reads it, see C33) -/
theorem C47_hemm_right [ConjOps F] (val : F → K) (u : ℝ) (R : Rounded val u) (A : MatV F) (t : Triangle)
    (B : MatV F) (C : Mat) (h : Heap F) (a b : Nat → Nat → F) (hA : A.HoldsOn h t.region a)
    (hB : B.Holds h b) (hC : C.Alloc h) (hsq : A.rows = A.cols) (hr : C.rows = B.rows)
    (hk : B.cols = A.rows) (hc : C.cols = A.cols) (hu : C.Unique)
    (hAC : Apart (A.toMat.CellOn t.region) C.Cell) (hBC : Apart B.toMat.Cell C.Cell) :
    Ends (hemmRight B A t C) h fun _ h' => ∃ r, C.Becomes h h' r ∧ ∀ i j, i < C.rows → j < C.cols →
      ‖val (r i j) - (∑ k ∈ range A.cols, val (b i k) * val (if k = j then a j j else hermOf t a k j))‖ ≤
        ((1 + u) ^ (A.cols + 1) - 1) * (∑ k ∈ range A.cols, ‖val (b i k)‖ * ‖val (if k = j then a j j else hermOf t a k j)‖) := by
  refine (C54_hemm_right A t B C h a b hA hB hC hsq hr hk hc hu hAC hBC).mono fun _ h' hb => ⟨_, hb, fun i j hi hj => ?_⟩
  simpa only [R.zero, zero_add, norm_zero] using
    (R.close_leftProducts A.cols (b i) (fun k => if k = j then a j j else hermOf t a k j) 0).2

example (t : Triangle) : Ends (hemmRight (W.view : MatV F53) A.view t ⟨2, 3, C.addr⟩) (heap F53)
    fun _ h' => ∃ r, (⟨2, 3, C.addr⟩ : Mat).Becomes (heap F53) h' r ∧ ∀ i j, i < 2 → j < 3 →
      ‖(r i j).val - (∑ k ∈ range 3, (mvals F53 W i k).val * (if k = j then mvals F53 A j j else hermOf t (mvals F53 A) k j).val)‖ ≤
        ((1 + (2 : ℝ)⁻¹ ^ 53) ^ (3 + 1) - 1) *
          (∑ k ∈ range 3, ‖(mvals F53 W i k).val‖ * ‖(if k = j then mvals F53 A j j else hermOf t (mvals F53 A) k j).val‖) :=
  C47_hemm_right _ _ R53 _ _ _ _ _ _ _ (mholdsV bA) (mholdsV bW)
    (malloc fun i j hi hj => bC i j (by simp only [C] at *; omega) hj) rfl rfl rfl rfl
    (by view_facts) (by view_facts) (by view_facts)

/-- **C47** `triangular_matrix_product(A, t, d, B, C)` -/
theorem C47_trmm_left (val : F → K) (u : ℝ) (R : Rounded val u) (A : MatV F) (t : Triangle) (d : Diag)
    (B : MatV F) (C : Mat) (h : Heap F) (a b : Nat → Nat → F)
    (hA : A.HoldsOn h (triRegion t d) a) (hB : B.Holds h b) (hC : C.Alloc h)
    (hsq : A.rows = A.cols) (hr : C.rows = A.rows) (hk : A.cols = B.rows) (hc : C.cols = B.cols)
    (hu : C.Unique) (hAC : Apart (A.toMat.CellOn (triRegion t d)) C.Cell)
    (hBC : Apart B.toMat.Cell C.Cell) :
    Ends (trmmLeft A t d B C) h fun _ h' => ∃ r, C.Becomes h h' r ∧ ∀ i j, i < C.rows → j < C.cols →
      ‖val (r i j) - (∑ k ∈ range A.cols, triOf t d (fun i j => val (a i j)) i k * val (b k j))‖ ≤
        ((1 + u) ^ (A.cols + 1) - 1) * (∑ k ∈ range A.cols, ‖triOf t d (fun i j => val (a i j)) i k‖ * ‖val (b k j)‖) := by
  refine (C54_trmm_left A t d B C h a b hA hB hC hsq hr hk hc hu hAC hBC).mono fun _ h' hb => ⟨_, hb, fun i j hi hj => ?_⟩
  have key := R.close_triElement (before := t = .lower) (d := d) (n := A.cols) (i := i)
    (t := fun k => a i k * b k j) (diag := if d = .explicit then a i i * b i j else b i j) (s := 0)
    (e := fun k => triOf t d (fun i j => val (a i j)) i k * val (b k j))
    (w := fun k => ‖triOf t d (fun i j => val (a i j)) i k‖ * ‖val (b k j)‖) (by omega)
    (by
      rw [triOf_diag]
      cases d
      · simpa using Close.refl (v := val (b i j)) 1 R.nonneg
      · exact R.close_mul _ _)
    (fun q k hk => by
      obtain rfl : t = .lower := by simpa using q
      constructor
      · intro hki
        rw [triOf_inside (t := .lower) (by omega) (show k ≤ i by omega)]
        exact R.close_mul _ _
      · intro hik
        rw [triOf_outside (t := .lower) (by omega) (show ¬ k ≤ i by omega)]
        simp)
    (fun q k hk => by
      obtain rfl : t = .upper := by cases t <;> simp_all
      constructor
      · intro hik
        rw [triOf_inside (t := .upper) (by omega) (show i ≤ k by omega)]
        exact R.close_mul _ _
      · intro hki
        rw [triOf_outside (t := .upper) (by omega) (show ¬ i ≤ k by omega)]
        simp)
  rw [hsq]
  simpa only [R.zero, zero_add, norm_zero] using key.2

example (t : Triangle) (d : Diag) :
    Ends (trmmLeft (A.view : MatV F53) t d T.view ⟨3, 2, C.addr⟩) (heap F53)
    fun _ h' => ∃ r, (⟨3, 2, C.addr⟩ : Mat).Becomes (heap F53) h' r ∧ ∀ i j, i < 3 → j < 2 →
      ‖(r i j).val - (∑ k ∈ range 3, triOf t d (fun i j => (mvals F53 A i j).val) i k * (mvals F53 T k j).val)‖ ≤
        ((1 + (2 : ℝ)⁻¹ ^ 53) ^ (3 + 1) - 1) *
          (∑ k ∈ range 3, ‖triOf t d (fun i j => (mvals F53 A i j).val) i k‖ * ‖(mvals F53 T k j).val‖) :=
  C47_trmm_left _ _ R53 _ _ _ _ _ _ _ _ (mholdsV bA) (mholdsV bT)
    (malloc fun i j hi hj => bC i j hi (by simp only [C] at *; omega)) rfl rfl rfl rfl
    (by view_facts) (by view_facts) (by view_facts)

/-- **C47** `triangular_matrix_product(B, A, t, d, C)` -/
theorem C47_trmm_right (val : F → K) (u : ℝ) (R : Rounded val u) (A : MatV F) (t : Triangle) (d : Diag)
    (B : MatV F) (C : Mat) (h : Heap F) (a b : Nat → Nat → F)
    (hA : A.HoldsOn h (triRegion t d) a) (hB : B.Holds h b) (hC : C.Alloc h)
    (hsq : A.rows = A.cols) (hr : C.rows = B.rows) (hk : B.cols = A.rows) (hc : C.cols = A.cols)
    (hu : C.Unique) (hAC : Apart (A.toMat.CellOn (triRegion t d)) C.Cell)
    (hBC : Apart B.toMat.Cell C.Cell) :
    Ends (trmmRight B A t d C) h fun _ h' => ∃ r, C.Becomes h h' r ∧ ∀ i j, i < C.rows → j < C.cols →
      ‖val (r i j) - (∑ k ∈ range A.cols, val (b i k) * triOf t d (fun i j => val (a i j)) k j)‖ ≤
        ((1 + u) ^ (A.cols + 1) - 1) * (∑ k ∈ range A.cols, ‖val (b i k)‖ * ‖triOf t d (fun i j => val (a i j)) k j‖) := by
  refine (C54_trmm_right A t d B C h a b hA hB hC hsq hr hk hc hu hAC hBC).mono fun _ h' hb => ⟨_, hb, fun i j hi hj => ?_⟩
  have key := R.close_triElement (before := t = .upper) (d := d) (n := A.cols) (i := j)
    (t := fun k => b i k * a k j) (diag := if d = .explicit then b i j * a j j else b i j) (s := 0)
    (e := fun k => val (b i k) * triOf t d (fun i j => val (a i j)) k j)
    (w := fun k => ‖val (b i k)‖ * ‖triOf t d (fun i j => val (a i j)) k j‖) (by omega)
    (by
      rw [triOf_diag]
      cases d
      · simpa using Close.refl (v := val (b i j)) 1 R.nonneg
      · exact R.close_mul _ _)
    (fun q k hk => by
      obtain rfl : t = .upper := by simpa using q
      constructor
      · intro hki
        rw [triOf_inside (t := .upper) (by omega) (show k ≤ j by omega)]
        exact R.close_mul _ _
      · intro hik
        rw [triOf_outside (t := .upper) (by omega) (show ¬ k ≤ j by omega)]
        simp)
    (fun q k hk => by
      obtain rfl : t = .lower := by cases t <;> simp_all
      constructor
      · intro hik
        rw [triOf_inside (t := .lower) (by omega) (show j ≤ k by omega)]
        exact R.close_mul _ _
      · intro hki
        rw [triOf_outside (t := .lower) (by omega) (show ¬ j ≤ k by omega)]
        simp)
  rw [hsq]
  simpa only [R.zero, zero_add, norm_zero] using key.2

example (t : Triangle) (d : Diag) :
    Ends (trmmRight (W.view : MatV F53) A.view t d ⟨2, 3, C.addr⟩) (heap F53)
    fun _ h' => ∃ r, (⟨2, 3, C.addr⟩ : Mat).Becomes (heap F53) h' r ∧ ∀ i j, i < 2 → j < 3 →
      ‖(r i j).val - (∑ k ∈ range 3, (mvals F53 W i k).val * triOf t d (fun i j => (mvals F53 A i j).val) k j)‖ ≤
        ((1 + (2 : ℝ)⁻¹ ^ 53) ^ (3 + 1) - 1) *
          (∑ k ∈ range 3, ‖(mvals F53 W i k).val‖ * ‖triOf t d (fun i j => (mvals F53 A i j).val) k j‖) :=
  C47_trmm_right _ _ R53 _ _ _ _ _ _ _ _ (mholdsV bA) (mholdsV bW)
    (malloc fun i j hi hj => bC i j (by simp only [C] at *; omega) hj) rfl rfl rfl rfl
    (by view_facts) (by view_facts) (by view_facts)

/-- **C47** `triangular_matrix_left_product(A, t, d, C)`, in place -/
theorem C47_trmm_left_in_place (val : F → K) (u : ℝ) (R : Rounded val u) (A : MatV F) (t : Triangle) (d : Diag) (C : Mat)
    (h : Heap F) (a c : Nat → Nat → F) (hA : A.HoldsOn h (triRegion t d) a) (hC : C.Holds h c)
    (hsq : A.rows = A.cols) (hr : C.rows = A.rows) (hu : C.Unique)
    (hAC : Apart (A.toMat.CellOn (triRegion t d)) C.Cell) :
    Ends (trmmLeftInPlace A t d C) h fun _ h' => ∃ r, C.Becomes h h' r ∧ ∀ i j, i < C.rows → j < C.cols →
      ‖val (r i j) - (∑ k ∈ range A.cols, triOf t d (fun i j => val (a i j)) i k * val (c k j))‖ ≤
        ((1 + u) ^ (A.cols) - 1) * (∑ k ∈ range A.cols, ‖triOf t d (fun i j => val (a i j)) i k‖ * ‖val (c k j)‖) := by
  refine (C54_trmm_left_in_place A t d C h a c hA hC hsq hr hu hAC).mono fun _ h' hb => ⟨_, hb, fun i j hi hj => ?_⟩
  refine (R.close_triSeqInPlace t d a (fun k => c k j) (show i < A.cols by omega) ?_).2
  rw [triOf_diag]
  cases d
  · rw [if_neg (by decide)]
    simpa using Close.refl (v := val (c i j)) 1 R.nonneg
  · rw [if_pos rfl]
    exact R.close_mul _ _

example (t : Triangle) (d : Diag) : Ends (trmmLeftInPlace (A.view : MatV F53) t d T) (heap F53)
    fun _ h' => ∃ r, T.Becomes (heap F53) h' r ∧ ∀ i j, i < 3 → j < 2 →
      ‖(r i j).val - (∑ k ∈ range 3, triOf t d (fun i j => (mvals F53 A i j).val) i k * (mvals F53 T k j).val)‖ ≤
        ((1 + (2 : ℝ)⁻¹ ^ 53) ^ 3 - 1) *
          (∑ k ∈ range 3, ‖triOf t d (fun i j => (mvals F53 A i j).val) i k‖ * ‖(mvals F53 T k j).val‖) :=
  C47_trmm_left_in_place _ _ R53 _ _ _ _ _ _ _ (mholdsV bA) (mholds bT) rfl rfl (by view_facts)
    (by view_facts)

/-- **C47** `triangular_matrix_right_product(A, t, d, C)`, in place -/
theorem C47_trmm_right_in_place (val : F → K) (u : ℝ) (R : Rounded val u) (A : MatV F) (t : Triangle) (d : Diag) (C : Mat)
    (h : Heap F) (a c : Nat → Nat → F) (hA : A.HoldsOn h (triRegion t d) a) (hC : C.Holds h c)
    (hsq : A.rows = A.cols) (hr : C.cols = A.cols) (hu : C.Unique)
    (hAC : Apart (A.toMat.CellOn (triRegion t d)) C.Cell) :
    Ends (trmmRightInPlace A t d C) h fun _ h' => ∃ r, C.Becomes h h' r ∧ ∀ i j, i < C.rows → j < C.cols →
      ‖val (r i j) - (∑ k ∈ range A.cols, val (c i k) * triOf t d (fun i j => val (a i j)) k j)‖ ≤
        ((1 + u) ^ (A.cols) - 1) * (∑ k ∈ range A.cols, ‖val (c i k)‖ * ‖triOf t d (fun i j => val (a i j)) k j‖) := by
  refine (C54_trmm_right_in_place A t d C h a c hA hC hsq hr hu hAC).mono fun _ h' hb => ⟨_, hb, fun i j hi hj => ?_⟩
  have hj' : j < A.cols := by omega
  have hs : Close u 1 (val (if d = .explicit then c i j * a j j else c i j))
      (val (c i j) * triOf t d (fun i j => val (a i j)) j j)
      (‖val (c i j)‖ * ‖triOf t d (fun i j => val (a i j)) j j‖) := by
    rw [triOf_diag]
    cases d
    · simpa using Close.refl (v := val (c i j)) 1 R.nonneg
    · exact R.close_mul _ _
  cases t with
  | upper =>
    have out : ∀ k, k < A.cols → j < k → triOf .upper d (fun i j => val (a i j)) k j = 0 :=
      fun k _ hk => triOf_outside (t := .upper) (by omega) (show ¬ k ≤ j by omega)
    rw [sum_lower hj' _ fun k hk q => by rw [out k hk q, mul_zero],
      sum_lower hj' _ fun k hk q => by rw [out k hk q, norm_zero, mul_zero], sum_range_succ,
      sum_range_succ, add_comm (∑ k ∈ range j, val _ * _), add_comm (∑ k ∈ range j, ‖_‖ * _)]
    refine (Close.mono R.nonneg (m := 1 + j) (by omega) (R.close_leftSum hs fun k hk => ?_)).2
    rw [triOf_inside (t := .upper) (by omega) (show k ≤ j by omega)]
    exact R.close_mul _ _
  | lower =>
    have out : ∀ k, k < j → triOf .lower d (fun i j => val (a i j)) k j = 0 :=
      fun k hk => triOf_outside (t := .lower) (by omega) (show ¬ j ≤ k by omega)
    rw [sum_upper' hj' _ fun k hk => by rw [out k hk, mul_zero],
      sum_upper' hj' _ fun k hk => by rw [out k hk, norm_zero, mul_zero]]
    refine (Close.mono R.nonneg (m := 1 + (A.cols - 1 - j)) (by omega)
      (R.close_leftSum hs fun k hk => ?_)).2
    rw [triOf_inside (t := .lower) (by omega) (show j ≤ j + 1 + k by omega)]
    exact R.close_mul _ _

example (t : Triangle) (d : Diag) : Ends (trmmRightInPlace (A.view : MatV F53) t d W) (heap F53)
    fun _ h' => ∃ r, W.Becomes (heap F53) h' r ∧ ∀ i j, i < 2 → j < 3 →
      ‖(r i j).val - (∑ k ∈ range 3, (mvals F53 W i k).val * triOf t d (fun i j => (mvals F53 A i j).val) k j)‖ ≤
        ((1 + (2 : ℝ)⁻¹ ^ 53) ^ 3 - 1) *
          (∑ k ∈ range 3, ‖(mvals F53 W i k).val‖ * ‖triOf t d (fun i j => (mvals F53 A i j).val) k j‖) :=
  C47_trmm_right_in_place _ _ R53 _ _ _ _ _ _ _ (mholdsV bA) (mholds bW) rfl rfl (by view_facts)
    (by view_facts)

/-! ## Rank updates -/

/-- **C47** `matrix_rank_1_update_c(x, y, A)`: two roundings in each element -/
theorem C47_gerc [ConjOps F] (val : F → K) (u : ℝ) (R : Rounded val u) (x y : VecV F) (A : Mat) (h : Heap F)
    (f g : Nat → F) (a : Nat → Nat → F) (hx : x.Holds h f) (hy : y.Holds h g) (hA : A.Holds h a)
    (hxe : A.rows ≤ x.ext) (hye : A.cols ≤ y.ext) (hu : A.Unique)
    (hxA : Apart x.toVec.Cell A.Cell) (hyA : Apart y.toVec.Cell A.Cell) :
    Ends (gerc x y A) h fun _ h' => ∃ r, A.Becomes h h' r ∧ ∀ i j, i < A.rows → j < A.cols →
      ‖val (r i j) - (val (a i j) + val (f i) * val (ConjOps.conj (g j)))‖ ≤
        ((1 + u) ^ (2) - 1) * (‖val (a i j)‖ + ‖val (f i)‖ * ‖val (ConjOps.conj (g j))‖) := by
  refine (C25_gerc x y A h f g a hx hy hA hxe hye hu hxA hyA).mono fun _ h' hb => ⟨_, hb, fun i j hi hj => ?_⟩
  exact (R.close_add (Close.refl 1 R.nonneg) (R.close_mul _ _)).2

example : Ends (gerc x.view y.view A) (heap F53) fun _ h' => ∃ r, A.Becomes (heap F53) h' r ∧
    ∀ i j, i < 3 → j < 3 →
      ‖(r i j).val - ((mvals F53 A i j).val + (vals F53 x i).val * (vals F53 y j).val)‖ ≤
        ((1 + (2 : ℝ)⁻¹ ^ 53) ^ 2 - 1) *
          (‖(mvals F53 A i j).val‖ + ‖(vals F53 x i).val‖ * ‖(vals F53 y j).val‖) :=
  C47_gerc _ _ R53 _ _ _ _ _ _ _ (holdsV bx) (holdsV by_) (mholds bA) le_rfl le_rfl
    (by view_facts) (by view_facts) (by view_facts)

/-- **C47** `symmetric_matrix_rank_1_update(x, A, t)` -/
theorem C47_syr (val : F → K) (u : ℝ) (R : Rounded val u) (x : VecV F) (A : Mat) (t : Triangle) (h : Heap F)
    (f : Nat → F) (a : Nat → Nat → F) (hx : x.Holds h f) (hA : A.HoldsOn h t.region a)
    (hsq : A.rows = A.cols) (hxe : A.rows ≤ x.ext) (hu : A.UniqueOn t.region)
    (hxA : Apart x.toVec.Cell (A.CellOn t.region)) :
    Ends (syr x A t) h fun _ h' => ∃ r, A.BecomesOn h h' t.region r ∧
      ∀ i j, i < A.rows → j < A.cols → t.region i j →
      ‖val (r i j) - (val (a i j) + val (f i) * val (f j))‖ ≤
        ((1 + u) ^ (2) - 1) * (‖val (a i j)‖ + ‖val (f i)‖ * ‖val (f j)‖) := by
  refine (C26_syr x A t h f a hx hA hsq hxe hu hxA).mono fun _ h' hb => ⟨_, hb, fun i j hi hj hr => ?_⟩
  exact (R.close_add (Close.refl 1 R.nonneg) (R.close_mul _ _)).2

example (t : Triangle) : Ends (syr (x.view : VecV F53) B t) (heap F53) fun _ h' => ∃ r,
    B.BecomesOn (heap F53) h' t.region r ∧ ∀ i j, i < 3 → j < 3 → t.region i j →
      ‖(r i j).val - ((mvals F53 B i j).val + (vals F53 x i).val * (vals F53 x j).val)‖ ≤
        ((1 + (2 : ℝ)⁻¹ ^ 53) ^ 2 - 1) * (‖(mvals F53 B i j).val‖ + ‖(vals F53 x i).val‖ * ‖(vals F53 x j).val‖) :=
  C47_syr _ _ R53 _ _ _ _ _ _ (holdsV bx) (mholds bB) rfl le_rfl (by view_facts) (by view_facts)

/-- **C47** `symmetric_matrix_rank_1_update(alpha, x, A, t)` -/
theorem C47_syr_alpha (val : F → K) (u : ℝ) (R : Rounded val u) (alpha : F) (x : VecV F) (A : Mat) (t : Triangle) (h : Heap F)
    (f : Nat → F) (a : Nat → Nat → F) (hx : x.Holds h f) (hA : A.HoldsOn h t.region a)
    (hsq : A.rows = A.cols) (hxe : A.rows ≤ x.ext) (hu : A.UniqueOn t.region)
    (hxA : Apart x.toVec.Cell (A.CellOn t.region)) :
    Ends (syrAlpha alpha x A t) h fun _ h' => ∃ r, A.BecomesOn h h' t.region r ∧
      ∀ i j, i < A.rows → j < A.cols → t.region i j →
      ‖val (r i j) - (val (a i j) + val alpha * val (f i) * val (f j))‖ ≤
        ((1 + u) ^ (3) - 1) * (‖val (a i j)‖ + ‖val alpha‖ * ‖val (f i)‖ * ‖val (f j)‖) := by
  refine (C26_syrAlpha alpha x A t h f a hx hA hsq hxe hu hxA).mono fun _ h' hb => ⟨_, hb, fun i j hi hj hr => ?_⟩
  exact (R.close_add (Close.refl 2 R.nonneg) (R.close_mul_right (R.close_mul _ _))).2

example (t : Triangle) : Ends (syrAlpha ⟨5⟩ (x.view : VecV F53) B t) (heap F53) fun _ h' => ∃ r,
    B.BecomesOn (heap F53) h' t.region r ∧ ∀ i j, i < 3 → j < 3 → t.region i j →
      ‖(r i j).val - ((mvals F53 B i j).val + 5 * (vals F53 x i).val * (vals F53 x j).val)‖ ≤
        ((1 + (2 : ℝ)⁻¹ ^ 53) ^ 3 - 1) *
          (‖(mvals F53 B i j).val‖ + ‖(5 : ℝ)‖ * ‖(vals F53 x i).val‖ * ‖(vals F53 x j).val‖) :=
  C47_syr_alpha _ _ R53 _ _ _ _ _ _ _ (holdsV bx) (mholds bB) rfl le_rfl (by view_facts)
    (by view_facts)

/-- **C47** `hermitian_matrix_rank_1_update(x, A, t)` -/
theorem C47_her [ConjOps F] (val : F → K) (u : ℝ) (R : Rounded val u) (x : VecV F) (A : Mat) (t : Triangle) (h : Heap F)
    (f : Nat → F) (a : Nat → Nat → F) (hx : x.Holds h f) (hA : A.HoldsOn h t.region a)
    (hsq : A.rows = A.cols) (hxe : A.rows ≤ x.ext) (hu : A.UniqueOn t.region)
    (hxA : Apart x.toVec.Cell (A.CellOn t.region)) :
    Ends (her x A t) h fun _ h' => ∃ r, A.BecomesOn h h' t.region r ∧
      ∀ i j, i < A.rows → j < A.cols → t.region i j →
      ‖val (r i j) - (val (if i = j then ConjOps.re (a i i) else a i j) + val (f i) * val (ConjOps.conj (f j)))‖ ≤
        ((1 + u) ^ (2) - 1) * (‖val (if i = j then ConjOps.re (a i i) else a i j)‖ + ‖val (f i)‖ * ‖val (ConjOps.conj (f j))‖) := by
  refine (C26_her x A t h f a hx hA hsq hxe hu hxA).mono fun _ h' hb => ⟨_, hb, fun i j hi hj hr => ?_⟩
  exact (R.close_add (Close.refl 1 R.nonneg) (R.close_mul _ _)).2

example (t : Triangle) : Ends (her (x.view : VecV F53) B t) (heap F53) fun _ h' => ∃ r,
    B.BecomesOn (heap F53) h' t.region r ∧ ∀ i j, i < 3 → j < 3 → t.region i j →
      ‖(r i j).val - ((if i = j then ConjOps.re (mvals F53 B i i) else mvals F53 B i j).val + (vals F53 x i).val * (vals F53 x j).val)‖ ≤
        ((1 + (2 : ℝ)⁻¹ ^ 53) ^ 2 - 1) * (‖(if i = j then ConjOps.re (mvals F53 B i i) else mvals F53 B i j).val‖ + ‖(vals F53 x i).val‖ * ‖(vals F53 x j).val‖) :=
  C47_her _ _ R53 _ _ _ _ _ _ (holdsV bx) (mholds bB) rfl le_rfl (by view_facts) (by view_facts)

/-- **C47** `hermitian_matrix_rank_1_update(alpha, x, A, t)` -/
theorem C47_her_alpha [ConjOps F] (val : F → K) (u : ℝ) (R : Rounded val u) (alpha : F) (x : VecV F) (A : Mat) (t : Triangle) (h : Heap F)
    (f : Nat → F) (a : Nat → Nat → F) (hx : x.Holds h f) (hA : A.HoldsOn h t.region a)
    (hsq : A.rows = A.cols) (hxe : A.rows ≤ x.ext) (hu : A.UniqueOn t.region)
    (hxA : Apart x.toVec.Cell (A.CellOn t.region)) :
    Ends (herAlpha alpha x A t) h fun _ h' => ∃ r, A.BecomesOn h h' t.region r ∧
      ∀ i j, i < A.rows → j < A.cols → t.region i j →
      ‖val (r i j) - (val (if i = j then ConjOps.re (a i i) else a i j) + val alpha * val (f i) * val (ConjOps.conj (f j)))‖ ≤
        ((1 + u) ^ (3) - 1) * (‖val (if i = j then ConjOps.re (a i i) else a i j)‖ + ‖val alpha‖ * ‖val (f i)‖ * ‖val (ConjOps.conj (f j))‖) := by
  refine (C26_herAlpha alpha x A t h f a hx hA hsq hxe hu hxA).mono fun _ h' hb => ⟨_, hb, fun i j hi hj hr => ?_⟩
  exact (R.close_add (Close.refl 2 R.nonneg) (R.close_mul_right (R.close_mul _ _))).2

example (t : Triangle) : Ends (herAlpha ⟨5⟩ (x.view : VecV F53) B t) (heap F53) fun _ h' => ∃ r,
    B.BecomesOn (heap F53) h' t.region r ∧ ∀ i j, i < 3 → j < 3 → t.region i j →
      ‖(r i j).val - ((if i = j then ConjOps.re (mvals F53 B i i) else mvals F53 B i j).val + 5 * (vals F53 x i).val * (vals F53 x j).val)‖ ≤
        ((1 + (2 : ℝ)⁻¹ ^ 53) ^ 3 - 1) *
          (‖(if i = j then ConjOps.re (mvals F53 B i i) else mvals F53 B i j).val‖ + ‖(5 : ℝ)‖ * ‖(vals F53 x i).val‖ * ‖(vals F53 x j).val‖) :=
  C47_her_alpha _ _ R53 _ _ _ _ _ _ _ (holdsV bx) (mholds bB) rfl le_rfl (by view_facts)
    (by view_facts)

/-- **C47** `symmetric_matrix_rank_2_update(x, y, A, t)` -/
theorem C47_syr2 (val : F → K) (u : ℝ) (R : Rounded val u) (x y : VecV F) (A : Mat) (t : Triangle) (h : Heap F)
    (f g : Nat → F) (a : Nat → Nat → F) (hx : x.Holds h f) (hy : y.Holds h g)
    (hA : A.HoldsOn h t.region a) (hsq : A.rows = A.cols) (hxe : A.rows ≤ x.ext)
    (hye : A.rows ≤ y.ext) (hu : A.UniqueOn t.region)
    (hxA : Apart x.toVec.Cell (A.CellOn t.region))
    (hyA : Apart y.toVec.Cell (A.CellOn t.region)) :
    Ends (syr2 x y A t) h fun _ h' => ∃ r, A.BecomesOn h h' t.region r ∧
      ∀ i j, i < A.rows → j < A.cols → t.region i j →
      ‖val (r i j) - (val (a i j) + (val (f i) * val (g j) + val (g i) * val (f j)))‖ ≤
        ((1 + u) ^ (3) - 1) * (‖val (a i j)‖ + (‖val (f i)‖ * ‖val (g j)‖ + ‖val (g i)‖ * ‖val (f j)‖)) := by
  refine (C27_syr2 x y A t h f g a hx hy hA hsq hxe hye hu hxA hyA).mono fun _ h' hb => ⟨_, hb, fun i j hi hj hr => ?_⟩
  exact (R.close_add (Close.refl 2 R.nonneg) (R.close_add (R.close_mul _ _) (R.close_mul _ _))).2

example (t : Triangle) : Ends (syr2 (x.view : VecV F53) y.view B t) (heap F53) fun _ h' => ∃ r,
    B.BecomesOn (heap F53) h' t.region r ∧ ∀ i j, i < 3 → j < 3 → t.region i j →
      ‖(r i j).val - ((mvals F53 B i j).val + ((vals F53 x i).val * (vals F53 y j).val +
          (vals F53 y i).val * (vals F53 x j).val))‖ ≤
        ((1 + (2 : ℝ)⁻¹ ^ 53) ^ 3 - 1) *
          (‖(mvals F53 B i j).val‖ + (‖(vals F53 x i).val‖ * ‖(vals F53 y j).val‖ +
            ‖(vals F53 y i).val‖ * ‖(vals F53 x j).val‖)) :=
  C47_syr2 _ _ R53 _ _ _ _ _ _ _ _ (holdsV bx) (holdsV by_) (mholds bB) rfl le_rfl le_rfl
    (by view_facts) (by view_facts) (by view_facts)

/-- **C47** `hermitian_matrix_rank_2_update(x, y, A, t)` -/
theorem C47_her2 [ConjOps F] (val : F → K) (u : ℝ) (R : Rounded val u) (x y : VecV F) (A : Mat) (t : Triangle) (h : Heap F)
    (f g : Nat → F) (a : Nat → Nat → F) (hx : x.Holds h f) (hy : y.Holds h g)
    (hA : A.HoldsOn h t.region a) (hsq : A.rows = A.cols) (hxe : A.rows ≤ x.ext)
    (hye : A.rows ≤ y.ext) (hu : A.UniqueOn t.region)
    (hxA : Apart x.toVec.Cell (A.CellOn t.region))
    (hyA : Apart y.toVec.Cell (A.CellOn t.region)) :
    Ends (her2 x y A t) h fun _ h' => ∃ r, A.BecomesOn h h' t.region r ∧
      ∀ i j, i < A.rows → j < A.cols → t.region i j →
      ‖val (r i j) - (val (if i = j then ConjOps.re (a i i) else a i j) + (val (f i) * val (ConjOps.conj (g j)) + val (g i) * val (ConjOps.conj (f j))))‖ ≤
        ((1 + u) ^ (3) - 1) * (‖val (if i = j then ConjOps.re (a i i) else a i j)‖ + (‖val (f i)‖ * ‖val (ConjOps.conj (g j))‖ + ‖val (g i)‖ * ‖val (ConjOps.conj (f j))‖)) := by
  refine (C27_her2 x y A t h f g a hx hy hA hsq hxe hye hu hxA hyA).mono fun _ h' hb => ⟨_, hb, fun i j hi hj hr => ?_⟩
  exact (R.close_add (Close.refl 2 R.nonneg) (R.close_add (R.close_mul _ _) (R.close_mul _ _))).2

example (t : Triangle) : Ends (her2 (x.view : VecV F53) y.view B t) (heap F53) fun _ h' => ∃ r,
    B.BecomesOn (heap F53) h' t.region r ∧ ∀ i j, i < 3 → j < 3 → t.region i j →
      ‖(r i j).val - ((if i = j then ConjOps.re (mvals F53 B i i) else mvals F53 B i j).val + ((vals F53 x i).val * (vals F53 y j).val +
          (vals F53 y i).val * (vals F53 x j).val))‖ ≤
        ((1 + (2 : ℝ)⁻¹ ^ 53) ^ 3 - 1) *
          (‖(if i = j then ConjOps.re (mvals F53 B i i) else mvals F53 B i j).val‖ + (‖(vals F53 x i).val‖ * ‖(vals F53 y j).val‖ +
            ‖(vals F53 y i).val‖ * ‖(vals F53 x j).val‖)) :=
  C47_her2 _ _ R53 _ _ _ _ _ _ _ _ (holdsV bx) (holdsV by_) (mholds bB) rfl le_rfl le_rfl
    (by view_facts) (by view_facts) (by view_facts)

/-- **C47** `symmetric_matrix_rank_k_update(alpha, A, C, t)` -/
theorem C47_syrk_alpha (val : F → K) (u : ℝ) (R : Rounded val u) (alpha : F) (A : MatV F) (C : Mat) (t : Triangle)
    (h : Heap F) (a c : Nat → Nat → F) (hA : A.Holds h a) (hC : C.HoldsOn h t.region c)
    (hsq : C.rows = C.cols) (hAe : C.rows ≤ A.rows) (hu : C.UniqueOn t.region)
    (hAC : Apart A.toMat.Cell (C.CellOn t.region)) :
    Ends (syrkAlpha alpha A C t) h fun _ h' => ∃ r, C.BecomesOn h h' t.region r ∧
      ∀ i j, i < C.rows → j < C.cols → t.region i j →
      ‖val (r i j) - (val (c i j) + ∑ k ∈ range A.cols, val alpha * val (a i k) * val (a j k))‖ ≤
        ((1 + u) ^ (2 + A.cols) - 1) * (‖val (c i j)‖ + ∑ k ∈ range A.cols, ‖val alpha‖ * ‖val (a i k)‖ * ‖val (a j k)‖) := by
  refine (C54_syrk_alpha alpha A C t h a c hA hC hsq hAe hu hAC).mono fun _ h' hb => ⟨_, hb, fun i j hi hj hr => ?_⟩
  exact (R.close_leftSum (Close.refl 2 R.nonneg) fun k _ => R.close_mul_right (R.close_mul _ _)).2

example (t : Triangle) : Ends (syrkAlpha ⟨5⟩ (T.view : MatV F53) C t) (heap F53) fun _ h' =>
    ∃ r, C.BecomesOn (heap F53) h' t.region r ∧ ∀ i j, i < 3 → j < 3 → t.region i j →
      ‖(r i j).val - ((mvals F53 C i j).val +
          ∑ k ∈ range 2, 5 * (mvals F53 T i k).val * (mvals F53 T j k).val)‖ ≤
        ((1 + (2 : ℝ)⁻¹ ^ 53) ^ (2 + 2) - 1) * (‖(mvals F53 C i j).val‖ +
          ∑ k ∈ range 2, ‖(5 : ℝ)‖ * ‖(mvals F53 T i k).val‖ * ‖(mvals F53 T j k).val‖) :=
  C47_syrk_alpha _ _ R53 _ _ _ _ _ _ _ (mholdsV bT) (mholds bC) rfl le_rfl (by view_facts)
    (by view_facts)

/-- **C47** `hermitian_matrix_rank_k_update(A, C, t)` -/
theorem C47_herk [ConjOps F] (val : F → K) (u : ℝ) (R : Rounded val u) (A : MatV F) (C : Mat) (t : Triangle)
    (h : Heap F) (a c : Nat → Nat → F) (hA : A.Holds h a) (hC : C.HoldsOn h t.region c)
    (hsq : C.rows = C.cols) (hAe : C.rows ≤ A.rows) (hu : C.UniqueOn t.region)
    (hAC : Apart A.toMat.Cell (C.CellOn t.region)) :
    Ends (herk A C t) h fun _ h' => ∃ r, C.BecomesOn h h' t.region r ∧
      ∀ i j, i < C.rows → j < C.cols → t.region i j →
      ‖val (r i j) - (val (if i = j then ConjOps.re (c i i) else c i j) + ∑ k ∈ range A.cols, val (a i k) * val (ConjOps.conj (a j k)))‖ ≤
        ((1 + u) ^ (1 + A.cols) - 1) * (‖val (if i = j then ConjOps.re (c i i) else c i j)‖ + ∑ k ∈ range A.cols, ‖val (a i k)‖ * ‖val (ConjOps.conj (a j k))‖) := by
  refine (C54_herk A C t h a c hA hC hsq hAe hu hAC).mono fun _ h' hb => ⟨_, hb, fun i j hi hj hr => ?_⟩
  exact (R.close_leftSum (Close.refl 1 R.nonneg) fun k _ => R.close_mul _ _).2

example (t : Triangle) : Ends (herk (T.view : MatV F53) C t) (heap F53) fun _ h' =>
    ∃ r, C.BecomesOn (heap F53) h' t.region r ∧ ∀ i j, i < 3 → j < 3 → t.region i j →
      ‖(r i j).val - ((if i = j then ConjOps.re (mvals F53 C i i) else mvals F53 C i j).val +
          ∑ k ∈ range 2, (mvals F53 T i k).val * (mvals F53 T j k).val)‖ ≤
        ((1 + (2 : ℝ)⁻¹ ^ 53) ^ (1 + 2) - 1) * (‖(if i = j then ConjOps.re (mvals F53 C i i) else mvals F53 C i j).val‖ +
          ∑ k ∈ range 2, ‖(mvals F53 T i k).val‖ * ‖(mvals F53 T j k).val‖) :=
  C47_herk _ _ R53 _ _ _ _ _ _ (mholdsV bT) (mholds bC) rfl le_rfl (by view_facts)
    (by view_facts)

/-- **C47** `hermitian_matrix_rank_k_update(alpha, A, C, t)` -/
theorem C47_herk_alpha [ConjOps F] (val : F → K) (u : ℝ) (R : Rounded val u) (alpha : F) (A : MatV F) (C : Mat) (t : Triangle)
    (h : Heap F) (a c : Nat → Nat → F) (hA : A.Holds h a) (hC : C.HoldsOn h t.region c)
    (hsq : C.rows = C.cols) (hAe : C.rows ≤ A.rows) (hu : C.UniqueOn t.region)
    (hAC : Apart A.toMat.Cell (C.CellOn t.region)) :
    Ends (herkAlpha alpha A C t) h fun _ h' => ∃ r, C.BecomesOn h h' t.region r ∧
      ∀ i j, i < C.rows → j < C.cols → t.region i j →
      ‖val (r i j) - (val (if i = j then ConjOps.re (c i i) else c i j) + ∑ k ∈ range A.cols, val alpha * val (a i k) * val (ConjOps.conj (a j k)))‖ ≤
        ((1 + u) ^ (2 + A.cols) - 1) * (‖val (if i = j then ConjOps.re (c i i) else c i j)‖ + ∑ k ∈ range A.cols, ‖val alpha‖ * ‖val (a i k)‖ * ‖val (ConjOps.conj (a j k))‖) := by
  refine (C54_herk_alpha alpha A C t h a c hA hC hsq hAe hu hAC).mono fun _ h' hb => ⟨_, hb, fun i j hi hj hr => ?_⟩
  exact (R.close_leftSum (Close.refl 2 R.nonneg) fun k _ => R.close_mul_right (R.close_mul _ _)).2

example (t : Triangle) : Ends (herkAlpha ⟨5⟩ (T.view : MatV F53) C t) (heap F53) fun _ h' =>
    ∃ r, C.BecomesOn (heap F53) h' t.region r ∧ ∀ i j, i < 3 → j < 3 → t.region i j →
      ‖(r i j).val - ((if i = j then ConjOps.re (mvals F53 C i i) else mvals F53 C i j).val +
          ∑ k ∈ range 2, 5 * (mvals F53 T i k).val * (mvals F53 T j k).val)‖ ≤
        ((1 + (2 : ℝ)⁻¹ ^ 53) ^ (2 + 2) - 1) * (‖(if i = j then ConjOps.re (mvals F53 C i i) else mvals F53 C i j).val‖ +
          ∑ k ∈ range 2, ‖(5 : ℝ)‖ * ‖(mvals F53 T i k).val‖ * ‖(mvals F53 T j k).val‖) :=
  C47_herk_alpha _ _ R53 _ _ _ _ _ _ _ (mholdsV bT) (mholds bC) rfl le_rfl (by view_facts)
    (by view_facts)

/-- **C47** `symmetric_matrix_rank_2k_update(A, B, C, t)` -/
theorem C47_syr2k (val : F → K) (u : ℝ) (R : Rounded val u) (A B : MatV F) (C : Mat) (t : Triangle)
    (h : Heap F) (a b c : Nat → Nat → F) (hA : A.Holds h a) (hB : B.Holds h b)
    (hC : C.HoldsOn h t.region c) (hsq : C.rows = C.cols) (hAe : C.rows ≤ A.rows)
    (hBe : C.rows ≤ B.rows) (hAB : A.cols ≤ B.cols) (hu : C.UniqueOn t.region)
    (hAC : Apart A.toMat.Cell (C.CellOn t.region)) (hBC : Apart B.toMat.Cell (C.CellOn t.region)) :
    Ends (syr2k A B C t) h fun _ h' => ∃ r, C.BecomesOn h h' t.region r ∧
      ∀ i j, i < C.rows → j < C.cols → t.region i j →
      ‖val (r i j) - (val (c i j) + ∑ k ∈ range A.cols,
          (val (a i k) * val (b j k) + val (b i k) * val (a j k)))‖ ≤
        ((1 + u) ^ (2 + A.cols) - 1) * (‖val (c i j)‖ + ∑ k ∈ range A.cols,
          (‖val (a i k)‖ * ‖val (b j k)‖ + ‖val (b i k)‖ * ‖val (a j k)‖)) := by
  refine (C54_syr2k A B C t h a b c hA hB hC hsq hAe hBe hAB hu hAC hBC).mono fun _ h' hb => ⟨_, hb, fun i j hi hj hr => ?_⟩
  exact (R.close_leftSum (Close.refl 2 R.nonneg) fun k _ =>
    R.close_add (R.close_mul _ _) (R.close_mul _ _)).2

example (t : Triangle) : Ends (syr2k (T.view : MatV F53) A.view C t) (heap F53) fun _ h' =>
    ∃ r, C.BecomesOn (heap F53) h' t.region r ∧ ∀ i j, i < 3 → j < 3 → t.region i j →
      ‖(r i j).val - ((mvals F53 C i j).val + ∑ k ∈ range 2, ((mvals F53 T i k).val * (mvals F53 A j k).val +
          (mvals F53 A i k).val * (mvals F53 T j k).val))‖ ≤
        ((1 + (2 : ℝ)⁻¹ ^ 53) ^ (2 + 2) - 1) * (‖(mvals F53 C i j).val‖ +
          ∑ k ∈ range 2, (‖(mvals F53 T i k).val‖ * ‖(mvals F53 A j k).val‖ +
            ‖(mvals F53 A i k).val‖ * ‖(mvals F53 T j k).val‖)) :=
  C47_syr2k _ _ R53 _ _ _ _ _ _ _ _ (mholdsV bT) (mholdsV bA) (mholds bC) rfl le_rfl le_rfl (by decide)
    (by view_facts) (by view_facts) (by view_facts)

/-- **C47** `hermitian_matrix_rank_2k_update(A, B, C, t)` -/
theorem C47_her2k [ConjOps F] (val : F → K) (u : ℝ) (R : Rounded val u) (A B : MatV F) (C : Mat) (t : Triangle)
    (h : Heap F) (a b c : Nat → Nat → F) (hA : A.Holds h a) (hB : B.Holds h b)
    (hC : C.HoldsOn h t.region c) (hsq : C.rows = C.cols) (hAe : C.rows ≤ A.rows)
    (hBe : C.rows ≤ B.rows) (hAB : A.cols ≤ B.cols) (hu : C.UniqueOn t.region)
    (hAC : Apart A.toMat.Cell (C.CellOn t.region)) (hBC : Apart B.toMat.Cell (C.CellOn t.region)) :
    Ends (her2k A B C t) h fun _ h' => ∃ r, C.BecomesOn h h' t.region r ∧
      ∀ i j, i < C.rows → j < C.cols → t.region i j →
      ‖val (r i j) - (val (if i = j then ConjOps.re (c i i) else c i j) + ∑ k ∈ range A.cols,
          (val (a i k) * val (ConjOps.conj (b j k)) + val (b i k) * val (ConjOps.conj (a j k))))‖ ≤
        ((1 + u) ^ (2 + A.cols) - 1) * (‖val (if i = j then ConjOps.re (c i i) else c i j)‖ + ∑ k ∈ range A.cols,
          (‖val (a i k)‖ * ‖val (ConjOps.conj (b j k))‖ + ‖val (b i k)‖ * ‖val (ConjOps.conj (a j k))‖)) := by
  refine (C54_her2k A B C t h a b c hA hB hC hsq hAe hBe hAB hu hAC hBC).mono fun _ h' hb => ⟨_, hb, fun i j hi hj hr => ?_⟩
  exact (R.close_leftSum (Close.refl 2 R.nonneg) fun k _ =>
    R.close_add (R.close_mul _ _) (R.close_mul _ _)).2

example (t : Triangle) : Ends (her2k (T.view : MatV F53) A.view C t) (heap F53) fun _ h' =>
    ∃ r, C.BecomesOn (heap F53) h' t.region r ∧ ∀ i j, i < 3 → j < 3 → t.region i j →
      ‖(r i j).val - ((if i = j then ConjOps.re (mvals F53 C i i) else mvals F53 C i j).val + ∑ k ∈ range 2, ((mvals F53 T i k).val * (mvals F53 A j k).val +
          (mvals F53 A i k).val * (mvals F53 T j k).val))‖ ≤
        ((1 + (2 : ℝ)⁻¹ ^ 53) ^ (2 + 2) - 1) * (‖(if i = j then ConjOps.re (mvals F53 C i i) else mvals F53 C i j).val‖ +
          ∑ k ∈ range 2, (‖(mvals F53 T i k).val‖ * ‖(mvals F53 A j k).val‖ +
            ‖(mvals F53 A i k).val‖ * ‖(mvals F53 T j k).val‖)) :=
  C47_her2k _ _ R53 _ _ _ _ _ _ _ _ (mholdsV bT) (mholdsV bA) (mholds bC) rfl le_rfl le_rfl (by decide)
    (by view_facts) (by view_facts) (by view_facts)

end StdBLAS

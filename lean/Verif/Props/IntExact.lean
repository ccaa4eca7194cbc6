import Verif.Props.IntElements
import Verif.Props.MixedReductions

/-!
# Property C69: integer elements of all types: exact results, solves, and what goes wrong

Any mixture of the eight integer types.  If no number of the computation is too large for the type
it is computed in (the conditions name these types), the results are the exact ones.  The types must
all be signed, or all numbers nonnegative: C++ turns a negative number into a large one when it meets
an unsigned type.
-/

namespace StdBLAS
open Witness Finset CInt CTy

/-- The memory of the examples holds `int16_t` values. -/
local instance : IntCast CInt := ⟨ofInt .i16⟩

/-- The integers that the elements of a vector of `heap` represent. -/
private def ivals (v : Vec) (i : ℕ) : ℤ := (v.addr i : ℤ) - 7
/-- The integers that the elements of a matrix of `heap` represent. -/
private def imvals (m : Mat) (i j : ℕ) : ℤ := (m.addr i j : ℤ) - 7

/-- Evaluates the size conditions of the examples. -/
local macro "sizes" : tactic => `(tactic| (
  first
  | decide +kernel
  | (intro i hi; revert i; decide +kernel)
  | (intro i j hi hj; revert i j; decide +kernel)))

/-! ## Element by element -/

/-- **C69** `copy(x, y)` to elements with at most as many bits keeps the value modulo `2 ^ bits`. -/
theorem C69_copy_vector (s : CTy) (x : VecV CInt) (y : TVec CTy) (h : Heap CInt) (f : ℕ → ℤ)
    (hx : x.Holds h fun i => ofInt s (f i)) (hy : y.Alloc h) (hext : y.ext ≤ x.ext) (hu : y.Unique)
    (hxy : x.toVec.Aligned y.toVec) (hb : y.elt.bits ≤ s.bits) :
    Ends (Mixed.copy1 x y) h fun _ h' => y.Becomes h h' fun i => ofInt y.elt (f i) :=
  (C57_copy_vector x y h _ hx hy hext hu hxy).mono fun _ _ hr => Vec.Becomes.congr hr fun _ _ =>
    ofInt_congr ((s.wrap_modEq _).of_dvd (pow_dvd_pow 2 hb))

example : Ends (Mixed.copy1 (x.view : VecV CInt) ⟨y, .u8⟩) (heap CInt) fun _ h' =>
    y.Becomes (heap CInt) h' fun i => ofInt .u8 (ivals x i) :=
  C69_copy_vector .i16 _ _ _ _ (holdsV bx) (alloc by_) le_rfl (by view_facts) (by view_facts)
    (by decide)

/-- **C69** `copy(x, y)` keeps every value that both types have. -/
theorem C69_copy_vector_exact (s : CTy) (x : VecV CInt) (y : TVec CTy) (h : Heap CInt) (f : ℕ → ℤ)
    (hx : x.Holds h fun i => ofInt s (f i)) (hy : y.Alloc h) (hext : y.ext ≤ x.ext) (hu : y.Unique)
    (hxy : x.toVec.Aligned y.toVec) (hs : ∀ i, i < y.ext → s.Fits (f i))
    (ht : ∀ i, i < y.ext → y.elt.Fits (f i)) :
    Ends (Mixed.copy1 x y) h fun _ h' => ∃ r, y.Becomes h h' r ∧
      ∀ i, i < y.ext → (r i).val = some (f i) :=
  (C57_copy_vector x y h _ hx hy hext hu hxy).mono fun _ _ hr => ⟨_, hr, fun i hi => by
    rw [conv_exact (hs i hi)]
    exact congrArg some (wrap_of_fits (ht i hi))⟩

example : Ends (Mixed.copy1 (x.view : VecV CInt) ⟨y, .i8⟩) (heap CInt) fun _ h' =>
    ∃ r, y.Becomes (heap CInt) h' r ∧ ∀ i, i < 3 → (r i).val = some (ivals x i) :=
  C69_copy_vector_exact .i16 _ _ _ _ (holdsV bx) (alloc by_) le_rfl (by view_facts) (by view_facts)
    (by sizes) (by sizes)

/-- **C69** `add(x, y, z)` is exact if the sums fit into the type they are computed in and into that
of `z`. -/
theorem C69_add_vector_exact (s t : CTy) (x y : VecV CInt) (z : TVec CTy) (h : Heap CInt)
    (f g : ℕ → ℤ) (hx : x.Holds h fun i => ofInt s (f i)) (hy : y.Holds h fun i => ofInt t (g i))
    (hz : z.Alloc h) (hex : z.ext ≤ x.ext) (hey : z.ext ≤ y.ext) (hu : z.Unique)
    (hax : x.toVec.Aligned z.toVec) (hay : y.toVec.Aligned z.toVec)
    (hsign : (s.signed ∧ t.signed) ∨ ∀ i, i < z.ext → 0 ≤ f i ∧ 0 ≤ g i)
    (hf : ∀ i, i < z.ext → s.Fits (f i)) (hg : ∀ i, i < z.ext → t.Fits (g i))
    (hsum : ∀ i, i < z.ext → (s.common t).Fits (f i + g i))
    (hfit : ∀ i, i < z.ext → z.elt.Fits (f i + g i)) :
    Ends (Mixed.add1 x y z) h fun _ h' => ∃ r, z.Becomes h h' r ∧
      ∀ i, i < z.ext → (r i).val = some (f i + g i) :=
  (C57_add_vector x y z h _ _ hx hy hz hex hey hu hax hay).mono fun _ _ hr =>
    ⟨_, hr, fun i hi => by
      rw [add_exact (hsign.imp id fun q => q i hi) (hf i hi) (hg i hi) (hsum i hi),
        conv_exact (hsum i hi)]
      exact congrArg some (wrap_of_fits (hfit i hi))⟩

example : Ends (Mixed.add1 (x.view : VecV CInt) y.view ⟨z, .i8⟩) (heap CInt) fun _ h' =>
    ∃ r, z.Becomes (heap CInt) h' r ∧ ∀ i, i < 3 → (r i).val = some (ivals x i + ivals y i) :=
  C69_add_vector_exact .i16 .i16 _ _ _ _ _ _ (holdsV bx) (holdsV by_) (alloc bz) le_rfl le_rfl
    (by view_facts) (by view_facts) (by view_facts) (.inl (by decide)) (by sizes) (by sizes)
    (by sizes) (by sizes)

/-- **C69** `scale(alpha, x)` is exact if the products fit into the type they are computed in and into
that of `x`. -/
theorem C69_scale_vector_exact (s : CTy) (alpha : ℤ) (x : TVec CTy) (h : Heap CInt) (f : ℕ → ℤ)
    (hx : x.Holds h fun i => ofInt x.elt (f i)) (hu : x.Unique)
    (hsign : (x.elt.signed ∧ s.signed) ∨ ∀ i, i < x.ext → 0 ≤ f i ∧ 0 ≤ alpha)
    (hf : ∀ i, i < x.ext → x.elt.Fits (f i)) (ha : s.Fits alpha)
    (hp : ∀ i, i < x.ext → |f i * alpha| ≤ (x.elt.common s).max)
    (hfit : ∀ i, i < x.ext → x.elt.Fits (f i * alpha)) :
    Ends (Mixed.scale1 (ofInt s alpha) x) h fun _ h' => ∃ r, x.Becomes h h' r ∧
      ∀ i, i < x.ext → (r i).val = some (f i * alpha) :=
  (C57_scale_vector (ofInt s alpha) x h _ hx hu).mono fun _ _ hr =>
    ⟨_, hr, fun i hi => by
      have pl : Plain x.elt s (f i) alpha := hsign.imp id fun q => q i hi
      rw [mul_exact pl (hf i hi) ha (hp i hi), conv_exact (pl.fits mul_nonneg (hp i hi))]
      exact congrArg some (wrap_of_fits (hfit i hi))⟩

example : Ends (Mixed.scale1 (ofInt .i64 (-100)) ⟨x, .i16⟩) (heap CInt) fun _ h' =>
    ∃ r, x.Becomes (heap CInt) h' r ∧ ∀ i, i < 3 → (r i).val = some (ivals x i * -100) :=
  C69_scale_vector_exact .i64 _ _ _ _ (holds bx) (by view_facts) (.inl (by decide)) (by sizes)
    (by sizes) (by sizes) (by sizes)

/-! ## Sums of products -/

/-- **C69** `dot(v1, v2, init)` is exact if each product fits into the type it is computed in and the
sum of the magnitudes fits into the type of `init`. -/
theorem C69_dot_exact (c₁ c₂ t : CTy) (v1 v2 : VecV CInt) (init : ℤ) (h : Heap CInt) (f g : ℕ → ℤ)
    (h1 : v1.Holds h fun i => ofInt c₁ (f i)) (h2 : v2.Holds h fun i => ofInt c₂ (g i))
    (hext : v1.ext ≤ v2.ext)
    (hsign : (c₁.signed ∧ c₂.signed ∧ t.signed) ∨
      (0 ≤ init ∧ ∀ k, k < v1.ext → 0 ≤ f k ∧ 0 ≤ g k))
    (hf : ∀ k, k < v1.ext → c₁.Fits (f k)) (hg : ∀ k, k < v1.ext → c₂.Fits (g k))
    (hp : ∀ k, k < v1.ext → |f k * g k| ≤ (c₁.common c₂).max)
    (hsum : |init| + ∑ k ∈ range v1.ext, |f k * g k| ≤ t.max) :
    Ends (Mixed.dot v1 v2 (ofInt t init)) h fun r h' =>
      r = ofInt t (init + ∑ k ∈ range v1.ext, f k * g k) ∧
      r.val = some (init + ∑ k ∈ range v1.ext, f k * g k) ∧ h' = h :=
  (C57_dot v1 v2 (ofInt t init) h _ _ h1 h2 hext).mono fun _ _ hb => by
    have e := hb.1.trans (products_exact hsign hf hg hp hsum)
    refine ⟨e, ?_, hb.2⟩
    rw [e]
    refine congrArg some (wrap_of_fits (fits_of_abs (hsign.imp (fun q => q.2.2) fun q => ?_) ?_))
    · exact add_nonneg q.1 (sum_nonneg fun k hk => by
        rw [mem_range] at hk; exact mul_nonneg (q.2 k hk).1 (q.2 k hk).2)
    · exact (abs_add_le ..).trans ((add_le_add le_rfl (abs_sum_le_sum_abs ..)).trans hsum)

example : Ends (Mixed.dot (x.view : VecV CInt) y.view (ofInt .i32 5)) (heap CInt) fun r h' =>
    r = ofInt .i32 (5 + ∑ k ∈ range 3, ivals x k * ivals y k) ∧
    r.val = some (5 + ∑ k ∈ range 3, ivals x k * ivals y k) ∧ h' = heap CInt :=
  C69_dot_exact .i16 .i16 .i32 _ _ _ _ _ _ (holdsV bx) (holdsV by_) le_rfl (.inl (by decide))
    (by sizes) (by sizes) (by sizes) (by sizes)

/-- **C69** `matrix_vector_product(A, x, y)` is exact under the same conditions. -/
theorem C69_gemv_exact (c₁ c₂ : CTy) (A : MatV CInt) (x : VecV CInt) (y : TVec CTy) (h : Heap CInt)
    (a : ℕ → ℕ → ℤ) (f : ℕ → ℤ) (hA : A.Holds h fun i j => ofInt c₁ (a i j))
    (hx : x.Holds h fun i => ofInt c₂ (f i)) (hy : y.Alloc h) (hrows : y.ext = A.rows)
    (hcols : A.cols ≤ x.ext) (hu : y.Unique) (hAy : Apart A.toMat.Cell y.Cell)
    (hxy : Apart x.toVec.Cell y.Cell)
    (hsign : (c₁.signed ∧ c₂.signed ∧ y.elt.signed) ∨
      ∀ i, i < A.rows → ∀ k, k < A.cols → 0 ≤ a i k ∧ 0 ≤ f k)
    (ha : ∀ i, i < A.rows → ∀ k, k < A.cols → c₁.Fits (a i k))
    (hf : ∀ k, k < A.cols → c₂.Fits (f k))
    (hp : ∀ i, i < A.rows → ∀ k, k < A.cols → |a i k * f k| ≤ (c₁.common c₂).max)
    (hsum : ∀ i, i < A.rows → ∑ k ∈ range A.cols, |a i k * f k| ≤ y.elt.max) :
    Ends (Mixed.gemv A x y) h fun _ h' =>
      y.Becomes h h' fun i => ofInt y.elt (mulVec A.cols a f i) :=
  (C57_gemv A x y h _ _ hA hx hy hrows hcols hu hAy hxy).mono fun _ _ hb =>
    Vec.Becomes.congr hb fun i hi => by
      have hi' : i < A.rows := by omega
      refine (products_exact (s := 0) (hsign.imp id fun q => ⟨le_rfl, q i hi'⟩) (ha i hi') hf (hp i hi')
        (by rw [abs_zero, zero_add]; exact hsum i hi')).trans ?_
      rw [zero_add]; rfl

example : Ends (Mixed.gemv (A.view : MatV CInt) x.view ⟨y, .i64⟩) (heap CInt) fun _ h' =>
    y.Becomes (heap CInt) h' fun i => ofInt .i64 (mulVec A.cols (imvals A) (ivals x) i) :=
  C69_gemv_exact .i16 .i16 _ _ _ _ _ _ (mholdsV bA) (holdsV bx) (alloc by_) rfl le_rfl
    (by view_facts) (by view_facts) (by view_facts) (.inl (by decide)) (by sizes) (by sizes)
    (by sizes) (by sizes)

/-- **C69** `matrix_vector_product(A, x, y, z)` is exact under the same conditions. -/
theorem C69_gemv_update_exact (c₁ c₂ c₃ : CTy) (A : MatV CInt) (x y : VecV CInt) (z : TVec CTy)
    (h : Heap CInt) (a : ℕ → ℕ → ℤ) (f g : ℕ → ℤ) (hA : A.Holds h fun i j => ofInt c₁ (a i j))
    (hx : x.Holds h fun i => ofInt c₂ (f i)) (hy : y.Holds h fun i => ofInt c₃ (g i))
    (hz : z.Alloc h) (hrows : z.ext = A.rows) (hcols : A.cols ≤ x.ext) (hye : A.rows ≤ y.ext)
    (hu : z.Unique) (hAz : Apart A.toMat.Cell z.Cell) (hxz : Apart x.toVec.Cell z.Cell)
    (hyz : y.toVec.Aligned z.toVec)
    (hsign : (c₁.signed ∧ c₂.signed ∧ z.elt.signed) ∨
      ∀ i, i < A.rows → 0 ≤ g i ∧ ∀ k, k < A.cols → 0 ≤ a i k ∧ 0 ≤ f k)
    (ha : ∀ i, i < A.rows → ∀ k, k < A.cols → c₁.Fits (a i k))
    (hf : ∀ k, k < A.cols → c₂.Fits (f k)) (hg : ∀ i, i < A.rows → c₃.Fits (g i))
    (hp : ∀ i, i < A.rows → ∀ k, k < A.cols → |a i k * f k| ≤ (c₁.common c₂).max)
    (hsum : ∀ i, i < A.rows → |g i| + ∑ k ∈ range A.cols, |a i k * f k| ≤ z.elt.max) :
    Ends (Mixed.gemvUpdate A x y z) h fun _ h' =>
      z.Becomes h h' fun i => ofInt z.elt (g i + mulVec A.cols a f i) :=
  (C57_gemv_update A x y z h _ _ _ hA hx hy hz hrows hcols hye hu hAz hxz hyz).mono fun _ _ hb =>
    Vec.Becomes.congr hb fun i hi => by
      have hi' : i < A.rows := by omega
      rw [conv_exact (hg i hi')]
      exact products_exact (hsign.imp id fun q => q i hi') (ha i hi') hf (hp i hi') (hsum i hi')

example : Ends (Mixed.gemvUpdate (A.view : MatV CInt) x.view y.view ⟨z, .i32⟩) (heap CInt)
    fun _ h' => z.Becomes (heap CInt) h' fun i =>
      ofInt .i32 (ivals y i + mulVec A.cols (imvals A) (ivals x) i) :=
  C69_gemv_update_exact .i16 .i16 .i16 _ _ _ _ _ _ _ _ (mholdsV bA) (holdsV bx) (holdsV by_)
    (alloc bz) rfl le_rfl le_rfl (by view_facts) (by view_facts) (by view_facts) (by view_facts)
    (.inl (by decide)) (by sizes) (by sizes) (by sizes) (by sizes) (by sizes)

/-- **C69** `symmetric_matrix_vector_product(A, t, x, y)` is exact under the same conditions. -/
theorem C69_symv_exact (c₁ c₂ : CTy) (A : MatV CInt) (t : Triangle) (x : VecV CInt) (y : TVec CTy)
    (h : Heap CInt) (a : ℕ → ℕ → ℤ) (f : ℕ → ℤ)
    (hA : A.HoldsOn h t.region fun i j => ofInt c₁ (a i j))
    (hx : x.Holds h fun i => ofInt c₂ (f i)) (hy : y.Alloc h) (hsq : A.rows = A.cols)
    (hext : A.rows = y.ext) (hxe : A.cols ≤ x.ext) (hu : y.Unique)
    (hAy : Apart (A.toMat.CellOn t.region) y.Cell) (hxy : Apart x.toVec.Cell y.Cell)
    (hsign : (c₁.signed ∧ c₂.signed ∧ y.elt.signed) ∨
      ∀ i, i < A.rows → ∀ k, k < A.cols → 0 ≤ symOf t a i k ∧ 0 ≤ f k)
    (ha : ∀ i, i < A.rows → ∀ k, k < A.cols → c₁.Fits (symOf t a i k))
    (hf : ∀ k, k < A.cols → c₂.Fits (f k))
    (hp : ∀ i, i < A.rows → ∀ k, k < A.cols → |symOf t a i k * f k| ≤ (c₁.common c₂).max)
    (hsum : ∀ i, i < A.rows → ∑ k ∈ range A.cols, |symOf t a i k * f k| ≤ y.elt.max) :
    Ends (Mixed.symv A t x y) h fun _ h' =>
      y.Becomes h h' fun i => ofInt y.elt (mulVec A.cols (symOf t a) f i) :=
  (C57_symv A t x y h _ _ hA hx hy hsq hext hxe hu hAy hxy).mono fun _ _ hb =>
    Vec.Becomes.congr hb fun i hi => by
      have hi' : i < A.rows := by omega
      simp only [symOf_ofInt]
      refine (products_exact (s := 0) (hsign.imp id fun q => ⟨le_rfl, q i hi'⟩) (ha i hi') hf (hp i hi')
        (by rw [abs_zero, zero_add]; exact hsum i hi')).trans ?_
      rw [zero_add]; rfl

example (t : Triangle) : Ends (Mixed.symv (A.view : MatV CInt) t x.view ⟨y, .i32⟩) (heap CInt)
    fun _ h' => y.Becomes (heap CInt) h' fun i =>
      ofInt .i32 (mulVec A.cols (symOf t (imvals A)) (ivals x) i) := by
  refine C69_symv_exact .i16 .i16 _ t _ ⟨y, .i32⟩ _ _ _ (mholdsV bA) (holdsV bx) (alloc by_) rfl rfl
    le_rfl (by view_facts) (by view_facts) (by view_facts) (.inl (by decide)) ?_ (by sizes) ?_ ?_
  · intro i hi k hk
    have hi : i < 3 := hi
    have hk : k < 3 := hk
    cases t <;> interval_cases i <;> interval_cases k <;>
      simp [symOf, Triangle.region, imvals, A, CTy.Fits, CTy.min, CTy.max, CTy.bits, CTy.signed]
  · intro i hi k hk
    have hi : i < 3 := hi
    have hk : k < 3 := hk
    cases t <;> interval_cases i <;> interval_cases k <;>
      simp [symOf, Triangle.region, imvals, ivals, x, A, CTy.max, CTy.bits, CTy.signed, CTy.common]
  · intro i hi
    have hi : i < 3 := hi
    show ∑ k ∈ range 3, _ ≤ _
    cases t <;> interval_cases i <;>
      simp [sum_range_succ, symOf, Triangle.region, imvals, ivals, x, A, CTy.max, CTy.bits,
        CTy.signed]

/-- **C69** `matrix_product(A, B, C)` is exact under the same conditions. -/
theorem C69_gemm_exact (c₁ c₂ : CTy) (A B : MatV CInt) (C : TMat CTy) (h : Heap CInt)
    (a b : ℕ → ℕ → ℤ) (hA : A.Holds h fun i j => ofInt c₁ (a i j))
    (hB : B.Holds h fun i j => ofInt c₂ (b i j)) (hC : C.Alloc h) (hr : C.rows = A.rows)
    (hk : A.cols = B.rows) (hc : C.cols = B.cols) (hu : C.Unique) (hAC : Apart A.toMat.Cell C.Cell)
    (hBC : Apart B.toMat.Cell C.Cell)
    (hsign : (c₁.signed ∧ c₂.signed ∧ C.elt.signed) ∨
      ∀ i, i < A.rows → ∀ j, j < B.cols → ∀ k, k < A.cols → 0 ≤ a i k ∧ 0 ≤ b k j)
    (ha : ∀ i, i < A.rows → ∀ k, k < A.cols → c₁.Fits (a i k))
    (hb : ∀ k, k < A.cols → ∀ j, j < B.cols → c₂.Fits (b k j))
    (hp : ∀ i, i < A.rows → ∀ j, j < B.cols → ∀ k, k < A.cols →
      |a i k * b k j| ≤ (c₁.common c₂).max)
    (hsum : ∀ i, i < A.rows → ∀ j, j < B.cols →
      ∑ k ∈ range A.cols, |a i k * b k j| ≤ C.elt.max) :
    Ends (Mixed.gemm A B C) h fun _ h' =>
      C.Becomes h h' fun i j => ofInt C.elt (mulMat A.cols a b i j) :=
  (C57_gemm A B C h _ _ hA hB hC hr hk hc hu hAC hBC).mono fun _ _ hres =>
    Mat.BecomesOn.congr hres fun i j hi hj _ => by
      have hi' : i < A.rows := by omega
      have hj' : j < B.cols := by omega
      refine (products_exact (s := 0) (hsign.imp id fun q => ⟨le_rfl, q i hi' j hj'⟩) (ha i hi')
        (fun k hk => hb k hk j hj') (hp i hi' j hj')
        (by rw [abs_zero, zero_add]; exact hsum i hi' j hj')).trans ?_
      rw [zero_add]; rfl

example : Ends (Mixed.gemm (T.view : MatV CInt) W.view ⟨C, .i32⟩) (heap CInt) fun _ h' =>
    C.Becomes (heap CInt) h' fun i j => ofInt .i32 (mulMat T.cols (imvals T) (imvals W) i j) :=
  C69_gemm_exact .i16 .i16 _ _ _ _ _ _ (mholdsV bT) (mholdsV bW) (malloc bC) rfl rfl rfl
    (by view_facts) (by view_facts) (by view_facts) (.inl (by decide)) (by sizes) (by sizes)
    (by sizes) (by sizes)

/-- **C69** `matrix_product(A, B, E, C)` is exact under the same conditions. -/
theorem C69_gemm_update_exact (c₁ c₂ c₃ : CTy) (A B E : MatV CInt) (C : TMat CTy) (h : Heap CInt)
    (a b e : ℕ → ℕ → ℤ) (hA : A.Holds h fun i j => ofInt c₁ (a i j))
    (hB : B.Holds h fun i j => ofInt c₂ (b i j)) (hE : E.Holds h fun i j => ofInt c₃ (e i j))
    (hC : C.Alloc h) (hr : C.rows = A.rows) (hk : A.cols = B.rows) (hc : C.cols = B.cols)
    (hEr : C.rows ≤ E.rows) (hEc : C.cols ≤ E.cols) (hu : C.Unique)
    (hAC : Apart A.toMat.Cell C.Cell) (hBC : Apart B.toMat.Cell C.Cell)
    (hEC : E.toMat.Aligned C.toMat)
    (hsign : (c₁.signed ∧ c₂.signed ∧ C.elt.signed) ∨
      ∀ i, i < A.rows → ∀ j, j < B.cols → 0 ≤ e i j ∧ ∀ k, k < A.cols → 0 ≤ a i k ∧ 0 ≤ b k j)
    (ha : ∀ i, i < A.rows → ∀ k, k < A.cols → c₁.Fits (a i k))
    (hb : ∀ k, k < A.cols → ∀ j, j < B.cols → c₂.Fits (b k j))
    (he : ∀ i, i < A.rows → ∀ j, j < B.cols → c₃.Fits (e i j))
    (hp : ∀ i, i < A.rows → ∀ j, j < B.cols → ∀ k, k < A.cols →
      |a i k * b k j| ≤ (c₁.common c₂).max)
    (hsum : ∀ i, i < A.rows → ∀ j, j < B.cols →
      |e i j| + ∑ k ∈ range A.cols, |a i k * b k j| ≤ C.elt.max) :
    Ends (Mixed.gemmUpdate A B E C) h fun _ h' =>
      C.Becomes h h' fun i j => ofInt C.elt (e i j + mulMat A.cols a b i j) :=
  (C57_gemm_update A B E C h _ _ _ hA hB hE hC hr hk hc hEr hEc hu hAC hBC hEC).mono fun _ _ hres =>
    Mat.BecomesOn.congr hres fun i j hi hj _ => by
      have hi' : i < A.rows := by omega
      have hj' : j < B.cols := by omega
      rw [conv_exact (he i hi' j hj')]
      exact products_exact (hsign.imp id fun q => q i hi' j hj') (ha i hi')
        (fun k hk => hb k hk j hj') (hp i hi' j hj') (hsum i hi' j hj')

example : Ends (Mixed.gemmUpdate (T.view : MatV CInt) W.view E.view ⟨C, .i32⟩) (heap CInt) fun _ h' =>
    C.Becomes (heap CInt) h' fun i j =>
      ofInt .i32 (imvals E i j + mulMat T.cols (imvals T) (imvals W) i j) :=
  C69_gemm_update_exact .i16 .i16 .i16 _ _ _ _ _ _ _ _ (mholdsV bT) (mholdsV bW) (mholdsV bE)
    (malloc bC) rfl rfl rfl le_rfl le_rfl (by view_facts) (by view_facts) (by view_facts)
    (by view_facts) (.inl (by decide)) (by sizes) (by sizes) (by sizes) (by sizes) (by sizes)

/-- **C69** `vector_abs_sum(v, init)` is exact if each magnitude fits into the promoted type and the
sum fits into the type of `init`. -/
theorem C69_vector_abs_sum_exact (c t : CTy) (v : VecV CInt) (init : ℤ) (h : Heap CInt) (f : ℕ → ℤ)
    (hv : v.Holds h fun i => ofInt c (f i)) (hsign : (c.signed ∧ t.signed) ∨ 0 ≤ init)
    (hf : ∀ k, k < v.ext → c.Fits (f k)) (hm : ∀ k, k < v.ext → |f k| ≤ c.promote.max)
    (hsum : |init| + ∑ k ∈ range v.ext, |f k| ≤ t.max) :
    Ends (Mixed.vectorAbsSum t v (ofInt t init)) h fun r h' =>
      r = ofInt t (init + ∑ k ∈ range v.ext, |f k|) ∧ h' = h :=
  (C57_vector_abs_sum v (ofInt t init) h _ hv).mono fun _ _ hb => by
    refine ⟨hb.1.trans ?_, hb.2⟩
    rw [leftSumAs_congr fun k hk => (abs_exact (hf k hk) (hm k hk)).1]
    refine leftSumAs_exact (c := absTy c) (p := fun k => |f k|) ?_
      (fun k hk => (abs_exact (hf k hk) (hm k hk)).2) (by simp only [abs_abs]; exact hsum)
    exact hsign.imp (fun q => ⟨q.2, by
      have := q.1; revert this; unfold absTy; cases c <;> decide⟩)
      fun q => ⟨q, fun _ _ => abs_nonneg _⟩

example : Ends (Mixed.vectorAbsSum .u64 (x.view : VecV CInt) (ofInt .u64 5)) (heap CInt) fun r h' =>
    r = ofInt .u64 (5 + ∑ k ∈ range 3, |ivals x k|) ∧ h' = heap CInt :=
  C69_vector_abs_sum_exact .i16 .u64 _ _ _ _ (holdsV bx) (.inr (by decide)) (by sizes) (by sizes)
    (by sizes)

/-! ## Solves -/

/-- **C69** `triangular_matrix_vector_solve` with signed elements finds the integer solution if there is
one, provided that the products and the sums of magnitudes fit into the types they are computed in. -/
theorem C69_trsv_exact (tA tB : CTy) (A : MatV CInt) (t : Triangle) (d : Diag) (B : VecV CInt)
    (X : TVec CTy) (h : Heap CInt) (a : ℕ → ℕ → ℤ) (b v : ℕ → ℤ)
    (hA : A.HoldsOn h (triRegion t d) fun i j => ofInt tA (a i j))
    (hB : B.Holds h fun i => ofInt tB (b i)) (hX : X.Alloc h)
    (hsq : A.rows = A.cols) (hext : A.rows = X.ext) (hBe : A.rows ≤ B.ext) (hu : X.Unique)
    (hAX : Apart (A.toMat.CellOn (triRegion t d)) X.Cell) (hBX : B.toVec.Aligned X.toVec)
    (hsA : tA.signed) (hsB : tB.signed) (hsX : X.elt.signed)
    (hsolves : ∀ i, i < A.cols → mulVec A.cols (triOf t d a) v i = b i)
    (hdiag : d = .explicit → ∀ i, i < A.cols → a i i ≠ 0)
    (ha : ∀ i, i < A.cols → ∀ k, k < A.cols → tA.Fits (triOf t d a i k))
    (hb : ∀ i, i < A.cols → tB.Fits (b i)) (hv : ∀ i, i < A.cols → X.elt.Fits (v i))
    (hp : ∀ i, i < A.cols → ∀ k, k < A.cols →
      |triOf t d a i k * v k| ≤ (tA.common X.elt).max)
    (hsum : ∀ i, i < A.cols → |b i| + ∑ k ∈ range A.cols, |triOf t d a i k * v k| ≤
      (tB.common (tA.common X.elt)).max) :
    Ends (Mixed.trsv (· / ·) tA tB A t d B X) h fun _ h' =>
      X.Becomes h h' fun i => ofInt X.elt (v i) :=
  (C57_trsv tA tB A t d B X h _ _ hA hB hX hsq hext hBe hu hAX hBX).mono fun _ _ ⟨_, hw, e⟩ =>
    Vec.Becomes.congr hw fun i hi =>
      exact_solves (common_signed hsB (common_signed hsA hsX)) hsA hsX
        (fun i hi => e i (by omega)) hsolves hdiag ha hb hv
        (fun i hi => fits_sumTy hsA hsB hsX (hv i hi)) hp hsum i (by omega)

/-- A 2×2 upper triangular system `(2 3; 0 5) (v₀, v₁) = (1, 15)` with solution `(-4, 3)`: the matrix
holds `int8_t`, the right-hand side `int16_t`, the solution `int32_t`. -/
def intSystem : Heap CInt := fun k => match k with
  | 0 => some (ofInt .i8 2) | 1 => some (ofInt .i8 3) | 2 => some (ofInt .i8 5)
  | 3 => some (ofInt .i16 1) | 4 => some (ofInt .i16 15)
  | 5 => some (ofInt .i32 0) | 6 => some (ofInt .i32 0) | _ => none

/-- Evaluates the conditions on a 2×2 triangular system. -/
local macro "small" : tactic => `(tactic| (
  intro i hi
  have hi : i < 2 := hi
  interval_cases i <;>
  first
  | (simp [triOf, mulVec, mulMat, sum_range_succ, Mat.view, Triangle.region, CTy.Fits, CTy.min, CTy.max, CTy.bits,
      CTy.signed, CTy.common, CTy.promote]; done)
  | (intro k hk
     have hk : k < 2 := hk
     interval_cases k <;>
     simp [triOf, mulVec, mulMat, sum_range_succ, Mat.view, Triangle.region, CTy.Fits, CTy.min, CTy.max, CTy.bits,
      CTy.signed, CTy.common, CTy.promote])))

example : Ends (Mixed.trsv (· / ·) .i8 .i16 (⟨2, 2, fun i j => i + j⟩ : Mat).view .upper .explicit
    (⟨2, fun i => 3 + i⟩ : Vec).view ⟨⟨2, fun i => 5 + i⟩, .i32⟩) intSystem fun _ h' =>
      (⟨2, fun i => 5 + i⟩ : Vec).Becomes intSystem h' fun i =>
        ofInt .i32 ((fun i => if i = 0 then -4 else 3) i) := by
  refine C69_trsv_exact .i8 .i16 _ .upper .explicit _ ⟨⟨2, fun i => 5 + i⟩, .i32⟩ _
    (fun i j => if i + j = 0 then 2 else if i + j = 1 then 3 else 5)
    (fun i => if i = 0 then 1 else 15) (fun i => if i = 0 then -4 else 3) ?_ ?_ ?_ rfl rfl le_rfl ?_ ?_
    ?_ rfl rfl rfl ?_ ?_ ?_ ?_ ?_ ?_ ?_
  · intro i j hi hj hr
    have hi : i < 2 := hi
    have hj : j < 2 := hj
    interval_cases i <;> interval_cases j <;> exact ⟨_, rfl, rfl⟩
  · intro i hi
    have hi : i < 2 := hi
    interval_cases i <;> exact ⟨_, rfl, rfl⟩
  · intro i hi
    have hi : i < 2 := hi
    interval_cases i <;> exact ⟨_, rfl⟩
  · view_facts
  · view_facts
  · view_facts
  · small
  · intro _; small
  · small
  · small
  · small
  · small
  · small

/-- **C69** `triangular_matrix_matrix_left_solve` likewise.  The sums of magnitudes must fit into the
type of the local variable: the element type of `X` if the matrix is lower triangular. -/
theorem C69_trsm_left_exact (tA tB : CTy) (A : MatV CInt) (t : Triangle) (d : Diag) (B : MatV CInt)
    (X : TMat CTy) (h : Heap CInt) (a b v : ℕ → ℕ → ℤ)
    (hA : A.HoldsOn h (triRegion t d) fun i j => ofInt tA (a i j))
    (hB : B.Holds h fun i j => ofInt tB (b i j)) (hX : X.Alloc h)
    (hsq : A.rows = A.cols) (hr : X.rows = A.rows) (hBr : B.rows = A.rows) (hc : X.cols = B.cols)
    (hu : X.Unique) (hAX : Apart (A.toMat.CellOn (triRegion t d)) X.Cell)
    (hBX : B.toMat.Aligned X.toMat)
    (hsA : tA.signed) (hsB : tB.signed) (hsX : X.elt.signed)
    (hsolves : ∀ i, i < A.cols → ∀ j, j < X.cols → mulMat A.cols (triOf t d a) v i j = b i j)
    (hdiag : d = .explicit → ∀ i, i < A.cols → a i i ≠ 0)
    (ha : ∀ i, i < A.cols → ∀ k, k < A.cols → tA.Fits (triOf t d a i k))
    (hb : ∀ i, i < A.cols → ∀ j, j < X.cols → tB.Fits (b i j))
    (hv : ∀ i, i < A.cols → ∀ j, j < X.cols → X.elt.Fits (v i j))
    (hp : ∀ i, i < A.cols → ∀ j, j < X.cols → ∀ k, k < A.cols →
      |triOf t d a i k * v k j| ≤ (tA.common X.elt).max)
    (hsum : ∀ i, i < A.cols → ∀ j, j < X.cols →
      |b i j| + ∑ k ∈ range A.cols, |triOf t d a i k * v k j| ≤
        (if t = .upper then tB.common (tA.common X.elt) else X.elt).max) :
    Ends (Mixed.trsmLeft tA tB A t d B X) h fun _ h' =>
      X.Becomes h h' fun i j => ofInt X.elt (v i j) :=
  (C57_trsm_left tA tB A t d B X h _ _ hA hB hX hsq hr hBr hc hu hAX hBX).mono
    fun _ _ ⟨_, hw, e⟩ => Mat.BecomesOn.congr hw fun i j hi hj _ => by
      refine exact_solves (v := fun k => v k j) (w := fun k => _) ?_ hsA hsX
        (fun i hi => e i j (by omega) hj) (fun i hi => hsolves i hi j hj) hdiag ha
        (fun i hi => hb i hi j hj) (fun i hi => hv i hi j hj) ?_ (fun i hi => hp i hi j hj)
        (fun i hi => hsum i hi j hj) i (by omega)
      · split_ifs
        · exact common_signed hsB (common_signed hsA hsX)
        · exact hsX
      · intro i hi
        split_ifs
        · exact fits_sumTy hsA hsB hsX (hv i hi j hj)
        · exact hv i hi j hj

/-- Evaluates the conditions on a 2×2 triangular system with one right-hand side. -/
local macro "small₂" : tactic => `(tactic| (
  intro i hi j hj
  have hi : i < 2 := hi
  have hj : j < 1 := hj
  obtain rfl : j = 0 := by omega
  interval_cases i <;>
  first
  | (simp [triOf, mulMat, sum_range_succ, Mat.view, Triangle.region, CTy.Fits, CTy.min, CTy.max,
      CTy.bits, CTy.signed, CTy.common, CTy.promote]; done)
  | (intro k hk
     have hk : k < 2 := hk
     interval_cases k <;>
     simp [triOf, mulMat, sum_range_succ, Triangle.region, CTy.Fits, CTy.min, CTy.max, CTy.bits,
      CTy.signed, CTy.common, CTy.promote])))

example : Ends (Mixed.trsmLeft .i8 .i16 (⟨2, 2, fun i j => i + j⟩ : Mat).view .upper .explicit
    (⟨2, 1, fun i _ => 3 + i⟩ : Mat).view ⟨⟨2, 1, fun i _ => 5 + i⟩, .i32⟩) intSystem fun _ h' =>
      (⟨2, 1, fun i _ => 5 + i⟩ : Mat).Becomes intSystem h' fun i j =>
        ofInt .i32 ((fun i _ => if i = 0 then -4 else 3) i j) := by
  refine C69_trsm_left_exact .i8 .i16 _ .upper .explicit _ ⟨⟨2, 1, fun i _ => 5 + i⟩, .i32⟩ _
    (fun i j => if i + j = 0 then 2 else if i + j = 1 then 3 else 5)
    (fun i _ => if i = 0 then 1 else 15) (fun i _ => if i = 0 then -4 else 3) ?_ ?_ ?_ rfl rfl rfl rfl
    ?_ ?_ ?_ rfl rfl rfl ?_ ?_ ?_ ?_ ?_ ?_ ?_
  · intro i j hi hj hr
    have hi : i < 2 := hi
    have hj : j < 2 := hj
    interval_cases i <;> interval_cases j <;> exact ⟨_, rfl, rfl⟩
  · intro i j hi hj _
    have hi : i < 2 := hi
    interval_cases i <;> exact ⟨_, rfl, rfl⟩
  · intro i j hi hj _
    have hi : i < 2 := hi
    interval_cases i <;> exact ⟨_, rfl⟩
  · view_facts
  · view_facts
  · view_facts
  · small₂
  · intro _; small
  · small
  · small₂
  · small₂
  · small₂
  · small₂

/-- **C69** `triangular_matrix_matrix_right_solve` likewise. -/
theorem C69_trsm_right_exact (tA tB : CTy) (A : MatV CInt) (t : Triangle) (d : Diag) (B : MatV CInt)
    (X : TMat CTy) (h : Heap CInt) (a b v : ℕ → ℕ → ℤ)
    (hA : A.HoldsOn h (triRegion t d) fun i j => ofInt tA (a i j))
    (hB : B.Holds h fun i j => ofInt tB (b i j)) (hX : X.Alloc h)
    (hsq : A.rows = A.cols) (hr : X.cols = A.cols) (hBr : B.cols = A.cols) (hc : X.rows = B.rows)
    (hu : X.Unique) (hAX : Apart (A.toMat.CellOn (triRegion t d)) X.Cell)
    (hBX : B.toMat.Aligned X.toMat)
    (hsA : tA.signed) (hsB : tB.signed) (hsX : X.elt.signed)
    (hsolves : ∀ i, i < X.rows → ∀ j, j < A.cols → mulMat A.cols v (triOf t d a) i j = b i j)
    (hdiag : d = .explicit → ∀ j, j < A.cols → a j j ≠ 0)
    (ha : ∀ k, k < A.cols → ∀ j, j < A.cols → tA.Fits (triOf t d a k j))
    (hb : ∀ i, i < X.rows → ∀ j, j < A.cols → tB.Fits (b i j))
    (hv : ∀ i, i < X.rows → ∀ j, j < A.cols → X.elt.Fits (v i j))
    (hp : ∀ i, i < X.rows → ∀ j, j < A.cols → ∀ k, k < A.cols →
      |v i k * triOf t d a k j| ≤ (tA.common X.elt).max)
    (hsum : ∀ i, i < X.rows → ∀ j, j < A.cols →
      |b i j| + ∑ k ∈ range A.cols, |v i k * triOf t d a k j| ≤
        (tB.common (tA.common X.elt)).max) :
    Ends (Mixed.trsmRight tA tB A t d B X) h fun _ h' =>
      X.Becomes h h' fun i j => ofInt X.elt (v i j) :=
  (C57_trsm_right tA tB A t d B X h _ _ hA hB hX hsq hr hBr hc hu hAX hBX).mono
    fun _ _ ⟨w, hw, e⟩ => Mat.BecomesOn.congr hw fun i j hi hj _ => by
      refine exact_solves (v := fun k => v i k) (w := fun k => w i k)
        (t := t.other) (d := d) (a := fun i j => a j i) (b := fun j => b i j)
        (common_signed hsB (common_signed hsA hsX)) hsA hsX
        (fun j hj => ?_) (fun j hj => ?_) hdiag (fun j hj k hk => ?_)
        (fun j hj => hb i hi j hj) (fun j hj => hv i hi j hj)
        (fun j hj => fits_sumTy hsA hsB hsX (hv i hi j hj)) (fun j hj k hk => ?_)
        (fun j hj => ?_) j (by omega)
      · rw [e i j hi hj]; simp only [CInt.mul_comm' (w i _)]; rfl
      · rw [← hsolves i hi j hj]
        exact sum_congr rfl fun k _ => by rw [triOf_other, mul_comm]
      · rw [triOf_other]; exact ha k hk j hj
      · rw [triOf_other, mul_comm]; exact hp i hi j hj k hk
      · simp only [triOf_other, mul_comm (triOf t d a _ j)]; exact hsum i hi j hj

section Unsigned

/-- The memory of the examples of this section holds `uint32_t` values. -/
local instance : IntCast CInt := ⟨ofInt .u32⟩

example : Ends (Mixed.trsmRight .i8 .i16 (⟨2, 2, fun i j => i + j⟩ : Mat).view .lower .explicit
    (⟨1, 2, fun _ j => 3 + j⟩ : Mat).view ⟨⟨1, 2, fun _ j => 5 + j⟩, .i32⟩) intSystem fun _ h' =>
      (⟨1, 2, fun _ j => 5 + j⟩ : Mat).Becomes intSystem h' fun i j =>
        ofInt .i32 ((fun _ j => if j = 0 then -4 else 3) i j) := by
  refine C69_trsm_right_exact .i8 .i16 _ .lower .explicit _ ⟨⟨1, 2, fun _ j => 5 + j⟩, .i32⟩ _
    (fun i j => if i + j = 0 then 2 else if i + j = 1 then 3 else 5)
    (fun _ j => if j = 0 then 1 else 15) (fun _ j => if j = 0 then -4 else 3) ?_ ?_ ?_ rfl rfl rfl rfl
    ?_ ?_ ?_ rfl rfl rfl ?_ ?_ ?_ ?_ ?_ ?_ ?_
  · intro i j hi hj hr
    have hi : i < 2 := hi
    have hj : j < 2 := hj
    interval_cases i <;> interval_cases j <;> exact ⟨_, rfl, rfl⟩
  · intro i j hi hj _
    have hj : j < 2 := hj
    interval_cases j <;> exact ⟨_, rfl, rfl⟩
  · intro i j hi hj _
    have hj : j < 2 := hj
    interval_cases j <;> exact ⟨_, rfl⟩
  · view_facts
  · view_facts
  · view_facts
  · intro _ _; small
  · intro _; small
  · small
  · intro _ _; small
  · intro _ _; small
  · intro _ _; small
  · intro _ _; small

/-- **C69** `triangular_matrix_vector_solve` with an implicit unit diagonal and elements of type
`uint32_t` or `uint64_t`: the solution satisfies the equations modulo `2 ^ bits`, whatever the
elements are. -/
theorem C69_trsv_unit (c : CTy) (hc : c.Wide) (A : MatV CInt) (t : Triangle) (B : VecV CInt)
    (X : TVec CTy) (h : Heap CInt) (a : ℕ → ℕ → ℤ) (b : ℕ → ℤ)
    (hA : A.HoldsOn h (triRegion t .implicitUnit) fun i j => ofInt c (a i j))
    (hB : B.Holds h fun i => ofInt c (b i)) (hX : X.Alloc h)
    (hsq : A.rows = A.cols) (hext : A.rows = X.ext) (hBe : A.rows ≤ B.ext) (hu : X.Unique)
    (hAX : Apart (A.toMat.CellOn (triRegion t .implicitUnit)) X.Cell)
    (hBX : B.toVec.Aligned X.toVec) (hXc : X.elt = c) :
    Ends (Mixed.trsv (· / ·) c c A t .implicitUnit B X) h fun _ h' =>
      ∃ v : ℕ → ℤ, X.Becomes h h' (fun i => ofInt c (v i)) ∧ ∀ i, i < A.cols →
        mulVec A.cols (triOf t .implicitUnit a) v i ≡ b i [ZMOD 2 ^ c.bits] :=
  (C57_trsv c c A t .implicitUnit B X h _ _ hA hB hX hsq hext hBe hu hAX hBX).mono
    fun _ _ ⟨w, hw, e⟩ => by
      subst hXc
      have : MixedOps.subTy CInt X.elt (MixedOps.mulTy CInt X.elt X.elt) = X.elt := by
        rcases hc with q | q <;> rw [q] <;> rfl
      rw [this] at e
      obtain ⟨v, hv, hs⟩ := wide_solves hc (av := fun i k => ofInt X.elt (a i k)) (a := a) (b := b)
        (fun _ _ _ _ _ _ => rfl) fun i hi => e i (by omega)
      exact ⟨v, Vec.Becomes.congr hw fun i hi => hv i (by omega), hs⟩

example (t : Triangle) : Ends (Mixed.trsv (· / ·) .u32 .u32 (A.view : MatV CInt) t .implicitUnit x.view
    ⟨x, .u32⟩) (heap CInt) fun _ h' =>
      ∃ v : ℕ → ℤ, x.Becomes (heap CInt) h' (fun i => ofInt .u32 (v i)) ∧ ∀ i, i < 3 →
        mulVec 3 (triOf t .implicitUnit (imvals A)) v i ≡ ivals x i [ZMOD 2 ^ 32] :=
  C69_trsv_unit .u32 (.inl rfl) _ t _ ⟨x, .u32⟩ _ _ _ (mholdsV bA) (holdsV bx) (alloc bx) rfl rfl
    le_rfl (by view_facts) (by view_facts) (by view_facts) rfl

/-- **C69** `triangular_matrix_matrix_left_solve` likewise. -/
theorem C69_trsm_left_unit (c : CTy) (hc : c.Wide) (A : MatV CInt) (t : Triangle) (B : MatV CInt)
    (X : TMat CTy) (h : Heap CInt) (a b : ℕ → ℕ → ℤ)
    (hA : A.HoldsOn h (triRegion t .implicitUnit) fun i j => ofInt c (a i j))
    (hB : B.Holds h fun i j => ofInt c (b i j)) (hX : X.Alloc h)
    (hsq : A.rows = A.cols) (hr : X.rows = A.rows) (hBr : B.rows = A.rows) (hcols : X.cols = B.cols)
    (hu : X.Unique) (hAX : Apart (A.toMat.CellOn (triRegion t .implicitUnit)) X.Cell)
    (hBX : B.toMat.Aligned X.toMat) (hXc : X.elt = c) :
    Ends (Mixed.trsmLeft c c A t .implicitUnit B X) h fun _ h' =>
      ∃ v : ℕ → ℕ → ℤ, X.Becomes h h' (fun i j => ofInt c (v i j)) ∧
        ∀ i j, i < A.cols → j < X.cols →
          mulMat A.cols (triOf t .implicitUnit a) v i j ≡ b i j [ZMOD 2 ^ c.bits] :=
  (C57_trsm_left c c A t .implicitUnit B X h _ _ hA hB hX hsq hr hBr hcols hu hAX hBX).mono
    fun _ _ ⟨w, hw, e⟩ => by
      subst hXc
      have : (if t = .upper then MixedOps.subTy CInt X.elt (MixedOps.mulTy CInt X.elt X.elt)
          else X.elt) = X.elt := by
        split_ifs
        · rcases hc with q | q <;> rw [q] <;> rfl
        · rfl
      rw [this] at e
      have col : ∀ j, ∃ v : ℕ → ℤ, j < X.cols → (∀ i, i < A.cols → w i j = ofInt X.elt (v i)) ∧
          ∀ i, i < A.cols →
            mulVec A.cols (triOf t .implicitUnit a) v i ≡ b i j [ZMOD 2 ^ X.elt.bits] := fun j => by
        by_cases q : j < X.cols
        · obtain ⟨v, hv⟩ := wide_solves hc (v := fun i => w i j)
            (av := fun i k => ofInt X.elt (a i k)) (a := a)
            (b := fun i => b i j) (fun _ _ _ _ _ _ => rfl) fun i hi => e i j (by omega) q
          exact ⟨v, fun _ => hv⟩
        · exact ⟨0, fun q' => absurd q' q⟩
      obtain ⟨v, hv⟩ := Classical.skolem.mp col
      exact ⟨fun i j => v j i, Mat.BecomesOn.congr hw fun i j hi hj _ => (hv j hj).1 i (by omega),
        fun i j hi hj => (hv j hj).2 i hi⟩

example (t : Triangle) : Ends (Mixed.trsmLeft .u32 .u32 (A.view : MatV CInt) t .implicitUnit T.view
    ⟨T, .u32⟩) (heap CInt) fun _ h' =>
      ∃ v : ℕ → ℕ → ℤ, T.Becomes (heap CInt) h' (fun i j => ofInt .u32 (v i j)) ∧
        ∀ i j, i < 3 → j < 2 →
          mulMat 3 (triOf t .implicitUnit (imvals A)) v i j ≡ imvals T i j [ZMOD 2 ^ 32] :=
  C69_trsm_left_unit .u32 (.inl rfl) _ t _ ⟨T, .u32⟩ _ _ _ (mholdsV bA) (mholdsV bT) (malloc bT) rfl
    rfl rfl rfl (by view_facts) (by view_facts) (by view_facts) rfl

/-- **C69** `triangular_matrix_matrix_right_solve` likewise. -/
theorem C69_trsm_right_unit (c : CTy) (hc : c.Wide) (A : MatV CInt) (t : Triangle) (B : MatV CInt)
    (X : TMat CTy) (h : Heap CInt) (a b : ℕ → ℕ → ℤ)
    (hA : A.HoldsOn h (triRegion t .implicitUnit) fun i j => ofInt c (a i j))
    (hB : B.Holds h fun i j => ofInt c (b i j)) (hX : X.Alloc h)
    (hsq : A.rows = A.cols) (hr : X.cols = A.cols) (hBr : B.cols = A.cols) (hrows : X.rows = B.rows)
    (hu : X.Unique) (hAX : Apart (A.toMat.CellOn (triRegion t .implicitUnit)) X.Cell)
    (hBX : B.toMat.Aligned X.toMat) (hXc : X.elt = c) :
    Ends (Mixed.trsmRight c c A t .implicitUnit B X) h fun _ h' =>
      ∃ v : ℕ → ℕ → ℤ, X.Becomes h h' (fun i j => ofInt c (v i j)) ∧
        ∀ i j, i < X.rows → j < A.cols →
          mulMat A.cols v (triOf t .implicitUnit a) i j ≡ b i j [ZMOD 2 ^ c.bits] :=
  (C57_trsm_right c c A t .implicitUnit B X h _ _ hA hB hX hsq hr hBr hrows hu hAX hBX).mono
    fun _ _ ⟨w, hw, e⟩ => by
      subst hXc
      have : MixedOps.subTy CInt X.elt (MixedOps.mulTy CInt X.elt X.elt) = X.elt := by
        rcases hc with q | q <;> rw [q] <;> rfl
      rw [this] at e
      have row : ∀ i, ∃ v : ℕ → ℤ, i < X.rows → (∀ j, j < A.cols → w i j = ofInt X.elt (v j)) ∧
          ∀ j, j < A.cols → mulVec A.cols (triOf t.other .implicitUnit fun i j => a j i) v j ≡ b i j
            [ZMOD 2 ^ X.elt.bits] := fun i => by
        by_cases q : i < X.rows
        · obtain ⟨v, hv⟩ := wide_solves hc (v := fun j => w i j) (t := t.other)
            (diag := fun j => ofInt X.elt (a j j)) (av := fun i k => ofInt X.elt (a k i)) (a := fun i k => a k i)
            (b := fun j => b i j) (fun _ _ _ _ _ _ => rfl) fun j hj => by
              rw [e i j q hj]; simp only [CInt.mul_comm' (w i _)]
          exact ⟨v, fun _ => hv⟩
        · exact ⟨0, fun q' => absurd q' q⟩
      obtain ⟨v, hv⟩ := Classical.skolem.mp row
      refine ⟨v, Mat.BecomesOn.congr hw fun i j hi hj _ => (hv i hi).1 j (by omega),
        fun i j hi hj => ?_⟩
      have := (hv i hi).2 j hj
      rwa [show mulVec A.cols (triOf t.other .implicitUnit fun i j => a j i) (v i) j =
        mulMat A.cols v (triOf t .implicitUnit a) i j from
          sum_congr rfl fun k _ => by rw [triOf_other, mul_comm]] at this

example (t : Triangle) : Ends (Mixed.trsmRight .u32 .u32 (A.view : MatV CInt) t .implicitUnit W.view
    ⟨W, .u32⟩) (heap CInt) fun _ h' =>
      ∃ v : ℕ → ℕ → ℤ, W.Becomes (heap CInt) h' (fun i j => ofInt .u32 (v i j)) ∧
        ∀ i j, i < 2 → j < 3 →
          mulMat 3 v (triOf t .implicitUnit (imvals A)) i j ≡ imvals W i j [ZMOD 2 ^ 32] :=
  C69_trsm_right_unit .u32 (.inl rfl) _ t _ ⟨W, .u32⟩ _ _ _ (mholdsV bA) (mholdsV bW) (malloc bW) rfl
    rfl rfl rfl (by view_facts) (by view_facts) (by view_facts) rfl

end Unsigned

/-! ## What goes wrong otherwise -/

/-- One element in cell 0. -/
private def cell (k : ℕ) : Vec := ⟨1, fun _ => k⟩
/-- One element in cell 0, as a 1×1 matrix. -/
private def mcell (k : ℕ) : Mat := ⟨1, 1, fun _ _ => k⟩
/-- Memory with three cells. -/
private def three (p q r : CInt) : Heap CInt := fun k => match k with
  | 0 => some p | 1 => some q | 2 => some r | _ => none

/-- **C69** "Unsigned elements wrap around" is false of `uint16_t`: the elements are promoted to `int`,
in which `65535 * 65535` overflows, so `dot` has undefined behaviour. -/
theorem C69_dot_uint16_wraps_false :
    Ends (Mixed.dot (cell 0).view (cell 1).view (ofInt .u16 0))
      (three (ofInt .u16 65535) (ofInt .u16 65535) (ofInt .u16 0)) fun r _ => r.val = none :=
  (C57_dot (cell 0).view (cell 1).view (ofInt .u16 0) _ (fun _ => ofInt .u16 65535)
    (fun _ => ofInt .u16 65535) (fun _ _ => ⟨_, rfl, rfl⟩) (fun _ _ => ⟨_, rfl, rfl⟩) le_rfl).mono
    fun _ _ hb => by rw [hb.1]; decide +kernel

/-- **C69** Signed elements do not wrap around: `INT_MAX + 1` in `dot` is undefined behaviour. -/
theorem C69_dot_int32_wraps_false :
    Ends (Mixed.dot (cell 0).view (cell 1).view (ofInt .i32 1))
      (three (ofInt .i32 2147483647) (ofInt .i32 1) (ofInt .i32 0)) fun r _ => r.val = none :=
  (C57_dot (cell 0).view (cell 1).view (ofInt .i32 1) _ (fun _ => ofInt .i32 2147483647)
    (fun _ => ofInt .i32 1) (fun _ _ => ⟨_, rfl, rfl⟩) (fun _ _ => ⟨_, rfl, rfl⟩) le_rfl).mono
    fun _ _ hb => by rw [hb.1]; decide +kernel

/-- **C69** "The result is exact if it is representable" is false: with `init` of type `int64_t` the
product `65536 * 65536` of two `int32_t` elements is still computed in `int32_t`. -/
theorem C69_dot_wide_init_false :
    Ends (Mixed.dot (cell 0).view (cell 1).view (ofInt .i64 0))
      (three (ofInt .i32 65536) (ofInt .i32 65536) (ofInt .i32 0)) fun r _ => r.val = none :=
  (C57_dot (cell 0).view (cell 1).view (ofInt .i64 0) _ (fun _ => ofInt .i32 65536)
    (fun _ => ofInt .i32 65536) (fun _ _ => ⟨_, rfl, rfl⟩) (fun _ _ => ⟨_, rfl, rfl⟩) le_rfl).mono
    fun _ _ hb => by rw [hb.1]; decide +kernel

/-- **C69** Mixing signed and unsigned types is not exact even for small numbers: `-1 + 0` of an
`int32_t` and a `uint32_t` element, stored to an `int64_t` element, is 4294967295. -/
theorem C69_add_mixed_signs_false :
    Ends (Mixed.add1 (cell 0).view (cell 1).view ⟨cell 2, .i64⟩)
      (three (ofInt .i32 (-1)) (ofInt .u32 0) (ofInt .i64 0)) fun _ h' =>
      (cell 2).Becomes (three (ofInt .i32 (-1)) (ofInt .u32 0) (ofInt .i64 0)) h'
        fun _ => ofInt .i64 4294967295 :=
  (C57_add_vector (cell 0).view (cell 1).view ⟨cell 2, .i64⟩ _ (fun _ => ofInt .i32 (-1))
    (fun _ => ofInt .u32 0) (fun _ _ => ⟨_, rfl, rfl⟩) (fun _ _ => ⟨_, rfl, rfl⟩)
    (fun _ _ => ⟨_, rfl⟩) le_rfl le_rfl
    (fun i k hi hk _ => by
      have : i < 1 := hi
      have : k < 1 := hk
      omega)
    (fun i k hi hk _ => by
      have : i < 1 := hi
      have : k < 1 := hk
      omega) (fun i k hi hk _ => by
      have : i < 1 := hi
      have : k < 1 := hk
      omega)).mono
    fun _ _ hb => Vec.Becomes.congr hb fun _ _ => CInt.ext rfl (by decide +kernel)

/-- **C69** A solve with integer elements does not solve the system if the solution is not an integer:
for `2 v = 3` the result is `v = 1`. -/
theorem C69_trsv_fraction_false :
    Ends (Mixed.trsv (· / ·) .i32 .i32 (mcell 0).view .lower .explicit (cell 1).view ⟨cell 2, .i32⟩)
      (three (ofInt .i32 2) (ofInt .i32 3) (ofInt .i32 0)) fun _ h' =>
      (cell 2).Becomes (three (ofInt .i32 2) (ofInt .i32 3) (ofInt .i32 0)) h'
        fun _ => ofInt .i32 1 := by
  have hA : ((mcell 0).view : MatV CInt).HoldsOn
      (three (ofInt .i32 2) (ofInt .i32 3) (ofInt .i32 0)) (triRegion .lower .explicit)
      (fun _ _ => ofInt .i32 2) := fun _ _ _ _ _ => ⟨_, rfl, rfl⟩
  have hB : ((cell 1).view : VecV CInt).Holds
      (three (ofInt .i32 2) (ofInt .i32 3) (ofInt .i32 0)) fun _ => ofInt .i32 3 :=
    fun _ _ => ⟨_, rfl, rfl⟩
  have key := C57_trsv .i32 .i32 _ .lower .explicit _ ⟨cell 2, .i32⟩ _ _ _ hA hB
    (fun _ _ => ⟨_, rfl⟩) rfl rfl le_rfl
    (fun i k hi hk _ => by
      have : i < 1 := hi
      have : k < 1 := hk
      omega)
    (fun a p q => by
      obtain ⟨_, _, _, _, _, e⟩ := p
      obtain ⟨_, _, e'⟩ := q
      have e : 0 = a := e
      have e' : 2 = a := e'
      omega)
    (fun i k hi hk _ => by
      have : i < 1 := hi
      have : k < 1 := hk
      omega)
  refine key.mono fun _ _ ⟨_, hb, e⟩ => Vec.Becomes.congr hb fun i hi => ?_
  have hi : i < 1 := hi
  obtain rfl : i = 0 := by omega
  rw [e 0 (by decide)]
  unfold solveRowAs
  dsimp only
  rw [if_pos rfl, leftDiffAs]
  refine CInt.ext rfl ?_
  decide +kernel

end StdBLAS

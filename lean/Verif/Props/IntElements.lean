import Verif.Lemmas.IntSolve
import Verif.Props.MixedTypes

/-!
# Property C69: integer elements

The elements are C++ integers (`Spec/IntElements.lean`): small types are promoted to `int`, unsigned
arithmetic wraps around, signed overflow is undefined behaviour.

`ofInt t z` is the value of type `t` that equals `z` modulo `2 ^ bits`.  So "the views hold
`ofInt t (a i j)` and the result is `ofInt t (Σ a i k * b k j)`" says: the result is the product of
the integer matrices modulo `2 ^ bits`, and nothing undefined happened on the way, whatever the
integers are.  This holds for `int8_t`, `uint8_t`, `int16_t`, `uint32_t` and `uint64_t` (`Safe`).  It
does not hold for `uint16_t`, whose products are computed in `int` and may overflow there, and of course
not for `int32_t` and `int64_t`.

The second part is about all eight types and mixtures of them: if magnitudes are small enough, the
result is exact.
-/

namespace StdBLAS
open Witness Finset CInt CTy

/-- The memory of the examples holds `uint8_t` values. -/
local instance : IntCast CInt := ⟨ofInt .u8⟩

/-- The integers that the elements of a vector of `heap` represent. -/
private def ivals (v : Vec) (i : ℕ) : ℤ := (v.addr i : ℤ) - 7
/-- The integers that the elements of a matrix of `heap` represent. -/
private def imvals (m : Mat) (i j : ℕ) : ℤ := (m.addr i j : ℤ) - 7

/-! ## Modulo `2 ^ bits` -/

/-- **C69** `add(x, y, z)`: modulo `2 ^ bits`, without undefined behaviour. -/
theorem C69_add_vector (x y : VecV CInt) (z : TVec CTy) (h : Heap CInt) (f g : ℕ → ℤ)
    (hx : x.Holds h fun i => ofInt z.elt (f i)) (hy : y.Holds h fun i => ofInt z.elt (g i))
    (hz : z.Alloc h) (hex : z.ext ≤ x.ext) (hey : z.ext ≤ y.ext) (hu : z.Unique)
    (hax : x.toVec.Aligned z.toVec) (hay : y.toVec.Aligned z.toVec) (hsafe : z.elt.Safe) :
    Ends (Mixed.add1 x y z) h fun _ h' =>
      z.Becomes h h' fun i => ofInt z.elt (f i + g i) :=
  (C57_add_vector x y z h _ _ hx hy hz hex hey hu hax hay).mono fun _ _ hb =>
    Vec.Becomes.congr hb fun _ _ =>
      term_one hsafe _ _

example : Ends (Mixed.add1 (x.view : VecV CInt) y.view ⟨x, .u8⟩) (heap CInt)
    fun _ h' =>
      x.Becomes (heap CInt) h' fun i => ofInt .u8 ((ivals x) i + (ivals y) i) :=
  C69_add_vector _ _ _ _ _ _ (holdsV bx) (holdsV by_) (alloc bx) le_rfl le_rfl (by view_facts)
    (by view_facts) (by view_facts) (.inr (.inl rfl))

/-- **C69** `add(A, B, C)`: modulo `2 ^ bits`, without undefined behaviour. -/
theorem C69_add_matrix (A B : MatV CInt) (C : TMat CTy) (h : Heap CInt) (a b : ℕ → ℕ → ℤ)
    (hA : A.Holds h fun i j => ofInt C.elt (a i j))
    (hB : B.Holds h fun i j => ofInt C.elt (b i j)) (hC : C.Alloc h) (hr : A.rows = C.rows)
    (hc : A.cols = C.cols) (hr' : C.rows ≤ B.rows) (hc' : C.cols ≤ B.cols) (hu : C.Unique)
    (hAC : A.toMat.Aligned C.toMat) (hBC : B.toMat.Aligned C.toMat) (hsafe : C.elt.Safe) :
    Ends (Mixed.add2 A B C) h fun _ h' =>
      C.Becomes h h' fun i j => ofInt C.elt (a i j + b i j) :=
  (C57_add_matrix A B C h _ _ hA hB hC hr hc hr' hc' hu hAC hBC).mono fun _ _ hb =>
    Mat.BecomesOn.congr hb fun _ _ _ _ _ =>
      term_one hsafe _ _

example : Ends (Mixed.add2 (A.view : MatV CInt) B.view ⟨C, .u8⟩) (heap CInt)
    fun _ h' =>
      C.Becomes (heap CInt) h' fun i j => ofInt .u8 ((imvals A) i j + (imvals B) i j) :=
  C69_add_matrix _ _ _ _ _ _ (mholdsV bA) (mholdsV bB) (malloc bC) rfl rfl le_rfl le_rfl
    (by view_facts) (by view_facts) (by view_facts) (.inr (.inl rfl))

/-- **C69** `scale(alpha, x)`: modulo `2 ^ bits`, without undefined behaviour. -/
theorem C69_scale_vector (alpha : ℤ) (x : TVec CTy) (h : Heap CInt) (f : ℕ → ℤ)
    (hx : x.Holds h fun i => ofInt x.elt (f i)) (hu : x.Unique) (hsafe : x.elt.Safe) :
    Ends (Mixed.scale1 (ofInt x.elt alpha) x) h fun _ h' =>
      x.Becomes h h' fun i => ofInt x.elt (f i * alpha) :=
  (C57_scale_vector (ofInt x.elt alpha) x h _ hx hu).mono fun _ _ hb =>
    Vec.Becomes.congr hb fun _ _ =>
      conv_mul hsafe _ _

example : Ends (Mixed.scale1 (ofInt .u8 5) ⟨x, .u8⟩) (heap CInt)
    fun _ h' =>
      x.Becomes (heap CInt) h' fun i => ofInt .u8 ((ivals x) i * 5) :=
  C69_scale_vector _ _ _ _ (holds bx) (by view_facts) (.inr (.inl rfl))

/-- **C69** `scale(alpha, A)`: modulo `2 ^ bits`, without undefined behaviour. -/
theorem C69_scale_matrix (alpha : ℤ) (A : TMat CTy) (h : Heap CInt) (a : ℕ → ℕ → ℤ)
    (hA : A.Holds h fun i j => ofInt A.elt (a i j)) (hu : A.Unique) (hsafe : A.elt.Safe) :
    Ends (Mixed.scale2 (ofInt A.elt alpha) A) h fun _ h' =>
      A.Becomes h h' fun i j => ofInt A.elt (a i j * alpha) :=
  (C57_scale_matrix (ofInt A.elt alpha) A h _ hA hu).mono fun _ _ hb =>
    Mat.BecomesOn.congr hb fun _ _ _ _ _ =>
      conv_mul hsafe _ _

example : Ends (Mixed.scale2 (ofInt .u8 5) ⟨C, .u8⟩) (heap CInt)
    fun _ h' =>
      C.Becomes (heap CInt) h' fun i j => ofInt .u8 ((imvals C) i j * 5) :=
  C69_scale_matrix _ _ _ _ (mholds bC) (by view_facts) (.inr (.inl rfl))

/-- **C69** `dot(v1, v2, init)`: modulo `2 ^ bits`, without undefined behaviour. -/
theorem C69_dot (c : CTy) (v1 v2 : VecV CInt) (init : ℤ) (h : Heap CInt) (f g : ℕ → ℤ)
    (h1 : v1.Holds h fun i => ofInt c (f i)) (h2 : v2.Holds h fun i => ofInt c (g i))
    (hext : v1.ext ≤ v2.ext) (hsafe : c.Safe) :
    Ends (Mixed.dot v1 v2 (ofInt c init)) h fun r h' =>
      r = ofInt c (init + ∑ k ∈ range v1.ext, f k * g k) ∧ h' = h :=
  (C57_dot v1 v2 (ofInt c init) h _ _ h1 h2 hext).mono fun _ _ hb =>
    ⟨hb.1.trans (Term.leftSumAs _ fun _ _ => term_mul hsafe _ _), hb.2⟩

example : Ends (Mixed.dot (x.view : VecV CInt) y.view (ofInt .u8 5)) (heap CInt)
    fun r h' =>
      r = ofInt .u8 (5 + ∑ k ∈ range x.ext, (ivals x) k * (ivals y) k) ∧ h' = heap CInt :=
  C69_dot _ _ _ _ _ _ _ (holdsV bx) (holdsV by_) le_rfl (.inr (.inl rfl))

/-- **C69** `dotc(v1, v2, init)`: modulo `2 ^ bits`, without undefined behaviour. -/
theorem C69_dotc (c : CTy) (v1 v2 : VecV CInt) (init : ℤ) (h : Heap CInt) (f g : ℕ → ℤ)
    (h1 : v1.Holds h fun i => ofInt c (f i)) (h2 : v2.Holds h fun i => ofInt c (g i))
    (hext : v1.ext ≤ v2.ext) (hsafe : c.Safe) :
    Ends (Mixed.dotc v1 v2 (ofInt c init)) h fun r h' =>
      r = ofInt c (init + ∑ k ∈ range v1.ext, f k * g k) ∧ h' = h :=
  (C57_dotc v1 v2 (ofInt c init) h _ _ h1 h2 hext).mono fun _ _ hb =>
    ⟨hb.1.trans (Term.leftSumAs _ fun _ _ => term_mul hsafe _ _), hb.2⟩

example : Ends (Mixed.dotc (x.view : VecV CInt) y.view (ofInt .u8 5)) (heap CInt)
    fun r h' =>
      r = ofInt .u8 (5 + ∑ k ∈ range x.ext, (ivals x) k * (ivals y) k) ∧ h' = heap CInt :=
  C69_dotc _ _ _ _ _ _ _ (holdsV bx) (holdsV by_) le_rfl (.inr (.inl rfl))

/-- **C69** `matrix_vector_product(A, x, y)`: modulo `2 ^ bits`, without undefined behaviour. -/
theorem C69_gemv (A : MatV CInt) (x : VecV CInt) (y : TVec CTy) (h : Heap CInt) (a : ℕ → ℕ → ℤ)
    (f : ℕ → ℤ) (hA : A.Holds h fun i j => ofInt y.elt (a i j))
    (hx : x.Holds h fun i => ofInt y.elt (f i)) (hy : y.Alloc h) (hrows : y.ext = A.rows)
    (hcols : A.cols ≤ x.ext) (hu : y.Unique) (hAy : Apart A.toMat.Cell y.Cell)
    (hxy : Apart x.toVec.Cell y.Cell) (hsafe : y.elt.Safe) :
    Ends (Mixed.gemv A x y) h fun _ h' =>
      y.Becomes h h' fun i => ofInt y.elt (mulVec A.cols a f i) :=
  (C57_gemv A x y h _ _ hA hx hy hrows hcols hu hAy hxy).mono fun _ _ hb =>
    Vec.Becomes.congr hb fun _ _ =>
      (Term.leftSumAs 0 fun _ _ => term_mul hsafe _ _).trans (by rw [zero_add]; rfl)

example : Ends (Mixed.gemv (W.view : MatV CInt) x.view ⟨⟨2, y.addr⟩, .u8⟩) (heap CInt)
    fun _ h' =>
      (⟨2, y.addr⟩ : Vec).Becomes (heap CInt) h' fun i => ofInt .u8 (mulVec W.cols (imvals W) (ivals x) i) :=
  C69_gemv _ _ _ _ _ _ (mholdsV bW) (holdsV bx)
    (alloc fun i hi => by_ i (by simp only [y] at *; omega)) rfl le_rfl
    (by view_facts) (by view_facts) (by view_facts) (.inr (.inl rfl))

/-- **C69** `matrix_vector_product(A, x, y, z)`: modulo `2 ^ bits`, without undefined behaviour. -/
theorem C69_gemv_update (A : MatV CInt) (x y : VecV CInt) (z : TVec CTy) (h : Heap CInt)
    (a : ℕ → ℕ → ℤ) (f g : ℕ → ℤ) (hA : A.Holds h fun i j => ofInt z.elt (a i j))
    (hx : x.Holds h fun i => ofInt z.elt (f i)) (hy : y.Holds h fun i => ofInt z.elt (g i))
    (hz : z.Alloc h) (hrows : z.ext = A.rows) (hcols : A.cols ≤ x.ext) (hye : A.rows ≤ y.ext)
    (hu : z.Unique) (hAz : Apart A.toMat.Cell z.Cell) (hxz : Apart x.toVec.Cell z.Cell)
    (hyz : y.toVec.Aligned z.toVec) (hsafe : z.elt.Safe) :
    Ends (Mixed.gemvUpdate A x y z) h fun _ h' =>
      z.Becomes h h' fun i => ofInt z.elt (g i + mulVec A.cols a f i) :=
  (C57_gemv_update A x y z h _ _ _ hA hx hy hz hrows hcols hye hu hAz hxz hyz).mono fun _ _ hb =>
    Vec.Becomes.congr hb fun _ _ =>
      by rw [conv_ofInt]; exact Term.leftSumAs _ fun _ _ => term_mul hsafe _ _

example : Ends (Mixed.gemvUpdate (A.view : MatV CInt) x.view y.view ⟨y, .u8⟩) (heap CInt)
    fun _ h' =>
      y.Becomes (heap CInt) h' fun i => ofInt .u8 ((ivals y) i + mulVec A.cols (imvals A) (ivals x) i) :=
  C69_gemv_update _ _ _ _ _ _ _ _ (mholdsV bA) (holdsV bx) (holdsV by_) (alloc by_) rfl le_rfl
    le_rfl (by view_facts) (by view_facts) (by view_facts) (by view_facts) (.inr (.inl rfl))

/-- **C69** `symmetric_matrix_vector_product(A, t, x, y)`: modulo `2 ^ bits`, without undefined behaviour. -/
theorem C69_symv (A : MatV CInt) (t : Triangle) (x : VecV CInt) (y : TVec CTy) (h : Heap CInt)
    (a : ℕ → ℕ → ℤ) (f : ℕ → ℤ) (hA : A.HoldsOn h t.region fun i j => ofInt y.elt (a i j))
    (hx : x.Holds h fun i => ofInt y.elt (f i)) (hy : y.Alloc h) (hsq : A.rows = A.cols)
    (hext : A.rows = y.ext) (hxe : A.cols ≤ x.ext) (hu : y.Unique)
    (hAy : Apart (A.toMat.CellOn t.region) y.Cell) (hxy : Apart x.toVec.Cell y.Cell)
    (hsafe : y.elt.Safe) :
    Ends (Mixed.symv A t x y) h fun _ h' =>
      y.Becomes h h' fun i => ofInt y.elt (mulVec A.cols (symOf t a) f i) :=
  (C57_symv A t x y h _ _ hA hx hy hsq hext hxe hu hAy hxy).mono fun _ _ hb =>
    Vec.Becomes.congr hb fun _ _ =>
      (Term.leftSumAs 0 fun _ _ => by rw [symOf_ofInt]; exact term_mul hsafe _ _).trans (by rw [zero_add]; rfl)

example (t : Triangle) : Ends (Mixed.symv (A.view : MatV CInt) t x.view ⟨y, .u8⟩) (heap CInt)
    fun _ h' =>
      y.Becomes (heap CInt) h' fun i => ofInt .u8 (mulVec A.cols (symOf t (imvals A)) (ivals x) i) :=
  C69_symv _ _ _ _ _ _ _ (mholdsV bA) (holdsV bx) (alloc by_) rfl rfl le_rfl (by view_facts)
    (by view_facts) (by view_facts) (.inr (.inl rfl))

/-- **C69** `symmetric_matrix_vector_product(A, t, x, y, z)`: modulo `2 ^ bits`, without undefined behaviour. -/
theorem C69_symv_update (A : MatV CInt) (t : Triangle) (x y : VecV CInt) (z : TVec CTy)
    (h : Heap CInt) (a : ℕ → ℕ → ℤ) (f g : ℕ → ℤ)
    (hA : A.HoldsOn h t.region fun i j => ofInt z.elt (a i j))
    (hx : x.Holds h fun i => ofInt z.elt (f i)) (hy : y.Holds h fun i => ofInt z.elt (g i))
    (hz : z.Alloc h) (hsq : A.rows = A.cols) (hext : A.rows = z.ext) (hxe : A.cols ≤ x.ext)
    (hye : A.rows ≤ y.ext) (hu : z.Unique) (hAz : Apart (A.toMat.CellOn t.region) z.Cell)
    (hxz : Apart x.toVec.Cell z.Cell) (hyz : y.toVec.Aligned z.toVec) (hsafe : z.elt.Safe) :
    Ends (Mixed.symvUpdate A t x y z) h fun _ h' =>
      z.Becomes h h' fun i => ofInt z.elt (g i + mulVec A.cols (symOf t a) f i) :=
  (C57_symv_update A t x y z h _ _ _ hA hx hy hz hsq hext hxe hye hu hAz hxz hyz).mono fun _ _ hb =>
    Vec.Becomes.congr hb fun _ _ =>
      by rw [conv_ofInt]; exact Term.leftSumAs _ fun _ _ => by rw [symOf_ofInt]; exact term_mul hsafe _ _

example (t : Triangle) : Ends (Mixed.symvUpdate (A.view : MatV CInt) t x.view y.view ⟨y, .u8⟩) (heap CInt)
    fun _ h' =>
      y.Becomes (heap CInt) h' fun i => ofInt .u8 ((ivals y) i + mulVec A.cols (symOf t (imvals A)) (ivals x) i) :=
  C69_symv_update _ _ _ _ _ _ _ _ _ (mholdsV bA) (holdsV bx) (holdsV by_) (alloc by_) rfl rfl
    le_rfl le_rfl (by view_facts) (by view_facts) (by view_facts) (by view_facts) (.inr (.inl rfl))

/-- **C69** `hermitian_matrix_vector_product(A, t, x, y)`: modulo `2 ^ bits`, without undefined behaviour. -/
theorem C69_hemv (A : MatV CInt) (t : Triangle) (x : VecV CInt) (y : TVec CTy) (h : Heap CInt)
    (a : ℕ → ℕ → ℤ) (f : ℕ → ℤ) (hA : A.HoldsOn h t.region fun i j => ofInt y.elt (a i j))
    (hx : x.Holds h fun i => ofInt y.elt (f i)) (hy : y.Alloc h) (hsq : A.rows = A.cols)
    (hext : A.rows = y.ext) (hxe : A.cols ≤ x.ext) (hu : y.Unique)
    (hAy : Apart (A.toMat.CellOn t.region) y.Cell) (hxy : Apart x.toVec.Cell y.Cell)
    (hsafe : y.elt.Safe) :
    Ends (Mixed.hemv A t x y) h fun _ h' =>
      y.Becomes h h' fun i => ofInt y.elt (mulVec A.cols (symOf t a) f i) :=
  (C57_hemv A t x y h _ _ hA hx hy hsq hext hxe hu hAy hxy).mono fun _ _ hb =>
    Vec.Becomes.congr hb fun _ _ =>
      (Term.leftSumAs 0 fun _ _ => by rw [hermOf_ofInt]; exact term_mul hsafe _ _).trans (by rw [zero_add]; rfl)

example (t : Triangle) : Ends (Mixed.hemv (A.view : MatV CInt) t x.view ⟨y, .u8⟩) (heap CInt)
    fun _ h' =>
      y.Becomes (heap CInt) h' fun i => ofInt .u8 (mulVec A.cols (symOf t (imvals A)) (ivals x) i) :=
  C69_hemv _ _ _ _ _ _ _ (mholdsV bA) (holdsV bx) (alloc by_) rfl rfl le_rfl (by view_facts)
    (by view_facts) (by view_facts) (.inr (.inl rfl))

/-- **C69** `hermitian_matrix_vector_product(A, t, x, y, z)`: modulo `2 ^ bits`, without undefined behaviour. -/
theorem C69_hemv_update (A : MatV CInt) (t : Triangle) (x y : VecV CInt) (z : TVec CTy)
    (h : Heap CInt) (a : ℕ → ℕ → ℤ) (f g : ℕ → ℤ)
    (hA : A.HoldsOn h t.region fun i j => ofInt z.elt (a i j))
    (hx : x.Holds h fun i => ofInt z.elt (f i)) (hy : y.Holds h fun i => ofInt z.elt (g i))
    (hz : z.Alloc h) (hsq : A.rows = A.cols) (hext : A.rows = z.ext) (hxe : A.cols ≤ x.ext)
    (hye : A.rows ≤ y.ext) (hu : z.Unique) (hAz : Apart (A.toMat.CellOn t.region) z.Cell)
    (hxz : Apart x.toVec.Cell z.Cell) (hyz : y.toVec.Aligned z.toVec) (hsafe : z.elt.Safe) :
    Ends (Mixed.hemvUpdate A t x y z) h fun _ h' =>
      z.Becomes h h' fun i => ofInt z.elt (g i + mulVec A.cols (symOf t a) f i) :=
  (C57_hemv_update A t x y z h _ _ _ hA hx hy hz hsq hext hxe hye hu hAz hxz hyz).mono fun _ _ hb =>
    Vec.Becomes.congr hb fun _ _ =>
      by rw [conv_ofInt]; exact Term.leftSumAs _ fun _ _ => by rw [hermOf_ofInt]; exact term_mul hsafe _ _

example (t : Triangle) : Ends (Mixed.hemvUpdate (A.view : MatV CInt) t x.view y.view ⟨y, .u8⟩) (heap CInt)
    fun _ h' =>
      y.Becomes (heap CInt) h' fun i => ofInt .u8 ((ivals y) i + mulVec A.cols (symOf t (imvals A)) (ivals x) i) :=
  C69_hemv_update _ _ _ _ _ _ _ _ _ (mholdsV bA) (holdsV bx) (holdsV by_) (alloc by_) rfl rfl
    le_rfl le_rfl (by view_facts) (by view_facts) (by view_facts) (by view_facts) (.inr (.inl rfl))

/-- **C69** `triangular_matrix_vector_product(A, t, d, x, y)`: modulo `2 ^ bits`, without undefined behaviour. -/
theorem C69_trmv (A : MatV CInt) (t : Triangle) (d : Diag) (x : VecV CInt) (y : TVec CTy)
    (h : Heap CInt) (a : ℕ → ℕ → ℤ) (f : ℕ → ℤ)
    (hA : A.HoldsOn h (triRegion t d) fun i j => ofInt y.elt (a i j))
    (hx : x.Holds h fun i => ofInt y.elt (f i)) (hy : y.Alloc h) (hsq : A.rows = A.cols)
    (hext : A.rows = y.ext) (hxe : A.cols ≤ x.ext) (hu : y.Unique)
    (hAy : Apart (A.toMat.CellOn (triRegion t d)) y.Cell) (hxy : Apart x.toVec.Cell y.Cell)
    (hsafe : y.elt.Safe) :
    Ends (Mixed.trmv A t d x y) h fun _ h' =>
      y.Becomes h h' fun i => ofInt y.elt (mulVec A.cols (triOf t d a) f i) :=
  (C57_trmv A t d x y h _ _ hA hx hy hsq hext hxe hu hAy hxy).mono fun _ _ hb =>
    Vec.Becomes.congr hb fun _ hi =>
      (triSeqAs_ofInt hsafe t d a f 0 (by omega)).trans (by rw [zero_add])

example (t : Triangle) (d : Diag) : Ends (Mixed.trmv (A.view : MatV CInt) t d x.view ⟨y, .u8⟩) (heap CInt)
    fun _ h' =>
      y.Becomes (heap CInt) h' fun i => ofInt .u8 (mulVec A.cols (triOf t d (imvals A)) (ivals x) i) :=
  C69_trmv _ _ _ _ _ _ _ _ (mholdsV bA) (holdsV bx) (alloc by_) rfl rfl le_rfl (by view_facts)
    (by view_facts) (by view_facts) (.inr (.inl rfl))

/-- **C69** `triangular_matrix_vector_product(A, t, d, x, y, z)`: modulo `2 ^ bits`, without undefined behaviour. -/
theorem C69_trmv_update (A : MatV CInt) (t : Triangle) (d : Diag) (x y : VecV CInt) (z : TVec CTy)
    (h : Heap CInt) (a : ℕ → ℕ → ℤ) (f g : ℕ → ℤ)
    (hA : A.HoldsOn h (triRegion t d) fun i j => ofInt z.elt (a i j))
    (hx : x.Holds h fun i => ofInt z.elt (f i)) (hy : y.Holds h fun i => ofInt z.elt (g i))
    (hz : z.Alloc h) (hsq : A.rows = A.cols) (hext : A.rows = z.ext) (hxe : A.cols ≤ x.ext)
    (hye : A.rows ≤ y.ext) (hu : z.Unique) (hAz : Apart (A.toMat.CellOn (triRegion t d)) z.Cell)
    (hxz : Apart x.toVec.Cell z.Cell) (hyz : y.toVec.Aligned z.toVec) (hsafe : z.elt.Safe) :
    Ends (Mixed.trmvUpdate A t d x y z) h fun _ h' =>
      z.Becomes h h' fun i => ofInt z.elt (g i + mulVec A.cols (triOf t d a) f i) :=
  (C57_trmv_update A t d x y z h _ _ _ hA hx hy hz hsq hext hxe hye hu hAz hxz hyz).mono fun _ _ hb =>
    Vec.Becomes.congr hb fun _ hi =>
      by rw [conv_ofInt]; exact (triSeqAs_ofInt hsafe t d a f _ (by omega))

example (t : Triangle) (d : Diag) : Ends (Mixed.trmvUpdate (A.view : MatV CInt) t d x.view y.view ⟨y, .u8⟩) (heap CInt)
    fun _ h' =>
      y.Becomes (heap CInt) h' fun i => ofInt .u8 ((ivals y) i + mulVec A.cols (triOf t d (imvals A)) (ivals x) i) :=
  C69_trmv_update _ _ _ _ _ _ _ _ _ _ (mholdsV bA) (holdsV bx) (holdsV by_) (alloc by_) rfl rfl
    le_rfl le_rfl (by view_facts) (by view_facts) (by view_facts) (by view_facts) (.inr (.inl rfl))

/-- **C69** `matrix_product(A, B, C)`: modulo `2 ^ bits`, without undefined behaviour. -/
theorem C69_gemm (A B : MatV CInt) (C : TMat CTy) (h : Heap CInt) (a b : ℕ → ℕ → ℤ)
    (hA : A.Holds h fun i j => ofInt C.elt (a i j))
    (hB : B.Holds h fun i j => ofInt C.elt (b i j)) (hC : C.Alloc h) (hr : C.rows = A.rows)
    (hk : A.cols = B.rows) (hc : C.cols = B.cols) (hu : C.Unique)
    (hAC : Apart A.toMat.Cell C.Cell) (hBC : Apart B.toMat.Cell C.Cell) (hsafe : C.elt.Safe) :
    Ends (Mixed.gemm A B C) h fun _ h' =>
      C.Becomes h h' fun i j => ofInt C.elt (mulMat A.cols a b i j) :=
  (C57_gemm A B C h _ _ hA hB hC hr hk hc hu hAC hBC).mono fun _ _ hb =>
    Mat.BecomesOn.congr hb fun _ _ _ _ _ =>
      (Term.leftSumAs 0 fun _ _ => term_mul hsafe _ _).trans (by rw [zero_add]; rfl)

example : Ends (Mixed.gemm (T.view : MatV CInt) W.view ⟨C, .u8⟩) (heap CInt)
    fun _ h' =>
      C.Becomes (heap CInt) h' fun i j => ofInt .u8 (mulMat T.cols (imvals T) (imvals W) i j) :=
  C69_gemm _ _ _ _ _ _ (mholdsV bT) (mholdsV bW) (malloc bC) rfl rfl rfl
    (by view_facts) (by view_facts) (by view_facts) (.inr (.inl rfl))

/-- **C69** `matrix_product(A, B, E, C)`: modulo `2 ^ bits`, without undefined behaviour. -/
theorem C69_gemm_update (A B E : MatV CInt) (C : TMat CTy) (h : Heap CInt) (a b e : ℕ → ℕ → ℤ)
    (hA : A.Holds h fun i j => ofInt C.elt (a i j))
    (hB : B.Holds h fun i j => ofInt C.elt (b i j))
    (hE : E.Holds h fun i j => ofInt C.elt (e i j)) (hC : C.Alloc h) (hr : C.rows = A.rows)
    (hk : A.cols = B.rows) (hc : C.cols = B.cols) (her : C.rows ≤ E.rows) (hec : C.cols ≤ E.cols)
    (hu : C.Unique) (hAC : Apart A.toMat.Cell C.Cell) (hBC : Apart B.toMat.Cell C.Cell)
    (hEC : E.toMat.Aligned C.toMat) (hsafe : C.elt.Safe) :
    Ends (Mixed.gemmUpdate A B E C) h fun _ h' =>
      C.Becomes h h' fun i j => ofInt C.elt (e i j + mulMat A.cols a b i j) :=
  (C57_gemm_update A B E C h _ _ _ hA hB hE hC hr hk hc her hec hu hAC hBC hEC).mono fun _ _ hb =>
    Mat.BecomesOn.congr hb fun _ _ _ _ _ =>
      by rw [conv_ofInt]; exact Term.leftSumAs _ fun _ _ => term_mul hsafe _ _

example : Ends (Mixed.gemmUpdate (T.view : MatV CInt) W.view C.view ⟨C, .u8⟩) (heap CInt)
    fun _ h' =>
      C.Becomes (heap CInt) h' fun i j => ofInt .u8 ((imvals C) i j + mulMat T.cols (imvals T) (imvals W) i j) :=
  C69_gemm_update _ _ _ _ _ _ _ _ (mholdsV bT) (mholdsV bW) (mholdsV bC) (malloc bC) rfl rfl
    rfl le_rfl le_rfl (by view_facts) (by view_facts) (by view_facts) (by view_facts) (.inr (.inl rfl))

/-- **C69** `symmetric_matrix_product(A, t, B, C)`: modulo `2 ^ bits`, without undefined behaviour. -/
theorem C69_symm_left (A : MatV CInt) (t : Triangle) (B : MatV CInt) (C : TMat CTy)
    (h : Heap CInt) (a b : ℕ → ℕ → ℤ) (hA : A.HoldsOn h t.region fun i j => ofInt C.elt (a i j))
    (hB : B.Holds h fun i j => ofInt C.elt (b i j)) (hC : C.Alloc h) (hsq : A.rows = A.cols)
    (hr : C.rows = A.rows) (hk : A.cols = B.rows) (hc : C.cols = B.cols) (hu : C.Unique)
    (hAC : Apart (A.toMat.CellOn t.region) C.Cell) (hBC : Apart B.toMat.Cell C.Cell)
    (hsafe : C.elt.Safe) :
    Ends (Mixed.symmLeft A t B C) h fun _ h' =>
      C.Becomes h h' fun i j => ofInt C.elt (mulMat A.cols (symOf t a) b i j) :=
  (C57_symm_left A t B C h _ _ hA hB hC hsq hr hk hc hu hAC hBC).mono fun _ _ hb =>
    Mat.BecomesOn.congr hb fun _ _ _ _ _ =>
      (Term.leftSumAs 0 fun _ _ => by rw [symOf_ofInt]; exact term_mul hsafe _ _).trans (by rw [zero_add]; rfl)

example (t : Triangle) : Ends (Mixed.symmLeft (A.view : MatV CInt) t T.view ⟨⟨3, 2, C.addr⟩, .u8⟩) (heap CInt)
    fun _ h' =>
      (⟨3, 2, C.addr⟩ : Mat).Becomes (heap CInt) h' fun i j => ofInt .u8 (mulMat A.cols (symOf t (imvals A)) (imvals T) i j) :=
  C69_symm_left _ _ _ _ _ _ _ (mholdsV bA) (mholdsV bT)
    (malloc fun i j hi hj => bC i j hi (by simp only [C] at *; omega)) rfl rfl rfl rfl
    (by view_facts) (by view_facts) (by view_facts) (.inr (.inl rfl))

/-- **C69** `hermitian_matrix_product(A, t, B, C)`: modulo `2 ^ bits`, without undefined behaviour. -/
theorem C69_hemm_left (A : MatV CInt) (t : Triangle) (B : MatV CInt) (C : TMat CTy)
    (h : Heap CInt) (a b : ℕ → ℕ → ℤ) (hA : A.HoldsOn h t.region fun i j => ofInt C.elt (a i j))
    (hB : B.Holds h fun i j => ofInt C.elt (b i j)) (hC : C.Alloc h) (hsq : A.rows = A.cols)
    (hr : C.rows = A.rows) (hk : A.cols = B.rows) (hc : C.cols = B.cols) (hu : C.Unique)
    (hAC : Apart (A.toMat.CellOn t.region) C.Cell) (hBC : Apart B.toMat.Cell C.Cell)
    (hsafe : C.elt.Safe) :
    Ends (Mixed.hemmLeft A t B C) h fun _ h' =>
      C.Becomes h h' fun i j => ofInt C.elt (mulMat A.cols (symOf t a) b i j) :=
  (C57_hemm_left A t B C h _ _ hA hB hC hsq hr hk hc hu hAC hBC).mono fun _ _ hb =>
    Mat.BecomesOn.congr hb fun _ _ _ _ _ =>
      (Term.leftSumAs 0 fun _ _ => by rw [hermOf_ofInt]; exact term_mul hsafe _ _).trans (by rw [zero_add]; rfl)

example (t : Triangle) : Ends (Mixed.hemmLeft (A.view : MatV CInt) t T.view ⟨⟨3, 2, C.addr⟩, .u8⟩) (heap CInt)
    fun _ h' =>
      (⟨3, 2, C.addr⟩ : Mat).Becomes (heap CInt) h' fun i j => ofInt .u8 (mulMat A.cols (symOf t (imvals A)) (imvals T) i j) :=
  C69_hemm_left _ _ _ _ _ _ _ (mholdsV bA) (mholdsV bT)
    (malloc fun i j hi hj => bC i j hi (by simp only [C] at *; omega)) rfl rfl rfl rfl
    (by view_facts) (by view_facts) (by view_facts) (.inr (.inl rfl))

/-- **C69** `symmetric_matrix_product(B, A, t, C)`: modulo `2 ^ bits`, without undefined behaviour. -/
theorem C69_symm_right (A : MatV CInt) (t : Triangle) (B : MatV CInt) (C : TMat CTy)
    (h : Heap CInt) (a b : ℕ → ℕ → ℤ) (hA : A.HoldsOn h t.region fun i j => ofInt C.elt (a i j))
    (hB : B.Holds h fun i j => ofInt C.elt (b i j)) (hC : C.Alloc h) (hsq : A.rows = A.cols)
    (hr : C.rows = B.rows) (hk : B.cols = A.rows) (hc : C.cols = A.cols) (hu : C.Unique)
    (hAC : Apart (A.toMat.CellOn t.region) C.Cell) (hBC : Apart B.toMat.Cell C.Cell)
    (hsafe : C.elt.Safe) :
    Ends (Mixed.symmRight B A t C) h fun _ h' =>
      C.Becomes h h' fun i j => ofInt C.elt (mulMat A.cols b (symOf t a) i j) :=
  (C57_symm_right A t B C h _ _ hA hB hC hsq hr hk hc hu hAC hBC).mono fun _ _ hb =>
    Mat.BecomesOn.congr hb fun _ _ _ _ _ =>
      (Term.leftSumAs 0 fun _ _ => by rw [symOf_ofInt]; exact term_mul hsafe _ _).trans (by rw [zero_add]; rfl)

example (t : Triangle) : Ends (Mixed.symmRight (W.view : MatV CInt) A.view t ⟨⟨2, 3, C.addr⟩, .u8⟩) (heap CInt)
    fun _ h' =>
      (⟨2, 3, C.addr⟩ : Mat).Becomes (heap CInt) h' fun i j => ofInt .u8 (mulMat A.cols (imvals W) (symOf t (imvals A)) i j) :=
  C69_symm_right _ _ _ _ _ _ _ (mholdsV bA) (mholdsV bW)
    (malloc fun i j hi hj => bC i j (by simp only [C] at *; omega) hj) rfl rfl rfl rfl
    (by view_facts) (by view_facts) (by view_facts) (.inr (.inl rfl))

/-- **C69** `hermitian_matrix_product(B, A, t, C)`: modulo `2 ^ bits`, without undefined behaviour. -/
theorem C69_hemm_right (A : MatV CInt) (t : Triangle) (B : MatV CInt) (C : TMat CTy)
    (h : Heap CInt) (a b : ℕ → ℕ → ℤ) (hA : A.HoldsOn h t.region fun i j => ofInt C.elt (a i j))
    (hB : B.Holds h fun i j => ofInt C.elt (b i j)) (hC : C.Alloc h) (hsq : A.rows = A.cols)
    (hr : C.rows = B.rows) (hk : B.cols = A.rows) (hc : C.cols = A.cols) (hu : C.Unique)
    (hAC : Apart (A.toMat.CellOn t.region) C.Cell) (hBC : Apart B.toMat.Cell C.Cell)
    (hsafe : C.elt.Safe) :
    Ends (Mixed.hemmRight B A t C) h fun _ h' =>
      C.Becomes h h' fun i j => ofInt C.elt (mulMat A.cols b (symOf t a) i j) :=
  (C57_hemm_right A t B C h _ _ hA hB hC hsq hr hk hc hu hAC hBC).mono fun _ _ hb =>
    Mat.BecomesOn.congr hb fun _ _ _ _ _ =>
      (Term.leftSumAs 0 fun _ _ => by rw [hermOf_diag_ofInt]; exact term_mul hsafe _ _).trans (by rw [zero_add]; rfl)

example (t : Triangle) : Ends (Mixed.hemmRight (W.view : MatV CInt) A.view t ⟨⟨2, 3, C.addr⟩, .u8⟩) (heap CInt)
    fun _ h' =>
      (⟨2, 3, C.addr⟩ : Mat).Becomes (heap CInt) h' fun i j => ofInt .u8 (mulMat A.cols (imvals W) (symOf t (imvals A)) i j) :=
  C69_hemm_right _ _ _ _ _ _ _ (mholdsV bA) (mholdsV bW)
    (malloc fun i j hi hj => bC i j (by simp only [C] at *; omega) hj) rfl rfl rfl rfl
    (by view_facts) (by view_facts) (by view_facts) (.inr (.inl rfl))

/-- **C69** `triangular_matrix_product(A, t, d, B, C)`: modulo `2 ^ bits`, without undefined behaviour. -/
theorem C69_trmm_left (A : MatV CInt) (t : Triangle) (d : Diag) (B : MatV CInt) (C : TMat CTy)
    (h : Heap CInt) (a b : ℕ → ℕ → ℤ)
    (hA : A.HoldsOn h (triRegion t d) fun i j => ofInt C.elt (a i j))
    (hB : B.Holds h fun i j => ofInt C.elt (b i j)) (hC : C.Alloc h) (hsq : A.rows = A.cols)
    (hr : C.rows = A.rows) (hk : A.cols = B.rows) (hc : C.cols = B.cols) (hu : C.Unique)
    (hAC : Apart (A.toMat.CellOn (triRegion t d)) C.Cell) (hBC : Apart B.toMat.Cell C.Cell)
    (hsafe : C.elt.Safe) :
    Ends (Mixed.trmmLeft A t d B C) h fun _ h' =>
      C.Becomes h h' fun i j => ofInt C.elt (mulMat A.cols (triOf t d a) b i j) :=
  (C57_trmm_left A t d B C h _ _ hA hB hC hsq hr hk hc hu hAC hBC).mono fun _ _ hb =>
    Mat.BecomesOn.congr hb fun _ _ hi _ _ =>
      hsq ▸ trmm_left_ofInt hsafe (by omega)

example (t : Triangle) (d : Diag) : Ends (Mixed.trmmLeft (A.view : MatV CInt) t d T.view ⟨⟨3, 2, C.addr⟩, .u8⟩) (heap CInt)
    fun _ h' =>
      (⟨3, 2, C.addr⟩ : Mat).Becomes (heap CInt) h' fun i j => ofInt .u8 (mulMat A.cols (triOf t d (imvals A)) (imvals T) i j) :=
  C69_trmm_left _ _ _ _ _ _ _ _ (mholdsV bA) (mholdsV bT)
    (malloc fun i j hi hj => bC i j hi (by simp only [C] at *; omega)) rfl rfl rfl rfl
    (by view_facts) (by view_facts) (by view_facts) (.inr (.inl rfl))

/-- **C69** `triangular_matrix_product(B, A, t, d, C)`: modulo `2 ^ bits`, without undefined behaviour. -/
theorem C69_trmm_right (A : MatV CInt) (t : Triangle) (d : Diag) (B : MatV CInt) (C : TMat CTy)
    (h : Heap CInt) (a b : ℕ → ℕ → ℤ)
    (hA : A.HoldsOn h (triRegion t d) fun i j => ofInt C.elt (a i j))
    (hB : B.Holds h fun i j => ofInt C.elt (b i j)) (hC : C.Alloc h) (hsq : A.rows = A.cols)
    (hr : C.rows = B.rows) (hk : B.cols = A.rows) (hc : C.cols = A.cols) (hu : C.Unique)
    (hAC : Apart (A.toMat.CellOn (triRegion t d)) C.Cell) (hBC : Apart B.toMat.Cell C.Cell)
    (hsafe : C.elt.Safe) :
    Ends (Mixed.trmmRight B A t d C) h fun _ h' =>
      C.Becomes h h' fun i j => ofInt C.elt (mulMat A.cols b (triOf t d a) i j) :=
  (C57_trmm_right A t d B C h _ _ hA hB hC hsq hr hk hc hu hAC hBC).mono fun _ _ hb =>
    Mat.BecomesOn.congr hb fun _ _ _ hj _ =>
      hsq ▸ trmm_right_ofInt hsafe (by omega)

example (t : Triangle) (d : Diag) : Ends (Mixed.trmmRight (W.view : MatV CInt) A.view t d ⟨⟨2, 3, C.addr⟩, .u8⟩) (heap CInt)
    fun _ h' =>
      (⟨2, 3, C.addr⟩ : Mat).Becomes (heap CInt) h' fun i j => ofInt .u8 (mulMat A.cols (imvals W) (triOf t d (imvals A)) i j) :=
  C69_trmm_right _ _ _ _ _ _ _ _ (mholdsV bA) (mholdsV bW)
    (malloc fun i j hi hj => bC i j (by simp only [C] at *; omega) hj) rfl rfl rfl rfl
    (by view_facts) (by view_facts) (by view_facts) (.inr (.inl rfl))

/-- **C69** `matrix_rank_1_update(x, y, A)`: modulo `2 ^ bits`, without undefined behaviour. -/
theorem C69_ger (x y : VecV CInt) (A : TMat CTy) (h : Heap CInt) (f g : ℕ → ℤ) (a : ℕ → ℕ → ℤ)
    (hx : x.Holds h fun i => ofInt A.elt (f i)) (hy : y.Holds h fun i => ofInt A.elt (g i))
    (hA : A.Holds h fun i j => ofInt A.elt (a i j)) (hxe : A.rows ≤ x.ext) (hye : A.cols ≤ y.ext)
    (hu : A.Unique) (hxA : Apart x.toVec.Cell A.Cell) (hyA : Apart y.toVec.Cell A.Cell)
    (hsafe : A.elt.Safe) :
    Ends (Mixed.ger x y A) h fun _ h' =>
      A.Becomes h h' fun i j => ofInt A.elt (a i j + f i * g j) :=
  (C57_ger x y A h _ _ _ hx hy hA hxe hye hu hxA hyA).mono fun _ _ hb =>
    Mat.BecomesOn.congr hb fun _ _ _ _ _ =>
      term_mul hsafe _ _ _

example : Ends (Mixed.ger (x.view : VecV CInt) y.view ⟨C, .u8⟩) (heap CInt)
    fun _ h' =>
      C.Becomes (heap CInt) h' fun i j => ofInt .u8 ((imvals C) i j + (ivals x) i * (ivals y) j) :=
  C69_ger _ _ _ _ _ _ _ (holdsV bx) (holdsV by_) (mholds bC) le_rfl le_rfl
    (by view_facts) (by view_facts) (by view_facts) (.inr (.inl rfl))

/-- **C69** `matrix_rank_1_update_c(x, y, A)`: modulo `2 ^ bits`, without undefined behaviour. -/
theorem C69_gerc (x y : VecV CInt) (A : TMat CTy) (h : Heap CInt) (f g : ℕ → ℤ) (a : ℕ → ℕ → ℤ)
    (hx : x.Holds h fun i => ofInt A.elt (f i)) (hy : y.Holds h fun i => ofInt A.elt (g i))
    (hA : A.Holds h fun i j => ofInt A.elt (a i j)) (hxe : A.rows ≤ x.ext) (hye : A.cols ≤ y.ext)
    (hu : A.Unique) (hxA : Apart x.toVec.Cell A.Cell) (hyA : Apart y.toVec.Cell A.Cell)
    (hsafe : A.elt.Safe) :
    Ends (Mixed.gerc x y A) h fun _ h' =>
      A.Becomes h h' fun i j => ofInt A.elt (a i j + f i * g j) :=
  (C57_gerc x y A h _ _ _ hx hy hA hxe hye hu hxA hyA).mono fun _ _ hb =>
    Mat.BecomesOn.congr hb fun _ _ _ _ _ =>
      term_mul hsafe _ _ _

example : Ends (Mixed.gerc (x.view : VecV CInt) y.view ⟨A, .u8⟩) (heap CInt)
    fun _ h' =>
      A.Becomes (heap CInt) h' fun i j => ofInt .u8 ((imvals A) i j + (ivals x) i * (ivals y) j) :=
  C69_gerc _ _ _ _ _ _ _ (holdsV bx) (holdsV by_) (mholds bA) le_rfl le_rfl
    (by view_facts) (by view_facts) (by view_facts) (.inr (.inl rfl))

/-- **C69** `symmetric_matrix_rank_1_update(x, A, t)`: modulo `2 ^ bits`, without undefined behaviour. -/
theorem C69_syr (x : VecV CInt) (A : TMat CTy) (t : Triangle) (h : Heap CInt) (f : ℕ → ℤ)
    (a : ℕ → ℕ → ℤ) (hx : x.Holds h fun i => ofInt A.elt (f i))
    (hA : A.HoldsOn h t.region fun i j => ofInt A.elt (a i j)) (hsq : A.rows = A.cols)
    (hxe : A.rows ≤ x.ext) (hu : A.UniqueOn t.region)
    (hxA : Apart x.toVec.Cell (A.CellOn t.region)) (hsafe : A.elt.Safe) :
    Ends (Mixed.syr x A t) h fun _ h' =>
      A.BecomesOn h h' t.region fun i j => ofInt A.elt (a i j + f i * f j) :=
  (C57_syr x A t h _ _ hx hA hsq hxe hu hxA).mono fun _ _ hb =>
    Mat.BecomesOn.congr hb fun _ _ _ _ _ =>
      term_mul hsafe _ _ _

example (t : Triangle) : Ends (Mixed.syr (x.view : VecV CInt) ⟨B, .u8⟩ t) (heap CInt)
    fun _ h' =>
      B.BecomesOn (heap CInt) h' t.region fun i j => ofInt .u8 ((imvals B) i j + (ivals x) i * (ivals x) j) :=
  C69_syr _ _ _ _ _ _ (holdsV bx) (mholds bB) rfl le_rfl (by view_facts) (by view_facts) (.inr (.inl rfl))

/-- **C69** `symmetric_matrix_rank_1_update(alpha, x, A, t)`: modulo `2 ^ bits`, without undefined behaviour. -/
theorem C69_syr_alpha (alpha : ℤ) (x : VecV CInt) (A : TMat CTy) (t : Triangle) (h : Heap CInt)
    (f : ℕ → ℤ) (a : ℕ → ℕ → ℤ) (hx : x.Holds h fun i => ofInt A.elt (f i))
    (hA : A.HoldsOn h t.region fun i j => ofInt A.elt (a i j)) (hsq : A.rows = A.cols)
    (hxe : A.rows ≤ x.ext) (hu : A.UniqueOn t.region)
    (hxA : Apart x.toVec.Cell (A.CellOn t.region)) (hsafe : A.elt.Safe3) :
    Ends (Mixed.syrAlpha (ofInt A.elt alpha) x A t) h fun _ h' =>
      A.BecomesOn h h' t.region fun i j => ofInt A.elt (a i j + alpha * f i * f j) :=
  (C57_syr_alpha (ofInt A.elt alpha) x A t h _ _ hx hA hsq hxe hu hxA).mono fun _ _ hb =>
    Mat.BecomesOn.congr hb fun _ _ _ _ _ =>
      term_mul3 hsafe _ _ _ _

example : Ends (Mixed.syrAlpha (ofInt .u8 5) (x.view : VecV CInt) ⟨B, .u8⟩ .lower) (heap CInt)
    fun _ h' =>
      B.BecomesOn (heap CInt) h' (Triangle.lower).region fun i j => ofInt .u8 ((imvals B) i j + 5 * (ivals x) i * (ivals x) j) :=
  C69_syr_alpha _ _ _ _ _ _ _ (holdsV bx) (mholds bB) rfl le_rfl (by view_facts) (by view_facts) (.inr (.inl rfl))

/-- **C69** `hermitian_matrix_rank_1_update(x, A, t)`: modulo `2 ^ bits`, without undefined behaviour. -/
theorem C69_her (x : VecV CInt) (A : TMat CTy) (t : Triangle) (h : Heap CInt) (f : ℕ → ℤ)
    (a : ℕ → ℕ → ℤ) (hx : x.Holds h fun i => ofInt A.elt (f i))
    (hA : A.HoldsOn h t.region fun i j => ofInt A.elt (a i j)) (hsq : A.rows = A.cols)
    (hxe : A.rows ≤ x.ext) (hu : A.UniqueOn t.region)
    (hxA : Apart x.toVec.Cell (A.CellOn t.region)) (hsafe : A.elt.Safe) :
    Ends (Mixed.her x A t) h fun _ h' =>
      A.BecomesOn h h' t.region fun i j => ofInt A.elt (a i j + f i * f j) :=
  (C57_her x A t h _ _ hx hA hsq hxe hu hxA).mono fun _ _ hb =>
    Mat.BecomesOn.congr hb fun _ _ _ _ _ =>
      by rw [diag_ofInt]; exact term_mul hsafe _ _ _

example : Ends (Mixed.her (x.view : VecV CInt) ⟨B, .u8⟩ .lower) (heap CInt)
    fun _ h' =>
      B.BecomesOn (heap CInt) h' (Triangle.lower).region fun i j => ofInt .u8 ((imvals B) i j + (ivals x) i * (ivals x) j) :=
  C69_her _ _ _ _ _ _ (holdsV bx) (mholds bB) rfl le_rfl (by view_facts) (by view_facts) (.inr (.inl rfl))

/-- **C69** `hermitian_matrix_rank_1_update(alpha, x, A, t)`: modulo `2 ^ bits`, without undefined behaviour. -/
theorem C69_her_alpha (alpha : ℤ) (x : VecV CInt) (A : TMat CTy) (t : Triangle) (h : Heap CInt)
    (f : ℕ → ℤ) (a : ℕ → ℕ → ℤ) (hx : x.Holds h fun i => ofInt A.elt (f i))
    (hA : A.HoldsOn h t.region fun i j => ofInt A.elt (a i j)) (hsq : A.rows = A.cols)
    (hxe : A.rows ≤ x.ext) (hu : A.UniqueOn t.region)
    (hxA : Apart x.toVec.Cell (A.CellOn t.region)) (hsafe : A.elt.Safe3) :
    Ends (Mixed.herAlpha (ofInt A.elt alpha) x A t) h fun _ h' =>
      A.BecomesOn h h' t.region fun i j => ofInt A.elt (a i j + alpha * f i * f j) :=
  (C57_her_alpha (ofInt A.elt alpha) x A t h _ _ hx hA hsq hxe hu hxA).mono fun _ _ hb =>
    Mat.BecomesOn.congr hb fun _ _ _ _ _ =>
      by rw [diag_ofInt]; exact term_mul3 hsafe _ _ _ _

example : Ends (Mixed.herAlpha (ofInt .u8 5) (x.view : VecV CInt) ⟨A, .u8⟩ .upper) (heap CInt)
    fun _ h' =>
      A.BecomesOn (heap CInt) h' (Triangle.upper).region fun i j => ofInt .u8 ((imvals A) i j + 5 * (ivals x) i * (ivals x) j) :=
  C69_her_alpha _ _ _ _ _ _ _ (holdsV bx) (mholds bA) rfl le_rfl (by view_facts) (by view_facts) (.inr (.inl rfl))

/-- **C69** `symmetric_matrix_rank_k_update(A, C, t)`: modulo `2 ^ bits`, without undefined behaviour. -/
theorem C69_syrk (A : MatV CInt) (C : TMat CTy) (t : Triangle) (h : Heap CInt) (a c : ℕ → ℕ → ℤ)
    (hA : A.Holds h fun i j => ofInt C.elt (a i j))
    (hC : C.HoldsOn h t.region fun i j => ofInt C.elt (c i j)) (hsq : C.rows = C.cols)
    (hAe : C.rows ≤ A.rows) (hu : C.UniqueOn t.region)
    (hAC : Apart A.toMat.Cell (C.CellOn t.region)) (hsafe : C.elt.Safe) :
    Ends (Mixed.syrk A C t) h fun _ h' =>
      C.BecomesOn h h' t.region fun i j => ofInt C.elt (c i j + ∑ k ∈ range A.cols, a i k * a j k) :=
  (C57_syrk A C t h _ _ hA hC hsq hAe hu hAC).mono fun _ _ hb =>
    Mat.BecomesOn.congr hb fun _ _ _ _ _ =>
      Term.leftSumAs _ fun _ _ => term_mul hsafe _ _

example (t : Triangle) : Ends (Mixed.syrk (T.view : MatV CInt) ⟨C, .u8⟩ t) (heap CInt)
    fun _ h' =>
      C.BecomesOn (heap CInt) h' t.region fun i j => ofInt .u8 ((imvals C) i j + ∑ k ∈ range T.cols, (imvals T) i k * (imvals T) j k) :=
  C69_syrk _ _ _ _ _ _ (mholdsV bT) (mholds bC) rfl le_rfl (by view_facts) (by view_facts) (.inr (.inl rfl))

/-- **C69** `symmetric_matrix_rank_k_update(alpha, A, C, t)`: modulo `2 ^ bits`, without undefined behaviour. -/
theorem C69_syrk_alpha (alpha : ℤ) (A : MatV CInt) (C : TMat CTy) (t : Triangle) (h : Heap CInt)
    (a c : ℕ → ℕ → ℤ) (hA : A.Holds h fun i j => ofInt C.elt (a i j))
    (hC : C.HoldsOn h t.region fun i j => ofInt C.elt (c i j)) (hsq : C.rows = C.cols)
    (hAe : C.rows ≤ A.rows) (hu : C.UniqueOn t.region)
    (hAC : Apart A.toMat.Cell (C.CellOn t.region)) (hsafe : C.elt.Safe3) :
    Ends (Mixed.syrkAlpha (ofInt C.elt alpha) A C t) h fun _ h' =>
      C.BecomesOn h h' t.region fun i j => ofInt C.elt (c i j + ∑ k ∈ range A.cols, alpha * a i k * a j k) :=
  (C57_syrk_alpha (ofInt C.elt alpha) A C t h _ _ hA hC hsq hAe hu hAC).mono fun _ _ hb =>
    Mat.BecomesOn.congr hb fun _ _ _ _ _ =>
      Term.leftSumAs _ fun _ _ => term_mul3 hsafe _ _ _

example (t : Triangle) : Ends (Mixed.syrkAlpha (ofInt .u8 5) (T.view : MatV CInt) ⟨C, .u8⟩ t) (heap CInt)
    fun _ h' =>
      C.BecomesOn (heap CInt) h' t.region fun i j => ofInt .u8 ((imvals C) i j + ∑ k ∈ range T.cols, 5 * (imvals T) i k * (imvals T) j k) :=
  C69_syrk_alpha _ _ _ _ _ _ _ (mholdsV bT) (mholds bC) rfl le_rfl (by view_facts) (by view_facts) (.inr (.inl rfl))

/-- **C69** `hermitian_matrix_rank_k_update(A, C, t)`: modulo `2 ^ bits`, without undefined behaviour. -/
theorem C69_herk (A : MatV CInt) (C : TMat CTy) (t : Triangle) (h : Heap CInt) (a c : ℕ → ℕ → ℤ)
    (hA : A.Holds h fun i j => ofInt C.elt (a i j))
    (hC : C.HoldsOn h t.region fun i j => ofInt C.elt (c i j)) (hsq : C.rows = C.cols)
    (hAe : C.rows ≤ A.rows) (hu : C.UniqueOn t.region)
    (hAC : Apart A.toMat.Cell (C.CellOn t.region)) (hsafe : C.elt.Safe) :
    Ends (Mixed.herk A C t) h fun _ h' =>
      C.BecomesOn h h' t.region fun i j => ofInt C.elt (c i j + ∑ k ∈ range A.cols, a i k * a j k) :=
  (C57_herk A C t h _ _ hA hC hsq hAe hu hAC).mono fun _ _ hb =>
    Mat.BecomesOn.congr hb fun _ _ _ _ _ =>
      by rw [diag_ofInt]; exact Term.leftSumAs _ fun _ _ => term_mul hsafe _ _

example (t : Triangle) : Ends (Mixed.herk (T.view : MatV CInt) ⟨C, .u8⟩ t) (heap CInt)
    fun _ h' =>
      C.BecomesOn (heap CInt) h' t.region fun i j => ofInt .u8 ((imvals C) i j + ∑ k ∈ range T.cols, (imvals T) i k * (imvals T) j k) :=
  C69_herk _ _ _ _ _ _ (mholdsV bT) (mholds bC) rfl le_rfl (by view_facts) (by view_facts) (.inr (.inl rfl))

/-- **C69** `hermitian_matrix_rank_k_update(alpha, A, C, t)`: modulo `2 ^ bits`, without undefined behaviour. -/
theorem C69_herk_alpha (alpha : ℤ) (A : MatV CInt) (C : TMat CTy) (t : Triangle) (h : Heap CInt)
    (a c : ℕ → ℕ → ℤ) (hA : A.Holds h fun i j => ofInt C.elt (a i j))
    (hC : C.HoldsOn h t.region fun i j => ofInt C.elt (c i j)) (hsq : C.rows = C.cols)
    (hAe : C.rows ≤ A.rows) (hu : C.UniqueOn t.region)
    (hAC : Apart A.toMat.Cell (C.CellOn t.region)) (hsafe : C.elt.Safe3) :
    Ends (Mixed.herkAlpha (ofInt C.elt alpha) A C t) h fun _ h' =>
      C.BecomesOn h h' t.region fun i j => ofInt C.elt (c i j + ∑ k ∈ range A.cols, alpha * a i k * a j k) :=
  (C57_herk_alpha (ofInt C.elt alpha) A C t h _ _ hA hC hsq hAe hu hAC).mono fun _ _ hb =>
    Mat.BecomesOn.congr hb fun _ _ _ _ _ =>
      by rw [diag_ofInt]; exact Term.leftSumAs _ fun _ _ => term_mul3 hsafe _ _ _

example (t : Triangle) : Ends (Mixed.herkAlpha (ofInt .u8 5) (T.view : MatV CInt) ⟨C, .u8⟩ t) (heap CInt)
    fun _ h' =>
      C.BecomesOn (heap CInt) h' t.region fun i j => ofInt .u8 ((imvals C) i j + ∑ k ∈ range T.cols, 5 * (imvals T) i k * (imvals T) j k) :=
  C69_herk_alpha _ _ _ _ _ _ _ (mholdsV bT) (mholds bC) rfl le_rfl (by view_facts) (by view_facts) (.inr (.inl rfl))

/-- **C69** `symmetric_matrix_rank_2_update(x, y, A, t)`: modulo `2 ^ bits`, without undefined behaviour. -/
theorem C69_syr2 (x y : VecV CInt) (A : TMat CTy) (t : Triangle) (h : Heap CInt) (f g : ℕ → ℤ)
    (a : ℕ → ℕ → ℤ) (hx : x.Holds h fun i => ofInt A.elt (f i))
    (hy : y.Holds h fun i => ofInt A.elt (g i))
    (hA : A.HoldsOn h t.region fun i j => ofInt A.elt (a i j)) (hsq : A.rows = A.cols)
    (hxe : A.rows ≤ x.ext) (hye : A.rows ≤ y.ext) (hu : A.UniqueOn t.region)
    (hxA : Apart x.toVec.Cell (A.CellOn t.region)) (hyA : Apart y.toVec.Cell (A.CellOn t.region))
    (hsafe : A.elt.Safe3) :
    Ends (Mixed.syr2 x y A t) h fun _ h' =>
      A.BecomesOn h h' t.region fun i j => ofInt A.elt (a i j + (f i * g j + g i * f j)) :=
  (C57_syr2 x y A t h _ _ _ hx hy hA hsq hxe hye hu hxA hyA).mono fun _ _ hb =>
    Mat.BecomesOn.congr hb fun _ _ _ _ _ =>
      term_mul_mul hsafe _ _ _ _ _

example (t : Triangle) : Ends (Mixed.syr2 (x.view : VecV CInt) y.view ⟨C, .u8⟩ t) (heap CInt)
    fun _ h' =>
      C.BecomesOn (heap CInt) h' t.region fun i j => ofInt .u8 ((imvals C) i j + ((ivals x) i * (ivals y) j + (ivals y) i * (ivals x) j)) :=
  C69_syr2 _ _ _ _ _ _ _ _ (holdsV bx) (holdsV by_) (mholds bC) rfl le_rfl le_rfl
    (by view_facts) (by view_facts) (by view_facts) (.inr (.inl rfl))

/-- **C69** `hermitian_matrix_rank_2_update(x, y, A, t)`: modulo `2 ^ bits`, without undefined behaviour. -/
theorem C69_her2 (x y : VecV CInt) (A : TMat CTy) (t : Triangle) (h : Heap CInt) (f g : ℕ → ℤ)
    (a : ℕ → ℕ → ℤ) (hx : x.Holds h fun i => ofInt A.elt (f i))
    (hy : y.Holds h fun i => ofInt A.elt (g i))
    (hA : A.HoldsOn h t.region fun i j => ofInt A.elt (a i j)) (hsq : A.rows = A.cols)
    (hxe : A.rows ≤ x.ext) (hye : A.rows ≤ y.ext) (hu : A.UniqueOn t.region)
    (hxA : Apart x.toVec.Cell (A.CellOn t.region)) (hyA : Apart y.toVec.Cell (A.CellOn t.region))
    (hsafe : A.elt.Safe3) :
    Ends (Mixed.her2 x y A t) h fun _ h' =>
      A.BecomesOn h h' t.region fun i j => ofInt A.elt (a i j + (f i * g j + g i * f j)) :=
  (C57_her2 x y A t h _ _ _ hx hy hA hsq hxe hye hu hxA hyA).mono fun _ _ hb =>
    Mat.BecomesOn.congr hb fun _ _ _ _ _ =>
      by rw [diag_ofInt]; exact term_mul_mul hsafe _ _ _ _ _

example (t : Triangle) : Ends (Mixed.her2 (x.view : VecV CInt) y.view ⟨C, .u8⟩ t) (heap CInt)
    fun _ h' =>
      C.BecomesOn (heap CInt) h' t.region fun i j => ofInt .u8 ((imvals C) i j + ((ivals x) i * (ivals y) j + (ivals y) i * (ivals x) j)) :=
  C69_her2 _ _ _ _ _ _ _ _ (holdsV bx) (holdsV by_) (mholds bC) rfl le_rfl le_rfl
    (by view_facts) (by view_facts) (by view_facts) (.inr (.inl rfl))

/-- **C69** `symmetric_matrix_rank_2k_update(A, B, C, t)`: modulo `2 ^ bits`, without undefined behaviour. -/
theorem C69_syr2k (A B : MatV CInt) (C : TMat CTy) (t : Triangle) (h : Heap CInt)
    (a b c : ℕ → ℕ → ℤ) (hA : A.Holds h fun i j => ofInt C.elt (a i j))
    (hB : B.Holds h fun i j => ofInt C.elt (b i j))
    (hC : C.HoldsOn h t.region fun i j => ofInt C.elt (c i j)) (hsq : C.rows = C.cols)
    (hAe : C.rows ≤ A.rows) (hBe : C.rows ≤ B.rows) (hAB : A.cols ≤ B.cols)
    (hu : C.UniqueOn t.region) (hAC : Apart A.toMat.Cell (C.CellOn t.region))
    (hBC : Apart B.toMat.Cell (C.CellOn t.region)) (hsafe : C.elt.Safe3) :
    Ends (Mixed.syr2k A B C t) h fun _ h' =>
      C.BecomesOn h h' t.region fun i j => ofInt C.elt (c i j + ∑ k ∈ range A.cols, (a i k * b j k + b i k * a j k)) :=
  (C57_syr2k A B C t h _ _ _ hA hB hC hsq hAe hBe hAB hu hAC hBC).mono fun _ _ hb =>
    Mat.BecomesOn.congr hb fun _ _ _ _ _ =>
      Term.leftSumAs _ fun _ _ => term_mul_mul hsafe _ _ _ _

example (t : Triangle) : Ends (Mixed.syr2k (T.view : MatV CInt) A.view ⟨C, .u8⟩ t) (heap CInt)
    fun _ h' =>
      C.BecomesOn (heap CInt) h' t.region fun i j => ofInt .u8 ((imvals C) i j + ∑ k ∈ range T.cols, ((imvals T) i k * (imvals A) j k + (imvals A) i k * (imvals T) j k)) :=
  C69_syr2k _ _ _ _ _ _ _ _ (mholdsV bT) (mholdsV bA) (mholds bC) rfl le_rfl le_rfl (by decide)
    (by view_facts) (by view_facts) (by view_facts) (.inr (.inl rfl))

/-- **C69** `hermitian_matrix_rank_2k_update(A, B, C, t)`: modulo `2 ^ bits`, without undefined behaviour. -/
theorem C69_her2k (A B : MatV CInt) (C : TMat CTy) (t : Triangle) (h : Heap CInt)
    (a b c : ℕ → ℕ → ℤ) (hA : A.Holds h fun i j => ofInt C.elt (a i j))
    (hB : B.Holds h fun i j => ofInt C.elt (b i j))
    (hC : C.HoldsOn h t.region fun i j => ofInt C.elt (c i j)) (hsq : C.rows = C.cols)
    (hAe : C.rows ≤ A.rows) (hBe : C.rows ≤ B.rows) (hAB : A.cols ≤ B.cols)
    (hu : C.UniqueOn t.region) (hAC : Apart A.toMat.Cell (C.CellOn t.region))
    (hBC : Apart B.toMat.Cell (C.CellOn t.region)) (hsafe : C.elt.Safe3) :
    Ends (Mixed.her2k A B C t) h fun _ h' =>
      C.BecomesOn h h' t.region fun i j => ofInt C.elt (c i j + ∑ k ∈ range A.cols, (a i k * b j k + b i k * a j k)) :=
  (C57_her2k A B C t h _ _ _ hA hB hC hsq hAe hBe hAB hu hAC hBC).mono fun _ _ hb =>
    Mat.BecomesOn.congr hb fun _ _ _ _ _ =>
      by rw [diag_ofInt]; exact Term.leftSumAs _ fun _ _ => term_mul_mul hsafe _ _ _ _

example (t : Triangle) : Ends (Mixed.her2k (T.view : MatV CInt) A.view ⟨C, .u8⟩ t) (heap CInt)
    fun _ h' =>
      C.BecomesOn (heap CInt) h' t.region fun i j => ofInt .u8 ((imvals C) i j + ∑ k ∈ range T.cols, ((imvals T) i k * (imvals A) j k + (imvals A) i k * (imvals T) j k)) :=
  C69_her2k _ _ _ _ _ _ _ _ (mholdsV bT) (mholdsV bA) (mholds bC) rfl le_rfl le_rfl (by decide)
    (by view_facts) (by view_facts) (by view_facts) (.inr (.inl rfl))

/-- **C69** `triangular_matrix_vector_product(A, t, d, y)`: modulo `2 ^ bits`, without undefined behaviour. -/
theorem C69_trmv_in_place (A : MatV CInt) (t : Triangle) (d : Diag) (y : TVec CTy) (h : Heap CInt)
    (a : ℕ → ℕ → ℤ) (f : ℕ → ℤ) (hA : A.HoldsOn h (triRegion t d) fun i j => ofInt y.elt (a i j))
    (hy : y.Holds h fun i => ofInt y.elt (f i)) (hsq : A.rows = A.cols) (hext : A.rows = y.ext)
    (hu : y.Unique) (hAy : Apart (A.toMat.CellOn (triRegion t d)) y.Cell) (hsafe : y.elt.Safe) :
    Ends (Mixed.trmvInPlace A t d y) h fun _ h' =>
      y.Becomes h h' fun i => ofInt y.elt (mulVec A.cols (triOf t d a) f i) :=
  (C57_trmv_in_place A t d y h _ _ hA hy hsq hext hu hAy).mono fun _ _ hb =>
    Vec.Becomes.congr hb fun _ hi =>
      trmv_in_place_ofInt hsafe (by omega)

example (t : Triangle) (d : Diag) : Ends (Mixed.trmvInPlace (A.view : MatV CInt) t d ⟨x, .u8⟩) (heap CInt)
    fun _ h' =>
      x.Becomes (heap CInt) h' fun i => ofInt .u8 (mulVec A.cols (triOf t d (imvals A)) (ivals x) i) :=
  C69_trmv_in_place _ _ _ _ _ _ _ (mholdsV bA) (holds bx) rfl rfl (by view_facts) (by view_facts) (.inr (.inl rfl))

/-- **C69** `triangular_matrix_left_product(A, t, d, C)`: modulo `2 ^ bits`, without undefined behaviour. -/
theorem C69_trmm_left_in_place (A : MatV CInt) (t : Triangle) (d : Diag) (C : TMat CTy)
    (h : Heap CInt) (a c : ℕ → ℕ → ℤ)
    (hA : A.HoldsOn h (triRegion t d) fun i j => ofInt C.elt (a i j))
    (hC : C.Holds h fun i j => ofInt C.elt (c i j)) (hsq : A.rows = A.cols) (hr : C.rows = A.rows)
    (hu : C.Unique) (hAC : Apart (A.toMat.CellOn (triRegion t d)) C.Cell) (hsafe : C.elt.Safe) :
    Ends (Mixed.trmmLeftInPlace A t d C) h fun _ h' =>
      C.Becomes h h' fun i j => ofInt C.elt (mulMat A.cols (triOf t d a) c i j) :=
  (C57_trmm_left_in_place A t d C h _ _ hA hC hsq hr hu hAC).mono fun _ _ hb =>
    Mat.BecomesOn.congr hb fun _ _ hi _ _ =>
      trmm_left_in_place_ofInt hsafe (by omega)

example (t : Triangle) (d : Diag) : Ends (Mixed.trmmLeftInPlace (A.view : MatV CInt) t d ⟨T, .u8⟩) (heap CInt)
    fun _ h' =>
      T.Becomes (heap CInt) h' fun i j => ofInt .u8 (mulMat A.cols (triOf t d (imvals A)) (imvals T) i j) :=
  C69_trmm_left_in_place _ _ _ _ _ _ _ (mholdsV bA) (mholds bT) rfl rfl (by view_facts)
    (by view_facts) (.inr (.inl rfl))

/-- **C69** `triangular_matrix_right_product(A, t, d, C)`: modulo `2 ^ bits`, without undefined behaviour. -/
theorem C69_trmm_right_in_place (A : MatV CInt) (t : Triangle) (d : Diag) (C : TMat CTy)
    (h : Heap CInt) (a c : ℕ → ℕ → ℤ)
    (hA : A.HoldsOn h (triRegion t d) fun i j => ofInt C.elt (a i j))
    (hC : C.Holds h fun i j => ofInt C.elt (c i j)) (hsq : A.rows = A.cols) (hr : C.cols = A.cols)
    (hu : C.Unique) (hAC : Apart (A.toMat.CellOn (triRegion t d)) C.Cell) (hsafe : C.elt.Safe) :
    Ends (Mixed.trmmRightInPlace A t d C) h fun _ h' =>
      C.Becomes h h' fun i j => ofInt C.elt (mulMat A.cols c (triOf t d a) i j) :=
  (C57_trmm_right_in_place A t d C h _ _ hA hC hsq hr hu hAC).mono fun _ _ hb =>
    Mat.BecomesOn.congr hb fun _ _ _ hj _ =>
      trmm_right_in_place_ofInt hsafe (by omega)

example (d : Diag) : Ends (Mixed.trmmRightInPlace (A.view : MatV CInt) .upper d ⟨W, .u8⟩) (heap CInt)
    fun _ h' =>
      W.Becomes (heap CInt) h' fun i j => ofInt .u8 (mulMat A.cols (imvals W) (triOf .upper d (imvals A)) i j) :=
  C69_trmm_right_in_place _ _ _ _ _ _ _ (mholdsV bA) (mholds bW) rfl rfl (by view_facts)
    (by view_facts) (.inr (.inl rfl))

end StdBLAS

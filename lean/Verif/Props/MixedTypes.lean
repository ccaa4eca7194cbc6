import Verif.Lemmas.MixedSolve
import Verif.Props.EvaluationOrder
import Verif.Props.RankUpdates
import Verif.Props.Blas1Elementwise

/-!
# Property C57: mdspans of different element types

`D` holds the values of all element types `Ty`; its operators take operands of any two types and
satisfy no law.  Each theorem says which expression an element of the result is: where C++ converts
to the element type of the output (after each `+=`, at each assignment), in which type it
accumulates, and that no other conversion takes place.

The examples run in `Num`: the vector `x` holds integers, `y`, `z`, `A`, `B` hold real numbers and
the other matrices hold complex numbers.
-/

namespace StdBLAS
open Witness
variable {D Ty : Type} [MixedOps D Ty]

/-- The memory of the examples: cells below 7 hold integers, cells below 67 reals, the others
complex numbers. -/
noncomputable instance : IntCast Num :=
  ⟨fun z => if z < 0 then .int z else if z < 60 then .real z else .complex z⟩

/-- `conj_if_needed` and `real_if_needed` on `Num` -/
noncomputable instance : ConjOps Num where
  conj
    | .complex z => .complex ((starRingEnd ℂ) z)
    | v => v
  re
    | .complex z => .real z.re
    | v => v

/-! ## Element by element -/

/-- **C57** `copy(x, y)` converts each element. -/
theorem C57_copy_vector (x : VecV D) (y : TVec Ty) (h : Heap D) (f : Nat → D) (hx : x.Holds h f)
    (hy : y.Alloc h) (hext : y.ext ≤ x.ext) (hu : y.Unique) (hxy : x.toVec.Aligned y.toVec) :
    Ends (Mixed.copy1 x y) h fun _ h' => y.Becomes h h' fun i => MixedOps.conv y.elt (f i) := by
  have := C09_copy_vector (x.as y.elt) y.toVec h _ (hx.as y.elt) hy hext hu hxy
  unfold copy1 at this
  simp only [VecV.get_as] at this
  exact this

example : Ends (Mixed.copy1 (y.view : VecV Num) ⟨x, .int⟩) (heap Num) fun _ h' =>
    x.Becomes (heap Num) h' fun i => MixedOps.conv .int (vals Num y i) :=
  C57_copy_vector _ _ _ _ (holdsV by_) (alloc bx) le_rfl (by view_facts) (by view_facts)

/-- **C57** `copy(A, B)` converts each element. -/
theorem C57_copy_matrix (A : MatV D) (B : TMat Ty) (h : Heap D) (a : Nat → Nat → D)
    (hA : A.Holds h a) (hB : B.Alloc h) (hr : B.rows ≤ A.rows) (hc : B.cols ≤ A.cols)
    (hu : B.Unique) (hAB : A.toMat.Aligned B.toMat) :
    Ends (Mixed.copy2 A B) h fun _ h' =>
      B.Becomes h h' fun i j => MixedOps.conv B.elt (a i j) := by
  have := C09_copy_matrix (A.as B.elt) B.toMat h _ (hA.as B.elt) hB hr hc hu hAB
  unfold copy2 at this
  simp only [MatV.get_as] at this
  exact this

example : Ends (Mixed.copy2 (A.view : MatV Num) ⟨C, .complex⟩) (heap Num) fun _ h' =>
    C.Becomes (heap Num) h' fun i j => MixedOps.conv .complex (mvals Num A i j) :=
  C57_copy_matrix _ _ _ _ (mholdsV bA) (malloc bC) le_rfl le_rfl (by view_facts) (by view_facts)

/-- **C57** `add(x, y, z)`: the sum is computed in its own type and then converted. -/
theorem C57_add_vector (x y : VecV D) (z : TVec Ty) (h : Heap D) (f g : Nat → D)
    (hx : x.Holds h f) (hy : y.Holds h g) (hz : z.Alloc h)
    (hex : z.ext ≤ x.ext) (hey : z.ext ≤ y.ext) (hu : z.Unique)
    (hax : x.toVec.Aligned z.toVec) (hay : y.toVec.Aligned z.toVec) :
    Ends (Mixed.add1 x y z) h fun _ h' =>
      z.Becomes h h' fun i => MixedOps.conv z.elt (f i + g i) :=
  @C12_add_vector D (addAs z.elt) x y z.toVec h f g hx hy hz hex hey hu hax hay

example : Ends (Mixed.add1 (x.view : VecV Num) y.view ⟨x, .int⟩) (heap Num) fun _ h' =>
    x.Becomes (heap Num) h' fun i => MixedOps.conv .int (vals Num x i + vals Num y i) :=
  C57_add_vector _ _ _ _ _ _ (holdsV bx) (holdsV by_) (alloc bx) le_rfl le_rfl (by view_facts)
    (by view_facts) (by view_facts)

/-- **C57** `add(A, B, C)` -/
theorem C57_add_matrix (A B : MatV D) (C : TMat Ty) (h : Heap D) (a b : Nat → Nat → D)
    (hA : A.Holds h a) (hB : B.Holds h b) (hC : C.Alloc h)
    (hr : A.rows = C.rows) (hc : A.cols = C.cols) (hr' : C.rows ≤ B.rows) (hc' : C.cols ≤ B.cols)
    (hu : C.Unique) (hAC : A.toMat.Aligned C.toMat) (hBC : B.toMat.Aligned C.toMat) :
    Ends (Mixed.add2 A B C) h fun _ h' =>
      C.Becomes h h' fun i j => MixedOps.conv C.elt (a i j + b i j) :=
  @C12_add_matrix D (addAs C.elt) A B C.toMat h a b hA hB hC hr hc hr' hc' hu hAC hBC

example : Ends (Mixed.add2 (A.view : MatV Num) B.view ⟨C, .complex⟩) (heap Num) fun _ h' =>
    C.Becomes (heap Num) h' fun i j => MixedOps.conv .complex (mvals Num A i j + mvals Num B i j) :=
  C57_add_matrix _ _ _ _ _ _ (mholdsV bA) (mholdsV bB) (malloc bC) rfl rfl le_rfl le_rfl
    (by view_facts) (by view_facts) (by view_facts)

/-- **C57** `scale(alpha, x)`: the product is computed in its own type and then converted. -/
theorem C57_scale_vector (alpha : D) (x : TVec Ty) (h : Heap D) (f : Nat → D)
    (hx : x.Holds h f) (hu : x.Unique) :
    Ends (Mixed.scale1 alpha x) h fun _ h' =>
      x.Becomes h h' fun i => MixedOps.conv x.elt (f i * alpha) :=
  @C11_scale_vector D ⟨fun a b => MixedOps.conv x.elt (a * b)⟩ alpha x.toVec h f hx hu

example : Ends (Mixed.scale1 (.real 2.5) ⟨x, .int⟩) (heap Num) fun _ h' =>
    x.Becomes (heap Num) h' fun i => MixedOps.conv .int (vals Num x i * .real 2.5) :=
  C57_scale_vector _ _ _ _ (holds bx) (by view_facts)

/-- **C57** `scale(alpha, A)` -/
theorem C57_scale_matrix (alpha : D) (A : TMat Ty) (h : Heap D) (a : Nat → Nat → D)
    (hA : A.Holds h a) (hu : A.Unique) :
    Ends (Mixed.scale2 alpha A) h fun _ h' =>
      A.Becomes h h' fun i j => MixedOps.conv A.elt (a i j * alpha) :=
  @C11_scale_matrix D ⟨fun a b => MixedOps.conv A.elt (a * b)⟩ alpha A.toMat h a hA hu

example : Ends (Mixed.scale2 (.int 2) ⟨C, .complex⟩) (heap Num) fun _ h' =>
    C.Becomes (heap Num) h' fun i j => MixedOps.conv .complex (mvals Num C i j * .int 2) :=
  C57_scale_matrix _ _ _ _ (mholds bC) (by view_facts)

/-! ## Sums, products, rank-1 and rank-k updates -/

/-- **C57** `dot(v1, v2, init)` -/
theorem C57_dot (v1 v2 : VecV D) (init : D) (h : Heap D) (f g : Nat → D)
    (h1 : v1.Holds h f) (h2 : v2.Holds h g) (hext : v1.ext ≤ v2.ext) :
    Ends (Mixed.dot v1 v2 init) h fun r h' => r = leftSumAs (MixedOps.ty init) init v1.ext (fun k => f k * g k) ∧ h' = h := by
  rw [Mixed.dot_eq]
  exact (@C54_dot D (addAs (MixedOps.ty init)) _ v1 v2 init h f g h1 h2 hext).mono fun _ _ hb => by
    rw [Mixed.leftSum_addAs] at hb; exact hb

example : Ends (Mixed.dot (x.view : VecV Num) y.view (.real 5)) (heap Num) fun r h' =>
    r = leftSumAs .real (.real 5) 3 (fun k => vals Num x k * vals Num y k) ∧ h' = heap Num :=
  C57_dot _ _ _ _ _ _ (holdsV bx) (holdsV by_) le_rfl

/-- **C57** `dotc(v1, v2, init)` -/
theorem C57_dotc [ConjOps D] (v1 v2 : VecV D) (init : D) (h : Heap D)
    (f g : Nat → D) (h1 : v1.Holds h f) (h2 : v2.Holds h g) (hext : v1.ext ≤ v2.ext) :
    Ends (Mixed.dotc v1 v2 init) h fun r h' =>
      r = leftSumAs (MixedOps.ty init) init v1.ext (fun k => ConjOps.conj (f k) * g k) ∧ h' = h := by
  rw [Mixed.dotc_eq]
  exact (@C54_dotc D (addAs (MixedOps.ty init)) _ _ v1 v2 init h f g h1 h2 hext).mono fun _ _ hb => by
    rw [Mixed.leftSum_addAs] at hb; exact hb

example : Ends (Mixed.dotc (x.view : VecV Num) y.view (.int 5)) (heap Num) fun r h' =>
    r = leftSumAs .int (.int 5) 3 (fun k => ConjOps.conj (vals Num x k) * vals Num y k) ∧
      h' = heap Num :=
  C57_dotc _ _ _ _ _ _ (holdsV bx) (holdsV by_) le_rfl

/-- **C57** `matrix_vector_product(A, x, y)` -/
theorem C57_gemv (A : MatV D) (x : VecV D) (y : TVec Ty) (h : Heap D)
    (a : Nat → Nat → D) (f : Nat → D) (hA : A.Holds h a) (hx : x.Holds h f) (hy : y.Alloc h)
    (hrows : y.ext = A.rows) (hcols : A.cols ≤ x.ext) (hu : y.Unique)
    (hAy : Apart A.toMat.Cell y.Cell) (hxy : Apart x.toVec.Cell y.Cell) :
    Ends (Mixed.gemv A x y) h fun _ h' =>
      y.Becomes h h' fun i => leftSumAs y.elt (MixedOps.zero y.elt) A.cols fun k => a i k * f k := by
  rw [Mixed.gemv_eq]
  exact (@C54_gemv D (addAs y.elt) _ (zeroAs y.elt) A x y.toVec h a f hA hx hy hrows hcols hu hAy hxy).mono fun _ _ hb =>
    Vec.Becomes.congr hb fun _ _ => Mixed.leftSum_addAs ..

example : Ends (Mixed.gemv (W.view : MatV Num) x.view ⟨⟨2, y.addr⟩, .real⟩) (heap Num) fun _ h' =>
    (⟨2, y.addr⟩ : Vec).Becomes (heap Num) h' fun i => leftSumAs .real (.real 0) 3 fun k =>
      mvals Num W i k * vals Num x k :=
  C57_gemv _ _ _ _ _ _ (mholdsV bW) (holdsV bx)
    (alloc fun i hi => by_ i (by simp only [y] at *; omega)) rfl le_rfl
    (by view_facts) (by view_facts) (by view_facts)

/-- **C57** `matrix_vector_product(A, x, y, z)`: starts from `y`. -/
theorem C57_gemv_update (A : MatV D) (x y : VecV D) (z : TVec Ty) (h : Heap D)
    (a : Nat → Nat → D) (f g : Nat → D) (hA : A.Holds h a) (hx : x.Holds h f) (hy : y.Holds h g)
    (hz : z.Alloc h) (hrows : z.ext = A.rows) (hcols : A.cols ≤ x.ext) (hye : A.rows ≤ y.ext)
    (hu : z.Unique) (hAz : Apart A.toMat.Cell z.Cell) (hxz : Apart x.toVec.Cell z.Cell)
    (hyz : y.toVec.Aligned z.toVec) :
    Ends (Mixed.gemvUpdate A x y z) h fun _ h' =>
      z.Becomes h h' fun i => leftSumAs z.elt (MixedOps.conv z.elt (g i)) A.cols fun k => a i k * f k := by
  rw [Mixed.gemvUpdate_eq]
  exact (@C54_gemv_update D (addAs z.elt) _ A x (y.as z.elt) z.toVec h a f _ hA hx (hy.as _) hz hrows hcols hye hu hAz hxz hyz).mono fun _ _ hb =>
    Vec.Becomes.congr hb fun _ _ => Mixed.leftSum_addAs ..

example : Ends (Mixed.gemvUpdate (A.view : MatV Num) x.view y.view ⟨y, .real⟩) (heap Num) fun _ h' =>
    y.Becomes (heap Num) h' fun i => leftSumAs .real (MixedOps.conv .real (vals Num y i)) 3 fun k =>
      mvals Num A i k * vals Num x k :=
  C57_gemv_update _ _ _ _ _ _ _ _ (mholdsV bA) (holdsV bx) (holdsV by_) (alloc by_) rfl le_rfl
    le_rfl (by view_facts) (by view_facts) (by view_facts) (by view_facts)

/-- **C57** `symmetric_matrix_vector_product(A, t, x, y)` -/
theorem C57_symv (A : MatV D) (t : Triangle) (x : VecV D) (y : TVec Ty)
    (h : Heap D) (a : Nat → Nat → D) (f : Nat → D) (hA : A.HoldsOn h t.region a)
    (hx : x.Holds h f) (hy : y.Alloc h) (hsq : A.rows = A.cols) (hext : A.rows = y.ext)
    (hxe : A.cols ≤ x.ext) (hu : y.Unique) (hAy : Apart (A.toMat.CellOn t.region) y.Cell)
    (hxy : Apart x.toVec.Cell y.Cell) :
    Ends (Mixed.symv A t x y) h fun _ h' =>
      y.Becomes h h' fun i => leftSumAs y.elt (MixedOps.zero y.elt) A.cols fun k => symOf t a i k * f k := by
  rw [Mixed.symv_eq]
  exact (@C54_symv D (addAs y.elt) _ (zeroAs y.elt) A t x y.toVec h a f hA hx hy hsq hext hxe hu hAy hxy).mono fun _ _ hb =>
    Vec.Becomes.congr hb fun _ _ => Mixed.leftSum_addAs ..

example (t : Triangle) : Ends (Mixed.symv (A.view : MatV Num) t x.view ⟨y, .real⟩) (heap Num) fun _ h' =>
    y.Becomes (heap Num) h' fun i => leftSumAs .real (.real 0) 3 fun k =>
      symOf t (mvals Num A) i k * vals Num x k :=
  C57_symv _ _ _ _ _ _ _ (mholdsV bA) (holdsV bx) (alloc by_) rfl rfl le_rfl (by view_facts)
    (by view_facts) (by view_facts)

/-- **C57** `symmetric_matrix_vector_product(A, t, x, y, z)` -/
theorem C57_symv_update (A : MatV D) (t : Triangle) (x y : VecV D) (z : TVec Ty)
    (h : Heap D) (a : Nat → Nat → D) (f g : Nat → D) (hA : A.HoldsOn h t.region a)
    (hx : x.Holds h f) (hy : y.Holds h g) (hz : z.Alloc h) (hsq : A.rows = A.cols)
    (hext : A.rows = z.ext) (hxe : A.cols ≤ x.ext) (hye : A.rows ≤ y.ext) (hu : z.Unique)
    (hAz : Apart (A.toMat.CellOn t.region) z.Cell) (hxz : Apart x.toVec.Cell z.Cell)
    (hyz : y.toVec.Aligned z.toVec) :
    Ends (Mixed.symvUpdate A t x y z) h fun _ h' =>
      z.Becomes h h' fun i => leftSumAs z.elt (MixedOps.conv z.elt (g i)) A.cols fun k => symOf t a i k * f k := by
  rw [Mixed.symvUpdate_eq]
  exact (@C54_symv_update D (addAs z.elt) _ A t x (y.as z.elt) z.toVec h a f _ hA hx (hy.as _) hz hsq hext hxe hye hu hAz hxz hyz).mono fun _ _ hb =>
    Vec.Becomes.congr hb fun _ _ => Mixed.leftSum_addAs ..

example (t : Triangle) : Ends (Mixed.symvUpdate (A.view : MatV Num) t x.view y.view ⟨y, .real⟩) (heap Num)
    fun _ h' => y.Becomes (heap Num) h' fun i => leftSumAs .real (MixedOps.conv .real (vals Num y i)) 3 fun k =>
      symOf t (mvals Num A) i k * vals Num x k :=
  C57_symv_update _ _ _ _ _ _ _ _ _ (mholdsV bA) (holdsV bx) (holdsV by_) (alloc by_) rfl rfl
    le_rfl le_rfl (by view_facts) (by view_facts) (by view_facts) (by view_facts)

/-- **C57** `hermitian_matrix_vector_product(A, t, x, y)` -/
theorem C57_hemv [ConjOps D] (A : MatV D) (t : Triangle) (x : VecV D)
    (y : TVec Ty) (h : Heap D) (a : Nat → Nat → D) (f : Nat → D) (hA : A.HoldsOn h t.region a)
    (hx : x.Holds h f) (hy : y.Alloc h) (hsq : A.rows = A.cols) (hext : A.rows = y.ext)
    (hxe : A.cols ≤ x.ext) (hu : y.Unique) (hAy : Apart (A.toMat.CellOn t.region) y.Cell)
    (hxy : Apart x.toVec.Cell y.Cell) :
    Ends (Mixed.hemv A t x y) h fun _ h' =>
      y.Becomes h h' fun i => leftSumAs y.elt (MixedOps.zero y.elt) A.cols fun k => hermOf t a i k * f k := by
  rw [Mixed.hemv_eq]
  exact (@C54_hemv D (addAs y.elt) _ (zeroAs y.elt) _ A t x y.toVec h a f hA hx hy hsq hext hxe hu hAy hxy).mono fun _ _ hb =>
    Vec.Becomes.congr hb fun _ _ => Mixed.leftSum_addAs ..

example (t : Triangle) : Ends (Mixed.hemv (A.view : MatV Num) t x.view ⟨y, .real⟩) (heap Num) fun _ h' =>
    y.Becomes (heap Num) h' fun i => leftSumAs .real (.real 0) 3 fun k =>
      hermOf t (mvals Num A) i k * vals Num x k :=
  C57_hemv _ _ _ _ _ _ _ (mholdsV bA) (holdsV bx) (alloc by_) rfl rfl le_rfl (by view_facts)
    (by view_facts) (by view_facts)

/-- **C57** `hermitian_matrix_vector_product(A, t, x, y, z)` -/
theorem C57_hemv_update [ConjOps D] (A : MatV D) (t : Triangle) (x y : VecV D)
    (z : TVec Ty) (h : Heap D) (a : Nat → Nat → D) (f g : Nat → D) (hA : A.HoldsOn h t.region a)
    (hx : x.Holds h f) (hy : y.Holds h g) (hz : z.Alloc h) (hsq : A.rows = A.cols)
    (hext : A.rows = z.ext) (hxe : A.cols ≤ x.ext) (hye : A.rows ≤ y.ext) (hu : z.Unique)
    (hAz : Apart (A.toMat.CellOn t.region) z.Cell) (hxz : Apart x.toVec.Cell z.Cell)
    (hyz : y.toVec.Aligned z.toVec) :
    Ends (Mixed.hemvUpdate A t x y z) h fun _ h' =>
      z.Becomes h h' fun i => leftSumAs z.elt (MixedOps.conv z.elt (g i)) A.cols fun k => hermOf t a i k * f k := by
  rw [Mixed.hemvUpdate_eq]
  exact (@C54_hemv_update D (addAs z.elt) _ _ A t x (y.as z.elt) z.toVec h a f _ hA hx (hy.as _) hz hsq hext hxe hye hu hAz hxz hyz).mono fun _ _ hb =>
    Vec.Becomes.congr hb fun _ _ => Mixed.leftSum_addAs ..

example (t : Triangle) : Ends (Mixed.hemvUpdate (A.view : MatV Num) t x.view y.view ⟨y, .real⟩) (heap Num)
    fun _ h' => y.Becomes (heap Num) h' fun i => leftSumAs .real (MixedOps.conv .real (vals Num y i)) 3 fun k =>
      hermOf t (mvals Num A) i k * vals Num x k :=
  C57_hemv_update _ _ _ _ _ _ _ _ _ (mholdsV bA) (holdsV bx) (holdsV by_) (alloc by_) rfl rfl
    le_rfl le_rfl (by view_facts) (by view_facts) (by view_facts) (by view_facts)

/-- **C57** `triangular_matrix_vector_product(A, t, d, x, y)` -/
theorem C57_trmv (A : MatV D) (t : Triangle) (d : Diag) (x : VecV D)
    (y : TVec Ty) (h : Heap D) (a : Nat → Nat → D) (f : Nat → D) (hA : A.HoldsOn h (triRegion t d) a)
    (hx : x.Holds h f) (hy : y.Alloc h) (hsq : A.rows = A.cols) (hext : A.rows = y.ext)
    (hxe : A.cols ≤ x.ext) (hu : y.Unique) (hAy : Apart (A.toMat.CellOn (triRegion t d)) y.Cell)
    (hxy : Apart x.toVec.Cell y.Cell) :
    Ends (Mixed.trmv A t d x y) h fun _ h' =>
      y.Becomes h h' fun i => triSeqAs y.elt t d A.cols a f (MixedOps.zero y.elt) i := by
  rw [Mixed.trmv_eq]
  exact (@C54_trmv D (addAs y.elt) _ (zeroAs y.elt) A t d x y.toVec h a f hA hx hy hsq hext hxe hu hAy hxy).mono fun _ _ hb =>
    Vec.Becomes.congr hb fun _ _ => Mixed.triSeq_addAs ..

example (t : Triangle) (d : Diag) : Ends (Mixed.trmv (A.view : MatV Num) t d x.view ⟨y, .real⟩) (heap Num)
    fun _ h' => y.Becomes (heap Num) h' fun i =>
      triSeqAs .real t d 3 (mvals Num A) (vals Num x) (.real 0) i :=
  C57_trmv _ _ _ _ _ _ _ _ (mholdsV bA) (holdsV bx) (alloc by_) rfl rfl le_rfl (by view_facts)
    (by view_facts) (by view_facts)

/-- **C57** `triangular_matrix_vector_product(A, t, d, x, y, z)` -/
theorem C57_trmv_update (A : MatV D) (t : Triangle) (d : Diag) (x y : VecV D)
    (z : TVec Ty) (h : Heap D) (a : Nat → Nat → D) (f g : Nat → D)
    (hA : A.HoldsOn h (triRegion t d) a) (hx : x.Holds h f) (hy : y.Holds h g) (hz : z.Alloc h)
    (hsq : A.rows = A.cols) (hext : A.rows = z.ext) (hxe : A.cols ≤ x.ext) (hye : A.rows ≤ y.ext)
    (hu : z.Unique) (hAz : Apart (A.toMat.CellOn (triRegion t d)) z.Cell)
    (hxz : Apart x.toVec.Cell z.Cell) (hyz : y.toVec.Aligned z.toVec) :
    Ends (Mixed.trmvUpdate A t d x y z) h fun _ h' =>
      z.Becomes h h' fun i => triSeqAs z.elt t d A.cols a f (MixedOps.conv z.elt (g i)) i := by
  rw [Mixed.trmvUpdate_eq]
  exact (@C54_trmv_update D (addAs z.elt) _ A t d x (y.as z.elt) z.toVec h a f _ hA hx (hy.as _) hz hsq hext hxe hye hu hAz hxz hyz).mono fun _ _ hb =>
    Vec.Becomes.congr hb fun _ _ => Mixed.triSeq_addAs ..

example (t : Triangle) (d : Diag) :
    Ends (Mixed.trmvUpdate (A.view : MatV Num) t d x.view y.view ⟨y, .real⟩) (heap Num)
    fun _ h' => y.Becomes (heap Num) h' fun i =>
      triSeqAs .real t d 3 (mvals Num A) (vals Num x) (MixedOps.conv .real (vals Num y i)) i :=
  C57_trmv_update _ _ _ _ _ _ _ _ _ _ (mholdsV bA) (holdsV bx) (holdsV by_) (alloc by_) rfl rfl
    le_rfl le_rfl (by view_facts) (by view_facts) (by view_facts) (by view_facts)

/-- **C57** `matrix_product(A, B, C)` -/
theorem C57_gemm (A B : MatV D) (C : TMat Ty) (h : Heap D)
    (a b : Nat → Nat → D) (hA : A.Holds h a) (hB : B.Holds h b) (hC : C.Alloc h)
    (hr : C.rows = A.rows) (hk : A.cols = B.rows) (hc : C.cols = B.cols) (hu : C.Unique)
    (hAC : Apart A.toMat.Cell C.Cell) (hBC : Apart B.toMat.Cell C.Cell) :
    Ends (Mixed.gemm A B C) h fun _ h' => C.Becomes h h' fun i j =>
      leftSumAs C.elt (MixedOps.zero C.elt) A.cols fun k => a i k * b k j := by
  rw [Mixed.gemm_eq]
  exact (@C54_gemm D (addAs C.elt) _ (zeroAs C.elt) A B C.toMat h a b hA hB hC hr hk hc hu hAC hBC).mono fun _ _ hb =>
    Mat.BecomesOn.congr hb fun _ _ _ _ _ => Mixed.leftSum_addAs ..

example : Ends (Mixed.gemm (T.view : MatV Num) W.view ⟨C, .complex⟩) (heap Num) fun _ h' =>
    C.Becomes (heap Num) h' fun i j => leftSumAs .complex (.complex 0) 2 fun k =>
      mvals Num T i k * mvals Num W k j :=
  C57_gemm _ _ _ _ _ _ (mholdsV bT) (mholdsV bW) (malloc bC) rfl rfl rfl
    (by view_facts) (by view_facts) (by view_facts)

/-- **C57** `matrix_product(A, B, E, C)` -/
theorem C57_gemm_update (A B E : MatV D) (C : TMat Ty)
    (h : Heap D) (a b e : Nat → Nat → D) (hA : A.Holds h a) (hB : B.Holds h b) (hE : E.Holds h e)
    (hC : C.Alloc h) (hr : C.rows = A.rows) (hk : A.cols = B.rows) (hc : C.cols = B.cols)
    (her : C.rows ≤ E.rows) (hec : C.cols ≤ E.cols) (hu : C.Unique)
    (hAC : Apart A.toMat.Cell C.Cell) (hBC : Apart B.toMat.Cell C.Cell) (hEC : E.toMat.Aligned C.toMat) :
    Ends (Mixed.gemmUpdate A B E C) h fun _ h' => C.Becomes h h' fun i j =>
      leftSumAs C.elt (MixedOps.conv C.elt (e i j)) A.cols fun k => a i k * b k j := by
  rw [Mixed.gemmUpdate_eq]
  exact (@C54_gemm_update D (addAs C.elt) _ A B (E.as C.elt) C.toMat h a b _ hA hB (hE.as _) hC hr hk hc her hec hu hAC hBC hEC).mono fun _ _ hb =>
    Mat.BecomesOn.congr hb fun _ _ _ _ _ => Mixed.leftSum_addAs ..

example : Ends (Mixed.gemmUpdate (T.view : MatV Num) W.view C.view ⟨C, .complex⟩) (heap Num) fun _ h' =>
    C.Becomes (heap Num) h' fun i j => leftSumAs .complex (MixedOps.conv .complex (mvals Num C i j)) 2 fun k =>
      mvals Num T i k * mvals Num W k j :=
  C57_gemm_update _ _ _ _ _ _ _ _ (mholdsV bT) (mholdsV bW) (mholdsV bC) (malloc bC) rfl rfl
    rfl le_rfl le_rfl (by view_facts) (by view_facts) (by view_facts) (by view_facts)

/-- **C57** `symmetric_matrix_product(A, t, B, C)` -/
theorem C57_symm_left (A : MatV D) (t : Triangle)
    (B : MatV D) (C : TMat Ty) (h : Heap D) (a b : Nat → Nat → D) (hA : A.HoldsOn h t.region a)
    (hB : B.Holds h b) (hC : C.Alloc h) (hsq : A.rows = A.cols) (hr : C.rows = A.rows)
    (hk : A.cols = B.rows) (hc : C.cols = B.cols) (hu : C.Unique)
    (hAC : Apart (A.toMat.CellOn t.region) C.Cell) (hBC : Apart B.toMat.Cell C.Cell) :
    Ends (Mixed.symmLeft A t B C) h fun _ h' => C.Becomes h h' fun i j =>
      leftSumAs C.elt (MixedOps.zero C.elt) A.cols fun k => symOf t a i k * b k j := by
  rw [Mixed.symmLeft_eq]
  exact (@C54_symm_left D (addAs C.elt) _ (zeroAs C.elt) A t B C.toMat h a b hA hB hC hsq hr hk hc hu hAC hBC).mono fun _ _ hb =>
    Mat.BecomesOn.congr hb fun _ _ _ _ _ => Mixed.leftSum_addAs ..

example (t : Triangle) : Ends (Mixed.symmLeft (A.view : MatV Num) t T.view ⟨⟨3, 2, C.addr⟩, .complex⟩) (heap Num)
    fun _ h' => (⟨3, 2, C.addr⟩ : Mat).Becomes (heap Num) h' fun i j => leftSumAs .complex (.complex 0) 3 fun k =>
      symOf t (mvals Num A) i k * mvals Num T k j :=
  C57_symm_left _ _ _ _ _ _ _ (mholdsV bA) (mholdsV bT)
    (malloc fun i j hi hj => bC i j hi (by simp only [C] at *; omega)) rfl rfl rfl rfl
    (by view_facts) (by view_facts) (by view_facts)

/-- **C57** `symmetric_matrix_product(B, A, t, C)` -/
theorem C57_symm_right (A : MatV D) (t : Triangle)
    (B : MatV D) (C : TMat Ty) (h : Heap D) (a b : Nat → Nat → D) (hA : A.HoldsOn h t.region a)
    (hB : B.Holds h b) (hC : C.Alloc h) (hsq : A.rows = A.cols) (hr : C.rows = B.rows)
    (hk : B.cols = A.rows) (hc : C.cols = A.cols) (hu : C.Unique)
    (hAC : Apart (A.toMat.CellOn t.region) C.Cell) (hBC : Apart B.toMat.Cell C.Cell) :
    Ends (Mixed.symmRight B A t C) h fun _ h' => C.Becomes h h' fun i j =>
      leftSumAs C.elt (MixedOps.zero C.elt) A.cols fun k => b i k * symOf t a k j := by
  rw [Mixed.symmRight_eq]
  exact (@C54_symm_right D (addAs C.elt) _ (zeroAs C.elt) A t B C.toMat h a b hA hB hC hsq hr hk hc hu hAC hBC).mono fun _ _ hb =>
    Mat.BecomesOn.congr hb fun _ _ _ _ _ => Mixed.leftSum_addAs ..

example (t : Triangle) : Ends (Mixed.symmRight (W.view : MatV Num) A.view t ⟨⟨2, 3, C.addr⟩, .complex⟩) (heap Num)
    fun _ h' => (⟨2, 3, C.addr⟩ : Mat).Becomes (heap Num) h' fun i j => leftSumAs .complex (.complex 0) 3 fun k =>
      mvals Num W i k * symOf t (mvals Num A) k j :=
  C57_symm_right _ _ _ _ _ _ _ (mholdsV bA) (mholdsV bW)
    (malloc fun i j hi hj => bC i j (by simp only [C] at *; omega) hj) rfl rfl rfl rfl
    (by view_facts) (by view_facts) (by view_facts)

/-- **C57** `hermitian_matrix_product(A, t, B, C)` -/
theorem C57_hemm_left [ConjOps D] (A : MatV D) (t : Triangle)
    (B : MatV D) (C : TMat Ty) (h : Heap D) (a b : Nat → Nat → D) (hA : A.HoldsOn h t.region a)
    (hB : B.Holds h b) (hC : C.Alloc h) (hsq : A.rows = A.cols) (hr : C.rows = A.rows)
    (hk : A.cols = B.rows) (hc : C.cols = B.cols) (hu : C.Unique)
    (hAC : Apart (A.toMat.CellOn t.region) C.Cell) (hBC : Apart B.toMat.Cell C.Cell) :
    Ends (Mixed.hemmLeft A t B C) h fun _ h' => C.Becomes h h' fun i j =>
      leftSumAs C.elt (MixedOps.zero C.elt) A.cols fun k => hermOf t a i k * b k j := by
  rw [Mixed.hemmLeft_eq]
  exact (@C54_hemm_left D (addAs C.elt) _ (zeroAs C.elt) _ A t B C.toMat h a b hA hB hC hsq hr hk hc hu hAC hBC).mono fun _ _ hb =>
    Mat.BecomesOn.congr hb fun _ _ _ _ _ => Mixed.leftSum_addAs ..

example (t : Triangle) : Ends (Mixed.hemmLeft (A.view : MatV Num) t T.view ⟨⟨3, 2, C.addr⟩, .complex⟩) (heap Num)
    fun _ h' => (⟨3, 2, C.addr⟩ : Mat).Becomes (heap Num) h' fun i j => leftSumAs .complex (.complex 0) 3 fun k =>
      hermOf t (mvals Num A) i k * mvals Num T k j :=
  C57_hemm_left _ _ _ _ _ _ _ (mholdsV bA) (mholdsV bT)
    (malloc fun i j hi hj => bC i j hi (by simp only [C] at *; omega)) rfl rfl rfl rfl
    (by view_facts) (by view_facts) (by view_facts)

/-- **C57** `hermitian_matrix_product(B, A, t, C)`: the diagonal is used as stored. -/
theorem C57_hemm_right [ConjOps D] (A : MatV D) (t : Triangle)
    (B : MatV D) (C : TMat Ty) (h : Heap D) (a b : Nat → Nat → D) (hA : A.HoldsOn h t.region a)
    (hB : B.Holds h b) (hC : C.Alloc h) (hsq : A.rows = A.cols) (hr : C.rows = B.rows)
    (hk : B.cols = A.rows) (hc : C.cols = A.cols) (hu : C.Unique)
    (hAC : Apart (A.toMat.CellOn t.region) C.Cell) (hBC : Apart B.toMat.Cell C.Cell) :
    Ends (Mixed.hemmRight B A t C) h fun _ h' => C.Becomes h h' fun i j =>
      leftSumAs C.elt (MixedOps.zero C.elt) A.cols fun k => b i k * if k = j then a j j else hermOf t a k j := by
  rw [Mixed.hemmRight_eq]
  exact (@C54_hemm_right D (addAs C.elt) _ (zeroAs C.elt) _ A t B C.toMat h a b hA hB hC hsq hr hk hc hu hAC hBC).mono fun _ _ hb =>
    Mat.BecomesOn.congr hb fun _ _ _ _ _ => Mixed.leftSum_addAs ..

example (t : Triangle) : Ends (Mixed.hemmRight (W.view : MatV Num) A.view t ⟨⟨2, 3, C.addr⟩, .complex⟩) (heap Num)
    fun _ h' => (⟨2, 3, C.addr⟩ : Mat).Becomes (heap Num) h' fun i j => leftSumAs .complex (.complex 0) 3 fun k =>
      mvals Num W i k * if k = j then mvals Num A j j else hermOf t (mvals Num A) k j :=
  C57_hemm_right _ _ _ _ _ _ _ (mholdsV bA) (mholdsV bW)
    (malloc fun i j hi hj => bC i j (by simp only [C] at *; omega) hj) rfl rfl rfl rfl
    (by view_facts) (by view_facts) (by view_facts)

/-- **C57** `triangular_matrix_product(A, t, d, B, C)` -/
theorem C57_trmm_left (A : MatV D) (t : Triangle) (d : Diag)
    (B : MatV D) (C : TMat Ty) (h : Heap D) (a b : Nat → Nat → D)
    (hA : A.HoldsOn h (triRegion t d) a) (hB : B.Holds h b) (hC : C.Alloc h)
    (hsq : A.rows = A.cols) (hr : C.rows = A.rows) (hk : A.cols = B.rows) (hc : C.cols = B.cols)
    (hu : C.Unique) (hAC : Apart (A.toMat.CellOn (triRegion t d)) C.Cell)
    (hBC : Apart B.toMat.Cell C.Cell) :
    Ends (Mixed.trmmLeft A t d B C) h fun _ h' => C.Becomes h h' fun i j =>
      triElementAs C.elt (t = .lower) d A.rows i (fun k => a i k * b k j)
        (if d = .explicit then a i i * b i j else b i j) (MixedOps.zero C.elt) := by
  rw [Mixed.trmmLeft_eq]
  exact (@C54_trmm_left D (addAs C.elt) _ (zeroAs C.elt) A t d B C.toMat h a b hA hB hC hsq hr hk hc hu hAC hBC).mono fun _ _ hb =>
    Mat.BecomesOn.congr hb fun _ _ _ _ _ => Mixed.triElement_addAs ..

example (t : Triangle) (d : Diag) :
    Ends (Mixed.trmmLeft (A.view : MatV Num) t d T.view ⟨⟨3, 2, C.addr⟩, .complex⟩) (heap Num)
    fun _ h' => (⟨3, 2, C.addr⟩ : Mat).Becomes (heap Num) h' fun i j =>
      triElementAs .complex (t = .lower) d 3 i (fun k => mvals Num A i k * mvals Num T k j)
        (if d = .explicit then mvals Num A i i * mvals Num T i j else mvals Num T i j) (.complex 0) :=
  C57_trmm_left _ _ _ _ _ _ _ _ (mholdsV bA) (mholdsV bT)
    (malloc fun i j hi hj => bC i j hi (by simp only [C] at *; omega)) rfl rfl rfl rfl
    (by view_facts) (by view_facts) (by view_facts)

/-- **C57** `triangular_matrix_product(B, A, t, d, C)` -/
theorem C57_trmm_right (A : MatV D) (t : Triangle) (d : Diag)
    (B : MatV D) (C : TMat Ty) (h : Heap D) (a b : Nat → Nat → D)
    (hA : A.HoldsOn h (triRegion t d) a) (hB : B.Holds h b) (hC : C.Alloc h)
    (hsq : A.rows = A.cols) (hr : C.rows = B.rows) (hk : B.cols = A.rows) (hc : C.cols = A.cols)
    (hu : C.Unique) (hAC : Apart (A.toMat.CellOn (triRegion t d)) C.Cell)
    (hBC : Apart B.toMat.Cell C.Cell) :
    Ends (Mixed.trmmRight B A t d C) h fun _ h' => C.Becomes h h' fun i j =>
      triElementAs C.elt (t = .upper) d A.rows j (fun k => b i k * a k j)
        (if d = .explicit then b i j * a j j else b i j) (MixedOps.zero C.elt) := by
  rw [Mixed.trmmRight_eq]
  exact (@C54_trmm_right D (addAs C.elt) _ (zeroAs C.elt) A t d B C.toMat h a b hA hB hC hsq hr hk hc hu hAC hBC).mono fun _ _ hb =>
    Mat.BecomesOn.congr hb fun _ _ _ _ _ => Mixed.triElement_addAs ..

example (t : Triangle) (d : Diag) :
    Ends (Mixed.trmmRight (W.view : MatV Num) A.view t d ⟨⟨2, 3, C.addr⟩, .complex⟩) (heap Num)
    fun _ h' => (⟨2, 3, C.addr⟩ : Mat).Becomes (heap Num) h' fun i j =>
      triElementAs .complex (t = .upper) d 3 j (fun k => mvals Num W i k * mvals Num A k j)
        (if d = .explicit then mvals Num W i j * mvals Num A j j else mvals Num W i j) (.complex 0) :=
  C57_trmm_right _ _ _ _ _ _ _ _ (mholdsV bA) (mholdsV bW)
    (malloc fun i j hi hj => bC i j (by simp only [C] at *; omega) hj) rfl rfl rfl rfl
    (by view_facts) (by view_facts) (by view_facts)

/-- **C57** `matrix_rank_1_update(x, y, A)`: `A(i,j) := A(i,j) + x(i) * y(j)`. -/
theorem C57_ger (x y : VecV D) (A : TMat Ty) (h : Heap D) (f g : Nat → D)
    (a : Nat → Nat → D) (hx : x.Holds h f) (hy : y.Holds h g) (hA : A.Holds h a)
    (hxe : A.rows ≤ x.ext) (hye : A.cols ≤ y.ext) (hu : A.Unique)
    (hxA : Apart x.toVec.Cell A.Cell) (hyA : Apart y.toVec.Cell A.Cell) :
    Ends (Mixed.ger x y A) h fun _ h' => A.Becomes h h' fun i j => MixedOps.conv A.elt (a i j + f i * g j) := by
  rw [Mixed.ger_eq]
  exact @C25_ger D (addAs A.elt) _ x y A.toMat h f g a hx hy hA hxe hye hu hxA hyA

example : Ends (Mixed.ger (x.view : VecV Num) y.view ⟨C, .complex⟩) (heap Num) fun _ h' =>
    C.Becomes (heap Num) h' fun i j =>
      MixedOps.conv .complex (mvals Num C i j + vals Num x i * vals Num y j) :=
  C57_ger _ _ _ _ _ _ _ (holdsV bx) (holdsV by_) (mholds bC) le_rfl le_rfl
    (by view_facts) (by view_facts) (by view_facts)

/-- **C57** `matrix_rank_1_update_c(x, y, A)`: `A(i,j) := A(i,j) + x(i) * conj(y(j))`. -/
theorem C57_gerc [ConjOps D] (x y : VecV D) (A : TMat Ty) (h : Heap D)
    (f g : Nat → D) (a : Nat → Nat → D) (hx : x.Holds h f) (hy : y.Holds h g) (hA : A.Holds h a)
    (hxe : A.rows ≤ x.ext) (hye : A.cols ≤ y.ext) (hu : A.Unique)
    (hxA : Apart x.toVec.Cell A.Cell) (hyA : Apart y.toVec.Cell A.Cell) :
    Ends (Mixed.gerc x y A) h fun _ h' =>
      A.Becomes h h' fun i j => MixedOps.conv A.elt (a i j + f i * ConjOps.conj (g j)) := by
  rw [Mixed.gerc_eq]
  exact @C25_gerc D (addAs A.elt) _ _ x y A.toMat h f g a hx hy hA hxe hye hu hxA hyA

example : Ends (Mixed.gerc (x.view : VecV Num) y.view ⟨A, .real⟩) (heap Num) fun _ h' =>
    A.Becomes (heap Num) h' fun i j =>
      MixedOps.conv .real (mvals Num A i j + vals Num x i * ConjOps.conj (vals Num y j)) :=
  C57_gerc _ _ _ _ _ _ _ (holdsV bx) (holdsV by_) (mholds bA) le_rfl le_rfl
    (by view_facts) (by view_facts) (by view_facts)

/-- **C57** `symmetric_matrix_rank_1_update(x, A, t)` -/
theorem C57_syr (x : VecV D) (A : TMat Ty) (t : Triangle) (h : Heap D)
    (f : Nat → D) (a : Nat → Nat → D) (hx : x.Holds h f) (hA : A.HoldsOn h t.region a)
    (hsq : A.rows = A.cols) (hxe : A.rows ≤ x.ext) (hu : A.UniqueOn t.region)
    (hxA : Apart x.toVec.Cell (A.CellOn t.region)) :
    Ends (Mixed.syr x A t) h fun _ h' =>
      A.BecomesOn h h' t.region fun i j => MixedOps.conv A.elt (a i j + f i * f j) := by
  rw [Mixed.syr_eq]
  exact @C26_syr D (addAs A.elt) _ x A.toMat t h f a hx hA hsq hxe hu hxA

example (t : Triangle) : Ends (Mixed.syr (x.view : VecV Num) ⟨B, .real⟩ t) (heap Num) fun _ h' =>
    B.BecomesOn (heap Num) h' t.region fun i j =>
      MixedOps.conv .real (mvals Num B i j + vals Num x i * vals Num x j) :=
  C57_syr _ _ _ _ _ _ (holdsV bx) (mholds bB) rfl le_rfl (by view_facts) (by view_facts)

/-- **C57** `symmetric_matrix_rank_1_update(alpha, x, A, t)` -/
theorem C57_syr_alpha (alpha : D) (x : VecV D) (A : TMat Ty) (t : Triangle) (h : Heap D)
    (f : Nat → D) (a : Nat → Nat → D) (hx : x.Holds h f) (hA : A.HoldsOn h t.region a)
    (hsq : A.rows = A.cols) (hxe : A.rows ≤ x.ext) (hu : A.UniqueOn t.region)
    (hxA : Apart x.toVec.Cell (A.CellOn t.region)) :
    Ends (Mixed.syrAlpha alpha x A t) h fun _ h' =>
      A.BecomesOn h h' t.region fun i j => MixedOps.conv A.elt (a i j + alpha * f i * f j) := by
  rw [Mixed.syrAlpha_eq]
  exact @C26_syrAlpha D (addAs A.elt) _ alpha x A.toMat t h f a hx hA hsq hxe hu hxA

example : Ends (Mixed.syrAlpha (.int 5) (x.view : VecV Num) ⟨B, .real⟩ .lower) (heap Num) fun _ h' =>
    B.BecomesOn (heap Num) h' Triangle.lower.region fun i j =>
      MixedOps.conv .real (mvals Num B i j + .int 5 * vals Num x i * vals Num x j) :=
  C57_syr_alpha _ _ _ _ _ _ _ (holdsV bx) (mholds bB) rfl le_rfl (by view_facts) (by view_facts)

/-- **C57** `hermitian_matrix_rank_1_update(x, A, t)` -/
theorem C57_her [ConjOps D] (x : VecV D) (A : TMat Ty) (t : Triangle) (h : Heap D)
    (f : Nat → D) (a : Nat → Nat → D) (hx : x.Holds h f) (hA : A.HoldsOn h t.region a)
    (hsq : A.rows = A.cols) (hxe : A.rows ≤ x.ext) (hu : A.UniqueOn t.region)
    (hxA : Apart x.toVec.Cell (A.CellOn t.region)) :
    Ends (Mixed.her x A t) h fun _ h' =>
      A.BecomesOn h h' t.region fun i j => MixedOps.conv A.elt ((if i = j then MixedOps.conv A.elt (ConjOps.re (a i i)) else a i j) + f i * ConjOps.conj (f j)) := by
  rw [Mixed.her_eq]
  exact @C26_her D (addAs A.elt) _ (Mixed.conjAs A.elt) x A.toMat t h f a hx hA hsq hxe hu hxA

example : Ends (Mixed.her (x.view : VecV Num) ⟨B, .real⟩ .lower) (heap Num) fun _ h' =>
    B.BecomesOn (heap Num) h' Triangle.lower.region fun i j =>
      MixedOps.conv .real ((if i = j then MixedOps.conv .real (ConjOps.re (mvals Num B i i)) else mvals Num B i j) +
        vals Num x i * ConjOps.conj (vals Num x j)) :=
  C57_her _ _ _ _ _ _ (holdsV bx) (mholds bB) rfl le_rfl (by view_facts) (by view_facts)

/-- **C57** `hermitian_matrix_rank_1_update(alpha, x, A, t)` -/
theorem C57_her_alpha [ConjOps D] (alpha : D) (x : VecV D) (A : TMat Ty) (t : Triangle) (h : Heap D)
    (f : Nat → D) (a : Nat → Nat → D) (hx : x.Holds h f) (hA : A.HoldsOn h t.region a)
    (hsq : A.rows = A.cols) (hxe : A.rows ≤ x.ext) (hu : A.UniqueOn t.region)
    (hxA : Apart x.toVec.Cell (A.CellOn t.region)) :
    Ends (Mixed.herAlpha alpha x A t) h fun _ h' =>
      A.BecomesOn h h' t.region fun i j => MixedOps.conv A.elt ((if i = j then MixedOps.conv A.elt (ConjOps.re (a i i)) else a i j) + alpha * f i * ConjOps.conj (f j)) := by
  rw [Mixed.herAlpha_eq]
  exact @C26_herAlpha D (addAs A.elt) _ (Mixed.conjAs A.elt) alpha x A.toMat t h f a hx hA hsq hxe hu hxA

example : Ends (Mixed.herAlpha (.int 5) (x.view : VecV Num) ⟨A, .real⟩ .upper) (heap Num) fun _ h' =>
    A.BecomesOn (heap Num) h' Triangle.upper.region fun i j =>
      MixedOps.conv .real ((if i = j then MixedOps.conv .real (ConjOps.re (mvals Num A i i)) else mvals Num A i j) +
        .int 5 * vals Num x i * ConjOps.conj (vals Num x j)) :=
  C57_her_alpha _ _ _ _ _ _ _ (holdsV bx) (mholds bA) rfl le_rfl (by view_facts) (by view_facts)

/-- **C57** `symmetric_matrix_rank_k_update(A, C, t)` -/
theorem C57_syrk (A : MatV D) (C : TMat Ty) (t : Triangle)
    (h : Heap D) (a c : Nat → Nat → D) (hA : A.Holds h a) (hC : C.HoldsOn h t.region c)
    (hsq : C.rows = C.cols) (hAe : C.rows ≤ A.rows) (hu : C.UniqueOn t.region)
    (hAC : Apart A.toMat.Cell (C.CellOn t.region)) :
    Ends (Mixed.syrk A C t) h fun _ h' => C.BecomesOn h h' t.region fun i j =>
      leftSumAs C.elt (c i j) A.cols fun k => a i k * a j k := by
  rw [Mixed.syrk_eq]
  exact (@C54_syrk D (addAs C.elt) _ A C.toMat t h a c hA hC hsq hAe hu hAC).mono fun _ _ hb =>
    Mat.BecomesOn.congr hb fun _ _ _ _ _ => Mixed.leftSum_addAs ..

example (t : Triangle) : Ends (Mixed.syrk (T.view : MatV Num) ⟨C, .complex⟩ t) (heap Num) fun _ h' =>
    C.BecomesOn (heap Num) h' t.region fun i j =>
      leftSumAs .complex (mvals Num C i j) 2 fun k => mvals Num T i k * mvals Num T j k :=
  C57_syrk _ _ _ _ _ _ (mholdsV bT) (mholds bC) rfl le_rfl (by view_facts) (by view_facts)

/-- **C57** `symmetric_matrix_rank_k_update(alpha, A, C, t)` -/
theorem C57_syrk_alpha (alpha : D) (A : MatV D) (C : TMat Ty) (t : Triangle)
    (h : Heap D) (a c : Nat → Nat → D) (hA : A.Holds h a) (hC : C.HoldsOn h t.region c)
    (hsq : C.rows = C.cols) (hAe : C.rows ≤ A.rows) (hu : C.UniqueOn t.region)
    (hAC : Apart A.toMat.Cell (C.CellOn t.region)) :
    Ends (Mixed.syrkAlpha alpha A C t) h fun _ h' => C.BecomesOn h h' t.region fun i j =>
      leftSumAs C.elt (c i j) A.cols fun k => alpha * a i k * a j k := by
  rw [Mixed.syrkAlpha_eq]
  exact (@C54_syrk_alpha D (addAs C.elt) _ alpha A C.toMat t h a c hA hC hsq hAe hu hAC).mono fun _ _ hb =>
    Mat.BecomesOn.congr hb fun _ _ _ _ _ => Mixed.leftSum_addAs ..

example (t : Triangle) : Ends (Mixed.syrkAlpha (.int 5) (T.view : MatV Num) ⟨C, .complex⟩ t) (heap Num) fun _ h' =>
    C.BecomesOn (heap Num) h' t.region fun i j =>
      leftSumAs .complex (mvals Num C i j) 2 fun k => .int 5 * mvals Num T i k * mvals Num T j k :=
  C57_syrk_alpha _ _ _ _ _ _ _ (mholdsV bT) (mholds bC) rfl le_rfl (by view_facts) (by view_facts)

/-- **C57** `hermitian_matrix_rank_k_update(A, C, t)` -/
theorem C57_herk [ConjOps D] (A : MatV D) (C : TMat Ty) (t : Triangle)
    (h : Heap D) (a c : Nat → Nat → D) (hA : A.Holds h a) (hC : C.HoldsOn h t.region c)
    (hsq : C.rows = C.cols) (hAe : C.rows ≤ A.rows) (hu : C.UniqueOn t.region)
    (hAC : Apart A.toMat.Cell (C.CellOn t.region)) :
    Ends (Mixed.herk A C t) h fun _ h' => C.BecomesOn h h' t.region fun i j =>
      leftSumAs C.elt (if i = j then MixedOps.conv C.elt (ConjOps.re (c i i)) else c i j) A.cols fun k => a i k * ConjOps.conj (a j k) := by
  rw [Mixed.herk_eq]
  exact (@C54_herk D (addAs C.elt) _ (Mixed.conjAs C.elt) A C.toMat t h a c hA hC hsq hAe hu hAC).mono fun _ _ hb =>
    Mat.BecomesOn.congr hb fun _ _ _ _ _ => Mixed.leftSum_addAs ..

example (t : Triangle) : Ends (Mixed.herk (T.view : MatV Num) ⟨C, .complex⟩ t) (heap Num) fun _ h' =>
    C.BecomesOn (heap Num) h' t.region fun i j =>
      leftSumAs .complex (if i = j then MixedOps.conv .complex (ConjOps.re (mvals Num C i i)) else mvals Num C i j) 2 fun k => mvals Num T i k * ConjOps.conj (mvals Num T j k) :=
  C57_herk _ _ _ _ _ _ (mholdsV bT) (mholds bC) rfl le_rfl (by view_facts) (by view_facts)

/-- **C57** `hermitian_matrix_rank_k_update(alpha, A, C, t)` -/
theorem C57_herk_alpha [ConjOps D] (alpha : D) (A : MatV D) (C : TMat Ty) (t : Triangle)
    (h : Heap D) (a c : Nat → Nat → D) (hA : A.Holds h a) (hC : C.HoldsOn h t.region c)
    (hsq : C.rows = C.cols) (hAe : C.rows ≤ A.rows) (hu : C.UniqueOn t.region)
    (hAC : Apart A.toMat.Cell (C.CellOn t.region)) :
    Ends (Mixed.herkAlpha alpha A C t) h fun _ h' => C.BecomesOn h h' t.region fun i j =>
      leftSumAs C.elt (if i = j then MixedOps.conv C.elt (ConjOps.re (c i i)) else c i j) A.cols fun k => alpha * a i k * ConjOps.conj (a j k) := by
  rw [Mixed.herkAlpha_eq]
  exact (@C54_herk_alpha D (addAs C.elt) _ (Mixed.conjAs C.elt) alpha A C.toMat t h a c hA hC hsq hAe hu hAC).mono fun _ _ hb =>
    Mat.BecomesOn.congr hb fun _ _ _ _ _ => Mixed.leftSum_addAs ..

example (t : Triangle) : Ends (Mixed.herkAlpha (.int 5) (T.view : MatV Num) ⟨C, .complex⟩ t) (heap Num) fun _ h' =>
    C.BecomesOn (heap Num) h' t.region fun i j =>
      leftSumAs .complex (if i = j then MixedOps.conv .complex (ConjOps.re (mvals Num C i i)) else mvals Num C i j) 2 fun k => .int 5 * mvals Num T i k * ConjOps.conj (mvals Num T j k) :=
  C57_herk_alpha _ _ _ _ _ _ _ (mholdsV bT) (mholds bC) rfl le_rfl (by view_facts) (by view_facts)

/-! ## Rank-2 and rank-2k updates: the two products are added in their own type -/

/-- **C57** `symmetric_matrix_rank_2_update(x, y, A, t)` -/
theorem C57_syr2 (x y : VecV D) (A : TMat Ty) (t : Triangle) (h : Heap D)
    (f g : Nat → D) (a : Nat → Nat → D) (hx : x.Holds h f) (hy : y.Holds h g)
    (hA : A.HoldsOn h t.region a) (hsq : A.rows = A.cols) (hxe : A.rows ≤ x.ext)
    (hye : A.rows ≤ y.ext) (hu : A.UniqueOn t.region)
    (hxA : Apart x.toVec.Cell (A.CellOn t.region))
    (hyA : Apart y.toVec.Cell (A.CellOn t.region)) :
    Ends (Mixed.syr2 x y A t) h fun _ h' =>
      A.BecomesOn h h' t.region fun i j =>
        MixedOps.conv A.elt (a i j + (f i * g j + g i * f j)) := by
  unfold Mixed.syr2
  refine (triangleLoop_ends (p := id)
    (q := fun i j s => MixedOps.conv A.elt (s + (f i * g j + g i * f j))) hA hsq
    (fun j hj h1 w hb => pre_none hb) ?_).mono ?_
  · intro i j hi hj hr h1 w hb
    have hx1 := hx.of_onlyChanges hxA hb.2
    have hy1 := hy.of_onlyChanges hyA hb.2
    rw [ends_bind, hx1.get_iff (by omega), ends_bind, hy1.get_iff (by omega), ends_bind,
      hy1.get_iff (by omega), ends_bind, hx1.get_iff (by omega)]
    exact @Mat.BecomesOn.addTo _ _ _ (addAs A.elt) _ _ _ hb hu _ _ hi hj hr _
  · intro _ h' hb
    refine hb.congr fun i j _ _ _ => ?_
    simp only [id, ite_self]

example (t : Triangle) : Ends (Mixed.syr2 (x.view : VecV Num) y.view ⟨C, .complex⟩ t) (heap Num)
    fun _ h' => C.BecomesOn (heap Num) h' t.region fun i j => MixedOps.conv .complex
      (mvals Num C i j + (vals Num x i * vals Num y j + vals Num y i * vals Num x j)) :=
  C57_syr2 _ _ _ _ _ _ _ _ (holdsV bx) (holdsV by_) (mholds bC) rfl le_rfl le_rfl
    (by view_facts) (by view_facts) (by view_facts)

/-- **C57** `hermitian_matrix_rank_2_update(x, y, A, t)` -/
theorem C57_her2 [ConjOps D] (x y : VecV D) (A : TMat Ty) (t : Triangle) (h : Heap D)
    (f g : Nat → D) (a : Nat → Nat → D) (hx : x.Holds h f) (hy : y.Holds h g)
    (hA : A.HoldsOn h t.region a) (hsq : A.rows = A.cols) (hxe : A.rows ≤ x.ext)
    (hye : A.rows ≤ y.ext) (hu : A.UniqueOn t.region)
    (hxA : Apart x.toVec.Cell (A.CellOn t.region))
    (hyA : Apart y.toVec.Cell (A.CellOn t.region)) :
    Ends (Mixed.her2 x y A t) h fun _ h' =>
      A.BecomesOn h h' t.region fun i j => MixedOps.conv A.elt
        ((if i = j then MixedOps.conv A.elt (ConjOps.re (a i i)) else a i j) +
          (f i * ConjOps.conj (g j) + g i * ConjOps.conj (f j))) := by
  unfold Mixed.her2
  refine (triangleLoop_ends (p := fun v => MixedOps.conv A.elt (ConjOps.re v))
    (q := fun i j s => MixedOps.conv A.elt
      (s + (f i * ConjOps.conj (g j) + g i * ConjOps.conj (f j)))) hA hsq
    (fun j hj h1 w hb => @pre_real _ _ (Mixed.conjAs A.elt) _ _ _ _ _ hu (by omega) hj hb) ?_).mono ?_
  · intro i j hi hj hr h1 w hb
    have hx1 := hx.of_onlyChanges hxA hb.2
    have hy1 := hy.of_onlyChanges hyA hb.2
    rw [ends_bind, hx1.get_iff (by omega), ends_bind, hy1.get_iff (by omega), ends_bind,
      hy1.get_iff (by omega), ends_bind, hx1.get_iff (by omega)]
    exact @Mat.BecomesOn.addTo _ _ _ (addAs A.elt) _ _ _ hb hu _ _ hi hj hr _
  · intro _ h' hb
    refine hb.congr fun i j _ _ _ => ?_
    by_cases e : i = j
    · subst e; simp only [if_true]
    · simp only [if_neg e]

example (t : Triangle) : Ends (Mixed.her2 (x.view : VecV Num) y.view ⟨C, .complex⟩ t) (heap Num)
    fun _ h' => C.BecomesOn (heap Num) h' t.region fun i j => MixedOps.conv .complex
      ((if i = j then MixedOps.conv .complex (ConjOps.re (mvals Num C i i)) else mvals Num C i j) +
        (vals Num x i * ConjOps.conj (vals Num y j) + vals Num y i * ConjOps.conj (vals Num x j))) :=
  C57_her2 _ _ _ _ _ _ _ _ (holdsV bx) (holdsV by_) (mholds bC) rfl le_rfl le_rfl
    (by view_facts) (by view_facts) (by view_facts)

/-- **C57** `symmetric_matrix_rank_2k_update(A, B, C, t)` -/
theorem C57_syr2k (A B : MatV D) (C : TMat Ty) (t : Triangle)
    (h : Heap D) (a b c : Nat → Nat → D) (hA : A.Holds h a) (hB : B.Holds h b)
    (hC : C.HoldsOn h t.region c) (hsq : C.rows = C.cols) (hAe : C.rows ≤ A.rows)
    (hBe : C.rows ≤ B.rows) (hAB : A.cols ≤ B.cols) (hu : C.UniqueOn t.region)
    (hAC : Apart A.toMat.Cell (C.CellOn t.region)) (hBC : Apart B.toMat.Cell (C.CellOn t.region)) :
    Ends (Mixed.syr2k A B C t) h fun _ h' => C.BecomesOn h h' t.region fun i j =>
      leftSumAs C.elt (c i j) A.cols fun k => a i k * b j k + b i k * a j k := by
  unfold Mixed.syr2k
  refine (triangleLoop_ends (p := id) (q := fun i j s =>
      (List.range' 0 A.cols).foldl
        (fun s k => MixedOps.conv C.elt (s + (a i k * b j k + b i k * a j k))) s) hC hsq
    (fun j hj h1 w hb => pre_none hb) ?_).mono ?_
  · intro i j hi hj hr h1 w hb
    refine @addTo_loop _ _ (addAs C.elt) _ _ _ _ _ _ _ _ _ hb fun k hk h1 w hb => ?_
    have hA1 := hA.of_onlyChanges hAC hb.2
    have hB1 := hB.of_onlyChanges hBC hb.2
    rw [ends_bind, hA1.get_iff (by omega) hk trivial, ends_bind,
      hB1.get_iff (by omega) (by omega) trivial, ends_bind,
      hB1.get_iff (by omega) (by omega) trivial, ends_bind,
      hA1.get_iff (by omega) hk trivial]
    exact @Mat.BecomesOn.addTo _ _ _ (addAs C.elt) _ _ _ hb hu _ _ hi hj hr _
  · intro _ h' hb
    refine hb.congr fun i j _ _ _ => ?_
    simp only [id, ite_self]
    exact (@foldl_up_leftSum D (addAs C.elt) _ _ _).trans (Mixed.leftSum_addAs ..)

example (t : Triangle) : Ends (Mixed.syr2k (T.view : MatV Num) A.view ⟨C, .complex⟩ t) (heap Num)
    fun _ h' => C.BecomesOn (heap Num) h' t.region fun i j =>
      leftSumAs .complex (mvals Num C i j) 2 fun k =>
        mvals Num T i k * mvals Num A j k + mvals Num A i k * mvals Num T j k :=
  C57_syr2k _ _ _ _ _ _ _ _ (mholdsV bT) (mholdsV bA) (mholds bC) rfl le_rfl le_rfl (by decide)
    (by view_facts) (by view_facts) (by view_facts)

/-- **C57** `hermitian_matrix_rank_2k_update(A, B, C, t)` -/
theorem C57_her2k [ConjOps D] (A B : MatV D) (C : TMat Ty) (t : Triangle)
    (h : Heap D) (a b c : Nat → Nat → D) (hA : A.Holds h a) (hB : B.Holds h b)
    (hC : C.HoldsOn h t.region c) (hsq : C.rows = C.cols) (hAe : C.rows ≤ A.rows)
    (hBe : C.rows ≤ B.rows) (hAB : A.cols ≤ B.cols) (hu : C.UniqueOn t.region)
    (hAC : Apart A.toMat.Cell (C.CellOn t.region)) (hBC : Apart B.toMat.Cell (C.CellOn t.region)) :
    Ends (Mixed.her2k A B C t) h fun _ h' => C.BecomesOn h h' t.region fun i j =>
      leftSumAs C.elt (if i = j then MixedOps.conv C.elt (ConjOps.re (c i i)) else c i j) A.cols
        fun k => a i k * ConjOps.conj (b j k) + b i k * ConjOps.conj (a j k) := by
  unfold Mixed.her2k
  refine (triangleLoop_ends (p := fun v => MixedOps.conv C.elt (ConjOps.re v)) (q := fun i j s =>
      (List.range' 0 A.cols).foldl (fun s k => MixedOps.conv C.elt
        (s + (a i k * ConjOps.conj (b j k) + b i k * ConjOps.conj (a j k)))) s) hC hsq
    (fun j hj h1 w hb => @pre_real _ _ (Mixed.conjAs C.elt) _ _ _ _ _ hu (by omega) hj hb) ?_).mono ?_
  · intro i j hi hj hr h1 w hb
    refine @addTo_loop _ _ (addAs C.elt) _ _ _ _ _ _ _ _ _ hb fun k hk h1 w hb => ?_
    have hA1 := hA.of_onlyChanges hAC hb.2
    have hB1 := hB.of_onlyChanges hBC hb.2
    rw [ends_bind, hA1.get_iff (by omega) hk trivial, ends_bind,
      hB1.get_iff (by omega) (by omega) trivial, ends_bind,
      hB1.get_iff (by omega) (by omega) trivial, ends_bind,
      hA1.get_iff (by omega) hk trivial]
    exact @Mat.BecomesOn.addTo _ _ _ (addAs C.elt) _ _ _ hb hu _ _ hi hj hr _
  · intro _ h' hb
    refine hb.congr fun i j _ _ _ => ?_
    rw [← Mixed.leftSum_addAs, ← @foldl_up_leftSum D (addAs C.elt)]
    by_cases e : i = j
    · subst e; simp only [if_true]; rfl
    · simp only [if_neg e]; rfl

example (t : Triangle) : Ends (Mixed.her2k (T.view : MatV Num) A.view ⟨C, .complex⟩ t) (heap Num)
    fun _ h' => C.BecomesOn (heap Num) h' t.region fun i j =>
      leftSumAs .complex (if i = j then MixedOps.conv .complex (ConjOps.re (mvals Num C i i))
        else mvals Num C i j) 2 fun k => mvals Num T i k * ConjOps.conj (mvals Num A j k) +
          mvals Num A i k * ConjOps.conj (mvals Num T j k) :=
  C57_her2k _ _ _ _ _ _ _ _ (mholdsV bT) (mholdsV bA) (mholds bC) rfl le_rfl le_rfl (by decide)
    (by view_facts) (by view_facts) (by view_facts)

/-! ## In-place triangular products: the diagonal product is converted when it is stored -/

theorem triSeqInPlace_addAs (ty : Ty) (t : Triangle) (n : Nat) (a : Nat → Nat → D) (f : Nat → D)
    (s : D) (r : Nat) :
    @triSeqInPlace D (addAs ty) _ t n a f s r = triSeqInPlaceAs ty t n a f s r := by
  cases t <;> exact Mixed.leftSum_addAs ..

/-- **C57** `triangular_matrix_vector_product(A, t, d, y)` -/
theorem C57_trmv_in_place (A : MatV D) (t : Triangle) (d : Diag) (y : TVec Ty)
    (h : Heap D) (a : Nat → Nat → D) (f : Nat → D) (hA : A.HoldsOn h (triRegion t d) a)
    (hy : y.Holds h f) (hsq : A.rows = A.cols) (hext : A.rows = y.ext) (hu : y.Unique)
    (hAy : Apart (A.toMat.CellOn (triRegion t d)) y.Cell) :
    Ends (Mixed.trmvInPlace A t d y) h fun _ h' =>
      y.Becomes h h' fun i => triSeqInPlaceAs y.elt t A.cols a f
        (if d = .explicit then MixedOps.conv y.elt (f i * a i i) else f i) i := by
  rw [Mixed.trmvInPlace_eq]
  exact (@trmvInPlaceF_seq D h (addAs y.elt) _ _ A t d y.toVec a f hA hy hsq hext hu hAy).mono
    fun _ _ hb => Vec.Becomes.congr hb fun _ _ => triSeqInPlace_addAs ..

example (t : Triangle) (d : Diag) : Ends (Mixed.trmvInPlace (A.view : MatV Num) t d ⟨x, .int⟩)
    (heap Num) fun _ h' => x.Becomes (heap Num) h' fun i =>
      triSeqInPlaceAs .int t 3 (mvals Num A) (vals Num x)
        (if d = .explicit then MixedOps.conv .int (vals Num x i * mvals Num A i i) else vals Num x i)
        i :=
  C57_trmv_in_place _ _ _ _ _ _ _ (mholdsV bA) (holds bx) rfl rfl (by view_facts) (by view_facts)

/-- **C57** `triangular_matrix_left_product(A, t, d, C)` -/
theorem C57_trmm_left_in_place (A : MatV D) (t : Triangle) (d : Diag) (C : TMat Ty)
    (h : Heap D) (a c : Nat → Nat → D) (hA : A.HoldsOn h (triRegion t d) a) (hC : C.Holds h c)
    (hsq : A.rows = A.cols) (hr : C.rows = A.rows) (hu : C.Unique)
    (hAC : Apart (A.toMat.CellOn (triRegion t d)) C.Cell) :
    Ends (Mixed.trmmLeftInPlace A t d C) h fun _ h' => C.Becomes h h' fun i j =>
      triSeqInPlaceAs C.elt t A.cols a (fun k => c k j)
        (if d = .explicit then MixedOps.conv C.elt (a i i * c i j) else c i j) i := by
  rw [Mixed.trmmLeftInPlace_cols]
  refine (ends_cols (fun j v => ∀ i, i < C.rows → v i =
    triSeqInPlaceAs C.elt t A.cols a (fun k => c k j)
      (if d = .explicit then MixedOps.conv C.elt (a i i * c i j) else c i j) i) h hu c ?_).mono ?_
  · intro j hj h1 hc he
    refine (@trmmColInPlaceF_seq D h1 (addAs C.elt) _ _ A t d (C.toMat.col j) a (fun i => c i j)
      (hA.of_onlyChanges hAC hc)
      (fun i hi => (he i hi).trans (hC i j hi hj trivial)) hsq hr.symm (hu.col hj)
      (fun b hb hb' => hAC b hb (Mat.col_cell hj hb'))).mono ?_
    intro _ h' hb
    exact ⟨_, hb, fun _ _ => triSeqInPlace_addAs ..⟩
  · rintro _ h' ⟨f, hf, hP⟩
    exact Mat.BecomesOn.congr hf fun i j hi hj _ => hP j hj i hi

example (t : Triangle) (d : Diag) : Ends (Mixed.trmmLeftInPlace (A.view : MatV Num) t d ⟨T, .complex⟩)
    (heap Num) fun _ h' => T.Becomes (heap Num) h' fun i j =>
      triSeqInPlaceAs .complex t 3 (mvals Num A) (fun k => mvals Num T k j)
        (if d = .explicit then MixedOps.conv .complex (mvals Num A i i * mvals Num T i j)
          else mvals Num T i j) i :=
  C57_trmm_left_in_place _ _ _ _ _ _ _ (mholdsV bA) (mholds bT) rfl rfl (by view_facts)
    (by view_facts)

/-- **C57** `triangular_matrix_right_product(A, t, d, C)` -/
theorem C57_trmm_right_in_place (A : MatV D) (t : Triangle) (d : Diag) (C : TMat Ty)
    (h : Heap D) (a c : Nat → Nat → D) (hA : A.HoldsOn h (triRegion t d) a) (hC : C.Holds h c)
    (hsq : A.rows = A.cols) (hr : C.cols = A.cols) (hu : C.Unique)
    (hAC : Apart (A.toMat.CellOn (triRegion t d)) C.Cell) :
    Ends (Mixed.trmmRightInPlace A t d C) h fun _ h' => C.Becomes h h' fun i j =>
      rightSeqInPlaceAs C.elt t A.cols c a
        (if d = .explicit then MixedOps.conv C.elt (c i j * a j j) else c i j) i j := by
  rw [Mixed.trmmRightInPlace_eq]
  refine (@trmmRightInPlaceF_fold D h (addAs C.elt) _ _ A t d C.toMat a c hA hC hsq hr hu hAC).mono
    fun _ _ hb => Mat.BecomesOn.congr hb fun i j _ hj _ => ?_
  unfold rightElemF rightRest rightSeqInPlaceAs
  cases t
  · simp only [Triangle.flip, restOf]
    rw [@foldl_range'_leftSum D (addAs C.elt), Mixed.leftSum_addAs]
    simp only [Nat.zero_add]
  · simp only [Triangle.flip, restOf]
    rw [@foldl_range'_leftSum D (addAs C.elt), Mixed.leftSum_addAs, hr,
      show A.cols - (j + 1) = A.cols - 1 - j by omega]

example (d : Diag) : Ends (Mixed.trmmRightInPlace (A.view : MatV Num) .upper d ⟨W, .complex⟩)
    (heap Num) fun _ h' => W.Becomes (heap Num) h' fun i j =>
      rightSeqInPlaceAs .complex .upper 3 (mvals Num W) (mvals Num A)
        (if d = .explicit then MixedOps.conv .complex (mvals Num W i j * mvals Num A j j)
          else mvals Num W i j) i j :=
  C57_trmm_right_in_place _ _ _ _ _ _ _ (mholdsV bA) (mholds bW) rfl rfl (by view_facts)
    (by view_facts)

/-! ## Solves

`tA` and `tB` are the element types of `A` and `B`.  The differences are taken in a variable of the
type of `b - a * x`, with one exception: the left solve with a lower triangle and several right-hand
sides uses a variable of the element type of `X`. -/

/-- **C57** `triangular_matrix_vector_solve(A, t, d, b, x)` -/
theorem C57_trsv (tA tB : Ty) (A : MatV D) (t : Triangle) (d : Diag) (B : VecV D) (X : TVec Ty)
    (h : Heap D) (a : Nat → Nat → D) (b : Nat → D)
    (hA : A.HoldsOn h (triRegion t d) a) (hB : B.Holds h b) (hX : X.Alloc h)
    (hsq : A.rows = A.cols) (hext : A.rows = X.ext) (hBe : A.rows ≤ B.ext) (hu : X.Unique)
    (hAX : Apart (A.toMat.CellOn (triRegion t d)) X.Cell) (hBX : B.toVec.Aligned X.toVec) :
    Ends (Mixed.trsv (· / ·) tA tB A t d B X) h fun _ h' => ∃ v, X.Becomes h h' v ∧
      ∀ i, i < A.rows → v i =
        solveRowAs (MixedOps.subTy D tB (MixedOps.mulTy D tA X.elt)) X.elt t d A.cols i
          (fun k => a i k * v k) (b i) (a i i) := by
  rw [Mixed.trsv_eq]
  exact Mixed.trsvF_ends _ X hA hB hX hsq hext hBe hu hAX hBX

example (t : Triangle) (d : Diag) : Ends (Mixed.trsv (· / ·) .real .int (A.view : MatV Num) t d
    x.view ⟨x, .int⟩) (heap Num) fun _ h' => ∃ v, x.Becomes (heap Num) h' v ∧ ∀ i, i < 3 →
      v i = solveRowAs .real .int t d 3 i (fun k => mvals Num A i k * v k) (vals Num x i)
        (mvals Num A i i) :=
  C57_trsv _ _ _ _ _ _ _ _ _ _ (mholdsV bA) (holdsV bx) (alloc bx) rfl rfl le_rfl
    (by view_facts) (by view_facts) (by view_facts)

/-- **C57** `triangular_matrix_matrix_left_solve(A, t, d, B, X)` -/
theorem C57_trsm_left (tA tB : Ty) (A : MatV D) (t : Triangle) (d : Diag) (B : MatV D) (X : TMat Ty)
    (h : Heap D) (a b : Nat → Nat → D)
    (hA : A.HoldsOn h (triRegion t d) a) (hB : B.Holds h b) (hX : X.Alloc h)
    (hsq : A.rows = A.cols) (hr : X.rows = A.rows) (hBr : B.rows = A.rows) (hc : X.cols = B.cols)
    (hu : X.Unique) (hAX : Apart (A.toMat.CellOn (triRegion t d)) X.Cell)
    (hBX : B.toMat.Aligned X.toMat) :
    Ends (Mixed.trsmLeft tA tB A t d B X) h fun _ h' => ∃ v, X.Becomes h h' v ∧
      ∀ i j, i < A.rows → j < X.cols → v i j =
        solveRowAs
          (if t = .upper then MixedOps.subTy D tB (MixedOps.mulTy D tA X.elt) else X.elt)
          X.elt t d A.cols i (fun k => a i k * v k j) (b i j) (a i i) := by
  cases t with
  | upper =>
    exact Mixed.trsmLeft_ends (Mixed.trsmUpperLeft_cols tA tB A d B X hsq hc) hA hB hX hsq hr.symm
      hBr.ge hc hu hAX hBX
  | lower =>
    exact Mixed.trsmLeft_ends (Mixed.trsmLowerLeft_cols A d B X hc) hA hB hX hsq hr.symm
      hBr.ge hc hu hAX hBX

example (d : Diag) : Ends (Mixed.trsmLeft .real .complex (A.view : MatV Num) .upper d T.view
    ⟨T, .complex⟩) (heap Num) fun _ h' => ∃ v, T.Becomes (heap Num) h' v ∧
      ∀ i j, i < 3 → j < 2 → v i j = solveRowAs .complex .complex .upper d 3 i
        (fun k => mvals Num A i k * v k j) (mvals Num T i j) (mvals Num A i i) :=
  C57_trsm_left _ _ _ _ _ _ _ _ _ _ (mholdsV bA) (mholdsV bT) (malloc bT) rfl rfl rfl rfl
    (by view_facts) (by view_facts) (by view_facts)

/-- **C57** `triangular_matrix_matrix_right_solve(A, t, d, B, X)` -/
theorem C57_trsm_right (tA tB : Ty) (A : MatV D) (t : Triangle) (d : Diag) (B : MatV D) (X : TMat Ty)
    (h : Heap D) (a b : Nat → Nat → D)
    (hA : A.HoldsOn h (triRegion t d) a) (hB : B.Holds h b) (hX : X.Alloc h)
    (hsq : A.rows = A.cols) (hr : X.cols = A.cols) (hBr : B.cols = A.cols) (hc : X.rows = B.rows)
    (hu : X.Unique) (hAX : Apart (A.toMat.CellOn (triRegion t d)) X.Cell)
    (hBX : B.toMat.Aligned X.toMat) :
    Ends (Mixed.trsmRight tA tB A t d B X) h fun _ h' => ∃ v, X.Becomes h h' v ∧
      ∀ i j, i < X.rows → j < A.cols → v i j =
        solveRowAs (MixedOps.subTy D tB (MixedOps.mulTy D tA X.elt)) X.elt t.other d A.cols j
          (fun k => v i k * a k j) (b i j) (a j j) :=
  Mixed.trsmRight_ends hA hB hX hsq hr.symm hBr.ge hc hu hAX hBX

example (t : Triangle) (d : Diag) : Ends (Mixed.trsmRight .real .complex (A.view : MatV Num) t d
    W.view ⟨W, .complex⟩) (heap Num) fun _ h' => ∃ v, W.Becomes (heap Num) h' v ∧
      ∀ i j, i < 2 → j < 3 → v i j = solveRowAs .complex .complex t.other d 3 j
        (fun k => v i k * mvals Num A k j) (mvals Num W i j) (mvals Num A j j) :=
  C57_trsm_right _ _ _ _ _ _ _ _ _ _ (mholdsV bA) (mholdsV bW) (malloc bW) rfl rfl rfl rfl
    (by view_facts) (by view_facts) (by view_facts)

end StdBLAS

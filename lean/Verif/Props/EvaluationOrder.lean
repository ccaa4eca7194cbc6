import Verif.Lemmas.Ordered
import Verif.Props.Witness
import Verif.Props.RankUpdates

/-!
# Property C54: the order of the operations is fixed

The element type has `+`, `-`, `*`, `/`, `0`, conjugation and real part, which satisfy no law.  Each
element of a result is one stated expression of the elements of the arguments.  In particular the
result has the same bits whatever the layouts, strides and addresses of the arguments, and whatever
the cells hold that the function does not read.

The examples run in the type `Term` of unevaluated expressions, in which no two different
expressions are equal.
-/

namespace StdBLAS
open Witness
variable {α : Type}

/-- Unevaluated expressions. -/
inductive Term where
  | int (z : ℤ)
  | add (s t : Term)
  | sub (s t : Term)
  | mul (s t : Term)
  | div (s t : Term)
  | conj (t : Term)
  | re (t : Term)

namespace Term
instance : IntCast Term := ⟨int⟩
instance : Zero Term := ⟨int 0⟩
instance : Add Term := ⟨add⟩
instance : Sub Term := ⟨sub⟩
instance : Mul Term := ⟨mul⟩
instance : Div Term := ⟨div⟩
instance : ConjOps Term := ⟨conj, re⟩
end Term

/-- **C54** `dot(v1, v2, init)` -/
theorem C54_dot [Add α] [Mul α] (v1 v2 : VecV α) (init : α) (h : Heap α) (f g : Nat → α)
    (h1 : v1.Holds h f) (h2 : v2.Holds h g) (hext : v1.ext ≤ v2.ext) :
    Ends (dot v1 v2 init) h fun r h' => r = leftSum init v1.ext (fun k => f k * g k) ∧ h' = h :=
  (dot_fold v1 v2 init h f g h1 h2 hext).mono fun _ _ hb => by
    rw [← foldl_up_leftSum]; exact hb

example : Ends (dot (x.view : VecV Term) y.view (.int 5)) (heap Term) fun r h' =>
    r = .int 5 + .int (-7) * .int 3 + .int (-6) * .int 5 + .int (-5) * .int 7 ∧ h' = heap Term :=
  C54_dot _ _ _ _ _ _ (holdsV bx) (holdsV by_) le_rfl

/-- **C54** `dotc(v1, v2, init)` -/
theorem C54_dotc [Add α] [Mul α] [ConjOps α] (v1 v2 : VecV α) (init : α) (h : Heap α)
    (f g : Nat → α) (h1 : v1.Holds h f) (h2 : v2.Holds h g) (hext : v1.ext ≤ v2.ext) :
    Ends (dotc v1 v2 init) h fun r h' =>
      r = leftSum init v1.ext (fun k => ConjOps.conj (f k) * g k) ∧ h' = h :=
  C54_dot v1.conjugated v2 init h (fun k => ConjOps.conj (f k)) g
    (fun i hi => by
      obtain ⟨v, hv, e⟩ := h1 i hi
      exact ⟨v, hv, congrArg ConjOps.conj e⟩) h2 hext

example : Ends (dotc (x.view : VecV Term) y.view (.int 5)) (heap Term) fun r h' =>
    r = .int 5 + .conj (.int (-7)) * .int 3 + .conj (.int (-6)) * .int 5 +
      .conj (.int (-5)) * .int 7 ∧ h' = heap Term :=
  C54_dotc _ _ _ _ _ _ (holdsV bx) (holdsV by_) le_rfl

/-- **C54** `matrix_vector_product(A, x, y)` -/
theorem C54_gemv [Add α] [Mul α] [Zero α] (A : MatV α) (x : VecV α) (y : Vec) (h : Heap α)
    (a : Nat → Nat → α) (f : Nat → α) (hA : A.Holds h a) (hx : x.Holds h f) (hy : y.Alloc h)
    (hrows : y.ext = A.rows) (hcols : A.cols ≤ x.ext) (hu : y.Unique)
    (hAy : Apart A.toMat.Cell y.Cell) (hxy : Apart x.toVec.Cell y.Cell) :
    Ends (gemv A x y) h fun _ h' =>
      y.Becomes h h' fun i => leftSum 0 A.cols fun k => a i k * f k :=
  (gemv_fold A x y h a f hA hx hy hrows hcols hu hAy hxy).mono fun _ _ hb =>
    hb.congr fun _ _ => foldl_up_leftSum _ _ _

example : Ends (gemv (W.view : MatV Term) x.view ⟨2, y.addr⟩) (heap Term) fun _ h' =>
    (⟨2, y.addr⟩ : Vec).Becomes (heap Term) h' fun i => leftSum 0 3 fun k =>
      mvals Term W i k * vals Term x k :=
  C54_gemv _ _ _ _ _ _ (mholdsV bW) (holdsV bx)
    (alloc fun i hi => by_ i (by simp only [y] at *; omega)) rfl le_rfl
    (by view_facts) (by view_facts) (by view_facts)

/-- **C54** `matrix_vector_product(A, x, y, z)`: starts from `y`. -/
theorem C54_gemv_update [Add α] [Mul α] (A : MatV α) (x y : VecV α) (z : Vec) (h : Heap α)
    (a : Nat → Nat → α) (f g : Nat → α) (hA : A.Holds h a) (hx : x.Holds h f) (hy : y.Holds h g)
    (hz : z.Alloc h) (hrows : z.ext = A.rows) (hcols : A.cols ≤ x.ext) (hye : A.rows ≤ y.ext)
    (hu : z.Unique) (hAz : Apart A.toMat.Cell z.Cell) (hxz : Apart x.toVec.Cell z.Cell)
    (hyz : y.toVec.Aligned z) :
    Ends (gemvUpdate A x y z) h fun _ h' =>
      z.Becomes h h' fun i => leftSum (g i) A.cols fun k => a i k * f k :=
  (gemvUpdate_fold A x y z h a f g hA hx hy hz hrows hcols hye hu hAz hxz hyz).mono fun _ _ hb =>
    hb.congr fun _ _ => foldl_up_leftSum _ _ _

example : Ends (gemvUpdate (A.view : MatV Term) x.view y.view y) (heap Term) fun _ h' =>
    y.Becomes (heap Term) h' fun i => leftSum (vals Term y i) 3 fun k =>
      mvals Term A i k * vals Term x k :=
  C54_gemv_update _ _ _ _ _ _ _ _ (mholdsV bA) (holdsV bx) (holdsV by_) (alloc by_) rfl le_rfl
    le_rfl (by view_facts) (by view_facts) (by view_facts) (by view_facts)

/-- **C54** `symmetric_matrix_vector_product(A, t, x, y)` -/
theorem C54_symv [Add α] [Mul α] [Zero α] (A : MatV α) (t : Triangle) (x : VecV α) (y : Vec)
    (h : Heap α) (a : Nat → Nat → α) (f : Nat → α) (hA : A.HoldsOn h t.region a)
    (hx : x.Holds h f) (hy : y.Alloc h) (hsq : A.rows = A.cols) (hext : A.rows = y.ext)
    (hxe : A.cols ≤ x.ext) (hu : y.Unique) (hAy : Apart (A.toMat.CellOn t.region) y.Cell)
    (hxy : Apart x.toVec.Cell y.Cell) :
    Ends (symv A t x y) h fun _ h' =>
      y.Becomes h h' fun i => leftSum 0 A.cols fun k => symOf t a i k * f k := by
  unfold symv
  rw [ends_bind]
  exact (fillZero_ends hext hy hu).mono fun _ h1 hb =>
    symvAcc_seq hA hx hsq hext hxe hu hAy hxy hb

example (t : Triangle) : Ends (symv (A.view : MatV Term) t x.view y) (heap Term) fun _ h' =>
    y.Becomes (heap Term) h' fun i => leftSum 0 3 fun k =>
      symOf t (mvals Term A) i k * vals Term x k :=
  C54_symv _ _ _ _ _ _ _ (mholdsV bA) (holdsV bx) (alloc by_) rfl rfl le_rfl (by view_facts)
    (by view_facts) (by view_facts)

/-- **C54** `symmetric_matrix_vector_product(A, t, x, y, z)` -/
theorem C54_symv_update [Add α] [Mul α] (A : MatV α) (t : Triangle) (x y : VecV α) (z : Vec)
    (h : Heap α) (a : Nat → Nat → α) (f g : Nat → α) (hA : A.HoldsOn h t.region a)
    (hx : x.Holds h f) (hy : y.Holds h g) (hz : z.Alloc h) (hsq : A.rows = A.cols)
    (hext : A.rows = z.ext) (hxe : A.cols ≤ x.ext) (hye : A.rows ≤ y.ext) (hu : z.Unique)
    (hAz : Apart (A.toMat.CellOn t.region) z.Cell) (hxz : Apart x.toVec.Cell z.Cell)
    (hyz : y.toVec.Aligned z) :
    Ends (symvUpdate A t x y z) h fun _ h' =>
      z.Becomes h h' fun i => leftSum (g i) A.cols fun k => symOf t a i k * f k := by
  unfold symvUpdate
  rw [ends_bind]
  exact (fillFrom_ends hext hy hye hz hu hyz).mono fun _ h1 hb =>
    symvAcc_seq hA hx hsq hext hxe hu hAz hxz hb

example (t : Triangle) : Ends (symvUpdate (A.view : MatV Term) t x.view y.view y) (heap Term)
    fun _ h' => y.Becomes (heap Term) h' fun i => leftSum (vals Term y i) 3 fun k =>
      symOf t (mvals Term A) i k * vals Term x k :=
  C54_symv_update _ _ _ _ _ _ _ _ _ (mholdsV bA) (holdsV bx) (holdsV by_) (alloc by_) rfl rfl
    le_rfl le_rfl (by view_facts) (by view_facts) (by view_facts) (by view_facts)

/-- **C54** `hermitian_matrix_vector_product(A, t, x, y)` -/
theorem C54_hemv [Add α] [Mul α] [Zero α] [ConjOps α] (A : MatV α) (t : Triangle) (x : VecV α)
    (y : Vec) (h : Heap α) (a : Nat → Nat → α) (f : Nat → α) (hA : A.HoldsOn h t.region a)
    (hx : x.Holds h f) (hy : y.Alloc h) (hsq : A.rows = A.cols) (hext : A.rows = y.ext)
    (hxe : A.cols ≤ x.ext) (hu : y.Unique) (hAy : Apart (A.toMat.CellOn t.region) y.Cell)
    (hxy : Apart x.toVec.Cell y.Cell) :
    Ends (hemv A t x y) h fun _ h' =>
      y.Becomes h h' fun i => leftSum 0 A.cols fun k => hermOf t a i k * f k := by
  unfold hemv
  rw [ends_bind]
  exact (fillZero_ends hext hy hu).mono fun _ h1 hb =>
    hemvAcc_seq hA hx hsq hext hxe hu hAy hxy hb

example (t : Triangle) : Ends (hemv (A.view : MatV Term) t x.view y) (heap Term) fun _ h' =>
    y.Becomes (heap Term) h' fun i => leftSum 0 3 fun k =>
      hermOf t (mvals Term A) i k * vals Term x k :=
  C54_hemv _ _ _ _ _ _ _ (mholdsV bA) (holdsV bx) (alloc by_) rfl rfl le_rfl (by view_facts)
    (by view_facts) (by view_facts)

/-- **C54** `hermitian_matrix_vector_product(A, t, x, y, z)` -/
theorem C54_hemv_update [Add α] [Mul α] [ConjOps α] (A : MatV α) (t : Triangle) (x y : VecV α)
    (z : Vec) (h : Heap α) (a : Nat → Nat → α) (f g : Nat → α) (hA : A.HoldsOn h t.region a)
    (hx : x.Holds h f) (hy : y.Holds h g) (hz : z.Alloc h) (hsq : A.rows = A.cols)
    (hext : A.rows = z.ext) (hxe : A.cols ≤ x.ext) (hye : A.rows ≤ y.ext) (hu : z.Unique)
    (hAz : Apart (A.toMat.CellOn t.region) z.Cell) (hxz : Apart x.toVec.Cell z.Cell)
    (hyz : y.toVec.Aligned z) :
    Ends (hemvUpdate A t x y z) h fun _ h' =>
      z.Becomes h h' fun i => leftSum (g i) A.cols fun k => hermOf t a i k * f k := by
  unfold hemvUpdate
  rw [ends_bind]
  exact (fillFrom_ends hext hy hye hz hu hyz).mono fun _ h1 hb =>
    hemvAcc_seq hA hx hsq hext hxe hu hAz hxz hb

example (t : Triangle) : Ends (hemvUpdate (A.view : MatV Term) t x.view y.view y) (heap Term)
    fun _ h' => y.Becomes (heap Term) h' fun i => leftSum (vals Term y i) 3 fun k =>
      hermOf t (mvals Term A) i k * vals Term x k :=
  C54_hemv_update _ _ _ _ _ _ _ _ _ (mholdsV bA) (holdsV bx) (holdsV by_) (alloc by_) rfl rfl
    le_rfl le_rfl (by view_facts) (by view_facts) (by view_facts) (by view_facts)

/-- **C54** `triangular_matrix_vector_product(A, t, d, x, y)` -/
theorem C54_trmv [Add α] [Mul α] [Zero α] (A : MatV α) (t : Triangle) (d : Diag) (x : VecV α)
    (y : Vec) (h : Heap α) (a : Nat → Nat → α) (f : Nat → α) (hA : A.HoldsOn h (triRegion t d) a)
    (hx : x.Holds h f) (hy : y.Alloc h) (hsq : A.rows = A.cols) (hext : A.rows = y.ext)
    (hxe : A.cols ≤ x.ext) (hu : y.Unique) (hAy : Apart (A.toMat.CellOn (triRegion t d)) y.Cell)
    (hxy : Apart x.toVec.Cell y.Cell) :
    Ends (trmv A t d x y) h fun _ h' =>
      y.Becomes h h' fun i => triSeq t d A.cols a f 0 i := by
  unfold trmv
  rw [ends_bind]
  exact (fillZero_ends hext hy hu).mono fun _ h1 hb =>
    trmvAcc_seq hA hx hsq hext hxe hu hAy hxy hb

example (t : Triangle) (d : Diag) : Ends (trmv (A.view : MatV Term) t d x.view y) (heap Term)
    fun _ h' => y.Becomes (heap Term) h' fun i =>
      triSeq t d 3 (mvals Term A) (vals Term x) 0 i :=
  C54_trmv _ _ _ _ _ _ _ _ (mholdsV bA) (holdsV bx) (alloc by_) rfl rfl le_rfl (by view_facts)
    (by view_facts) (by view_facts)

/-- **C54** `triangular_matrix_vector_product(A, t, d, x, y, z)` -/
theorem C54_trmv_update [Add α] [Mul α] (A : MatV α) (t : Triangle) (d : Diag) (x y : VecV α)
    (z : Vec) (h : Heap α) (a : Nat → Nat → α) (f g : Nat → α)
    (hA : A.HoldsOn h (triRegion t d) a) (hx : x.Holds h f) (hy : y.Holds h g) (hz : z.Alloc h)
    (hsq : A.rows = A.cols) (hext : A.rows = z.ext) (hxe : A.cols ≤ x.ext) (hye : A.rows ≤ y.ext)
    (hu : z.Unique) (hAz : Apart (A.toMat.CellOn (triRegion t d)) z.Cell)
    (hxz : Apart x.toVec.Cell z.Cell) (hyz : y.toVec.Aligned z) :
    Ends (trmvUpdate A t d x y z) h fun _ h' =>
      z.Becomes h h' fun i => triSeq t d A.cols a f (g i) i := by
  unfold trmvUpdate
  rw [ends_bind]
  exact (fillFrom_ends hext hy hye hz hu hyz).mono fun _ h1 hb =>
    trmvAcc_seq hA hx hsq hext hxe hu hAz hxz hb

example (t : Triangle) (d : Diag) :
    Ends (trmvUpdate (A.view : MatV Term) t d x.view y.view y) (heap Term)
    fun _ h' => y.Becomes (heap Term) h' fun i =>
      triSeq t d 3 (mvals Term A) (vals Term x) (vals Term y i) i :=
  C54_trmv_update _ _ _ _ _ _ _ _ _ _ (mholdsV bA) (holdsV bx) (holdsV by_) (alloc by_) rfl rfl
    le_rfl le_rfl (by view_facts) (by view_facts) (by view_facts) (by view_facts)

/-- **C54** `triangular_matrix_vector_product(A, t, d, y)`, in place: the diagonal element is the
right factor. -/
theorem C54_trmv_in_place [Add α] [Mul α] (A : MatV α) (t : Triangle) (d : Diag) (y : Vec)
    (h : Heap α) (a : Nat → Nat → α) (f : Nat → α) (hA : A.HoldsOn h (triRegion t d) a)
    (hy : y.Holds h f) (hsq : A.rows = A.cols) (hext : A.rows = y.ext) (hu : y.Unique)
    (hAy : Apart (A.toMat.CellOn (triRegion t d)) y.Cell) :
    Ends (trmvInPlace A t d y) h fun _ h' =>
      y.Becomes h h' fun i => triSeqInPlace t A.cols a f
        (if d = .explicit then f i * a i i else f i) i :=
  trmvInPlace_seq hA hy hsq hext hu hAy

example (t : Triangle) (d : Diag) : Ends (trmvInPlace (A.view : MatV Term) t d y) (heap Term)
    fun _ h' => y.Becomes (heap Term) h' fun i => triSeqInPlace t 3 (mvals Term A) (vals Term y)
      (if d = .explicit then vals Term y i * mvals Term A i i else vals Term y i) i :=
  C54_trmv_in_place _ _ _ _ _ _ _ (mholdsV bA) (holds by_) rfl rfl (by view_facts) (by view_facts)

/-- **C54** `matrix_product(A, B, C)` -/
theorem C54_gemm [Add α] [Mul α] [Zero α] (A B : MatV α) (C : Mat) (h : Heap α)
    (a b : Nat → Nat → α) (hA : A.Holds h a) (hB : B.Holds h b) (hC : C.Alloc h)
    (hr : C.rows = A.rows) (hk : A.cols = B.rows) (hc : C.cols = B.cols) (hu : C.Unique)
    (hAC : Apart A.toMat.Cell C.Cell) (hBC : Apart B.toMat.Cell C.Cell) :
    Ends (gemm A B C) h fun _ h' => C.Becomes h h' fun i j =>
      leftSum 0 A.cols fun k => a i k * b k j :=
  (gemm_fold hA hB hC hr.le hk.le hc.le hu hAC hBC).mono fun _ _ hb =>
    Mat.BecomesOn.congr hb fun _ _ _ _ _ => foldl_up_leftSum _ _ _

example : Ends (gemm (T.view : MatV Term) W.view C) (heap Term) fun _ h' =>
    C.Becomes (heap Term) h' fun i j => leftSum 0 2 fun k =>
      mvals Term T i k * mvals Term W k j :=
  C54_gemm _ _ _ _ _ _ (mholdsV bT) (mholdsV bW) (malloc bC) rfl rfl rfl
    (by view_facts) (by view_facts) (by view_facts)

/-- **C54** `matrix_product(A, B, E, C)` -/
theorem C54_gemm_update [Add α] [Mul α] (A B E : MatV α) (C : Mat)
    (h : Heap α) (a b e : Nat → Nat → α) (hA : A.Holds h a) (hB : B.Holds h b) (hE : E.Holds h e)
    (hC : C.Alloc h) (hr : C.rows = A.rows) (hk : A.cols = B.rows) (hc : C.cols = B.cols)
    (her : C.rows ≤ E.rows) (hec : C.cols ≤ E.cols) (hu : C.Unique)
    (hAC : Apart A.toMat.Cell C.Cell) (hBC : Apart B.toMat.Cell C.Cell) (hEC : E.toMat.Aligned C) :
    Ends (gemmUpdate A B E C) h fun _ h' => C.Becomes h h' fun i j =>
      leftSum (e i j) A.cols fun k => a i k * b k j :=
  (gemmUpdate_fold hA hB hE hC hr.le hk.le hc.le her hec hu hAC hBC hEC).mono fun _ _ hb =>
    Mat.BecomesOn.congr hb fun _ _ _ _ _ => foldl_up_leftSum _ _ _

example : Ends (gemmUpdate (T.view : MatV Term) W.view C.view C) (heap Term) fun _ h' =>
    C.Becomes (heap Term) h' fun i j => leftSum (mvals Term C i j) 2 fun k =>
      mvals Term T i k * mvals Term W k j :=
  C54_gemm_update _ _ _ _ _ _ _ _ (mholdsV bT) (mholdsV bW) (mholdsV bC) (malloc bC) rfl rfl
    rfl le_rfl le_rfl (by view_facts) (by view_facts) (by view_facts) (by view_facts)

/-- **C54** `symmetric_matrix_product(A, t, B, C)` -/
theorem C54_symm_left [Add α] [Mul α] [Zero α] (A : MatV α) (t : Triangle)
    (B : MatV α) (C : Mat) (h : Heap α) (a b : Nat → Nat → α) (hA : A.HoldsOn h t.region a)
    (hB : B.Holds h b) (hC : C.Alloc h) (hsq : A.rows = A.cols) (hr : C.rows = A.rows)
    (hk : A.cols = B.rows) (hc : C.cols = B.cols) (hu : C.Unique)
    (hAC : Apart (A.toMat.CellOn t.region) C.Cell) (hBC : Apart B.toMat.Cell C.Cell) :
    Ends (symmLeft A t B C) h fun _ h' => C.Becomes h h' fun i j =>
      leftSum 0 A.cols fun k => symOf t a i k * b k j :=
  (symmLeft_fold hA hB hC hsq hr.le hk.le hc.le hu hAC hBC).mono fun _ _ hb =>
    Mat.BecomesOn.congr hb fun _ _ _ _ _ => foldl_up_leftSum _ _ _

/-- **C54** `symmetric_matrix_product(B, A, t, C)` -/
theorem C54_symm_right [Add α] [Mul α] [Zero α] (A : MatV α) (t : Triangle)
    (B : MatV α) (C : Mat) (h : Heap α) (a b : Nat → Nat → α) (hA : A.HoldsOn h t.region a)
    (hB : B.Holds h b) (hC : C.Alloc h) (hsq : A.rows = A.cols) (hr : C.rows = B.rows)
    (hk : B.cols = A.rows) (hc : C.cols = A.cols) (hu : C.Unique)
    (hAC : Apart (A.toMat.CellOn t.region) C.Cell) (hBC : Apart B.toMat.Cell C.Cell) :
    Ends (symmRight B A t C) h fun _ h' => C.Becomes h h' fun i j =>
      leftSum 0 A.cols fun k => b i k * symOf t a k j :=
  (symmRight_fold hA hB hC hsq hr.le (by omega) hc.le hu hAC hBC).mono fun _ _ hb =>
    Mat.BecomesOn.congr hb fun _ _ _ _ _ => foldl_up_leftSum _ _ _

example (t : Triangle) : Ends (symmLeft (A.view : MatV Term) t T.view ⟨3, 2, C.addr⟩) (heap Term)
    fun _ h' => (⟨3, 2, C.addr⟩ : Mat).Becomes (heap Term) h' fun i j => leftSum 0 3 fun k =>
      symOf t (mvals Term A) i k * mvals Term T k j :=
  C54_symm_left _ _ _ _ _ _ _ (mholdsV bA) (mholdsV bT)
    (malloc fun i j hi hj => bC i j hi (by simp only [C] at *; omega)) rfl rfl rfl rfl
    (by view_facts) (by view_facts) (by view_facts)

example (t : Triangle) : Ends (symmRight (W.view : MatV Term) A.view t ⟨2, 3, C.addr⟩) (heap Term)
    fun _ h' => (⟨2, 3, C.addr⟩ : Mat).Becomes (heap Term) h' fun i j => leftSum 0 3 fun k =>
      mvals Term W i k * symOf t (mvals Term A) k j :=
  C54_symm_right _ _ _ _ _ _ _ (mholdsV bA) (mholdsV bW)
    (malloc fun i j hi hj => bC i j (by simp only [C] at *; omega) hj) rfl rfl rfl rfl
    (by view_facts) (by view_facts) (by view_facts)

/-- **C54** `hermitian_matrix_product(A, t, B, C)` -/
theorem C54_hemm_left [Add α] [Mul α] [Zero α] [ConjOps α] (A : MatV α) (t : Triangle)
    (B : MatV α) (C : Mat) (h : Heap α) (a b : Nat → Nat → α) (hA : A.HoldsOn h t.region a)
    (hB : B.Holds h b) (hC : C.Alloc h) (hsq : A.rows = A.cols) (hr : C.rows = A.rows)
    (hk : A.cols = B.rows) (hc : C.cols = B.cols) (hu : C.Unique)
    (hAC : Apart (A.toMat.CellOn t.region) C.Cell) (hBC : Apart B.toMat.Cell C.Cell) :
    Ends (hemmLeft A t B C) h fun _ h' => C.Becomes h h' fun i j =>
      leftSum 0 A.cols fun k => hermOf t a i k * b k j := by
  refine (hemmLeft_fold hA hB hC hsq hr.le hk.le hc.le hu hAC hBC).mono fun _ _ hb =>
    Mat.BecomesOn.congr hb fun i j hi _ _ => ?_
  conv_rhs => rw [show A.cols = i + 1 + (A.cols - (i + 1)) by omega, leftSum_add]
  rw [foldl_range'_leftSum, Nat.sub_zero, foldl_up_leftSum]
  rfl

/-- **C54** `hermitian_matrix_product(B, A, t, C)`: the diagonal is used as stored. -/
theorem C54_hemm_right [Add α] [Mul α] [Zero α] [ConjOps α] (A : MatV α) (t : Triangle)
    (B : MatV α) (C : Mat) (h : Heap α) (a b : Nat → Nat → α) (hA : A.HoldsOn h t.region a)
    (hB : B.Holds h b) (hC : C.Alloc h) (hsq : A.rows = A.cols) (hr : C.rows = B.rows)
    (hk : B.cols = A.rows) (hc : C.cols = A.cols) (hu : C.Unique)
    (hAC : Apart (A.toMat.CellOn t.region) C.Cell) (hBC : Apart B.toMat.Cell C.Cell) :
    Ends (hemmRight B A t C) h fun _ h' => C.Becomes h h' fun i j =>
      leftSum 0 A.cols fun k => b i k * if k = j then a j j else hermOf t a k j := by
  classical
  refine (hemmRight_fold hA hB hC hsq hr.le (by omega) hc.le hu hAC hBC).mono fun _ _ hb =>
    Mat.BecomesOn.congr hb fun i j _ _ _ => (foldl_up_leftSum _ _ _).trans
      (leftSum_congr fun k _ => ?_)
  congr 1
  unfold hermStored hermOf
  by_cases e : k = j
  · subst e
    rw [if_pos rfl, if_pos (by cases t <;> exact le_refl k)]
  · rw [if_neg e, if_neg e]

example (t : Triangle) : Ends (hemmLeft (A.view : MatV Term) t T.view ⟨3, 2, C.addr⟩) (heap Term)
    fun _ h' => (⟨3, 2, C.addr⟩ : Mat).Becomes (heap Term) h' fun i j => leftSum 0 3 fun k =>
      hermOf t (mvals Term A) i k * mvals Term T k j :=
  C54_hemm_left _ _ _ _ _ _ _ (mholdsV bA) (mholdsV bT)
    (malloc fun i j hi hj => bC i j hi (by simp only [C] at *; omega)) rfl rfl rfl rfl
    (by view_facts) (by view_facts) (by view_facts)

example (t : Triangle) : Ends (hemmRight (W.view : MatV Term) A.view t ⟨2, 3, C.addr⟩) (heap Term)
    fun _ h' => (⟨2, 3, C.addr⟩ : Mat).Becomes (heap Term) h' fun i j => leftSum 0 3 fun k =>
      mvals Term W i k * if k = j then mvals Term A j j else hermOf t (mvals Term A) k j :=
  C54_hemm_right _ _ _ _ _ _ _ (mholdsV bA) (mholdsV bW)
    (malloc fun i j hi hj => bC i j (by simp only [C] at *; omega) hj) rfl rfl rfl rfl
    (by view_facts) (by view_facts) (by view_facts)

/-- **C54** `triangular_matrix_product(A, t, d, B, C)` -/
theorem C54_trmm_left [Add α] [Mul α] [Zero α] (A : MatV α) (t : Triangle) (d : Diag)
    (B : MatV α) (C : Mat) (h : Heap α) (a b : Nat → Nat → α)
    (hA : A.HoldsOn h (triRegion t d) a) (hB : B.Holds h b) (hC : C.Alloc h)
    (hsq : A.rows = A.cols) (hr : C.rows = A.rows) (hk : A.cols = B.rows) (hc : C.cols = B.cols)
    (hu : C.Unique) (hAC : Apart (A.toMat.CellOn (triRegion t d)) C.Cell)
    (hBC : Apart B.toMat.Cell C.Cell) :
    Ends (trmmLeft A t d B C) h fun _ h' => C.Becomes h h' fun i j =>
      triElement (t = .lower) d A.rows i (fun k => a i k * b k j)
        (if d = .explicit then a i i * b i j else b i j) 0 :=
  (trmmLeft_fold hA hB hC hsq hr (by omega) hc.le hu hAC hBC).mono fun _ _ hb =>
    Mat.BecomesOn.congr hb fun i j hi _ _ => by
      rw [triElem_eq hi, hr]

/-- **C54** `triangular_matrix_product(B, A, t, d, C)` -/
theorem C54_trmm_right [Add α] [Mul α] [Zero α] (A : MatV α) (t : Triangle) (d : Diag)
    (B : MatV α) (C : Mat) (h : Heap α) (a b : Nat → Nat → α)
    (hA : A.HoldsOn h (triRegion t d) a) (hB : B.Holds h b) (hC : C.Alloc h)
    (hsq : A.rows = A.cols) (hr : C.rows = B.rows) (hk : B.cols = A.rows) (hc : C.cols = A.cols)
    (hu : C.Unique) (hAC : Apart (A.toMat.CellOn (triRegion t d)) C.Cell)
    (hBC : Apart B.toMat.Cell C.Cell) :
    Ends (trmmRight B A t d C) h fun _ h' => C.Becomes h h' fun i j =>
      triElement (t = .upper) d A.rows j (fun k => b i k * a k j)
        (if d = .explicit then b i j * a j j else b i j) 0 :=
  (trmmRight_fold hA hB hC hsq hc (by omega) hr.le hu hAC hBC).mono fun _ _ hb =>
    Mat.BecomesOn.congr hb fun i j _ hj _ => by
      rw [triElem_eq hj, hc, hsq]
      congr 1
      cases t <;> rfl

example (t : Triangle) (d : Diag) :
    Ends (trmmLeft (A.view : MatV Term) t d T.view ⟨3, 2, C.addr⟩) (heap Term)
    fun _ h' => (⟨3, 2, C.addr⟩ : Mat).Becomes (heap Term) h' fun i j =>
      triElement (t = .lower) d 3 i (fun k => mvals Term A i k * mvals Term T k j)
        (if d = .explicit then mvals Term A i i * mvals Term T i j else mvals Term T i j) 0 :=
  C54_trmm_left _ _ _ _ _ _ _ _ (mholdsV bA) (mholdsV bT)
    (malloc fun i j hi hj => bC i j hi (by simp only [C] at *; omega)) rfl rfl rfl rfl
    (by view_facts) (by view_facts) (by view_facts)

example (t : Triangle) (d : Diag) :
    Ends (trmmRight (W.view : MatV Term) A.view t d ⟨2, 3, C.addr⟩) (heap Term)
    fun _ h' => (⟨2, 3, C.addr⟩ : Mat).Becomes (heap Term) h' fun i j =>
      triElement (t = .upper) d 3 j (fun k => mvals Term W i k * mvals Term A k j)
        (if d = .explicit then mvals Term W i j * mvals Term A j j else mvals Term W i j) 0 :=
  C54_trmm_right _ _ _ _ _ _ _ _ (mholdsV bA) (mholdsV bW)
    (malloc fun i j hi hj => bC i j (by simp only [C] at *; omega) hj) rfl rfl rfl rfl
    (by view_facts) (by view_facts) (by view_facts)

/-- **C54** `triangular_matrix_left_product(A, t, d, C)` -/
theorem C54_trmm_left_in_place [Add α] [Mul α] (A : MatV α) (t : Triangle) (d : Diag) (C : Mat)
    (h : Heap α) (a c : Nat → Nat → α) (hA : A.HoldsOn h (triRegion t d) a) (hC : C.Holds h c)
    (hsq : A.rows = A.cols) (hr : C.rows = A.rows) (hu : C.Unique)
    (hAC : Apart (A.toMat.CellOn (triRegion t d)) C.Cell) :
    Ends (trmmLeftInPlace A t d C) h fun _ h' => C.Becomes h h' fun i j =>
      triSeqInPlace t A.cols a (fun k => c k j)
        (if d = .explicit then a i i * c i j else c i j) i :=
  trmmLeftInPlace_seq hA hC hsq hr hu hAC

example (t : Triangle) (d : Diag) : Ends (trmmLeftInPlace (A.view : MatV Term) t d T) (heap Term)
    fun _ h' => T.Becomes (heap Term) h' fun i j =>
      triSeqInPlace t 3 (mvals Term A) (fun k => mvals Term T k j)
        (if d = .explicit then mvals Term A i i * mvals Term T i j else mvals Term T i j) i :=
  C54_trmm_left_in_place _ _ _ _ _ _ _ (mholdsV bA) (mholds bT) rfl rfl (by view_facts)
    (by view_facts)

/-- **C54** `triangular_matrix_right_product(A, t, d, C)`: the columns of the strict triangle in
ascending order, after the diagonal. -/
theorem C54_trmm_right_in_place [Add α] [Mul α] (A : MatV α) (t : Triangle) (d : Diag) (C : Mat)
    (h : Heap α) (a c : Nat → Nat → α) (hA : A.HoldsOn h (triRegion t d) a) (hC : C.Holds h c)
    (hsq : A.rows = A.cols) (hr : C.cols = A.cols) (hu : C.Unique)
    (hAC : Apart (A.toMat.CellOn (triRegion t d)) C.Cell) :
    Ends (trmmRightInPlace A t d C) h fun _ h' => C.Becomes h h' fun i j =>
      match t with
      | .upper => leftSum (if d = .explicit then c i j * a j j else c i j) j fun k =>
          c i k * a k j
      | .lower => leftSum (if d = .explicit then c i j * a j j else c i j) (A.cols - 1 - j) fun k =>
          c i (j + 1 + k) * a (j + 1 + k) j := by
  refine (trmmRightInPlace_fold hA hC hsq hr hu hAC).mono fun _ _ hb =>
    Mat.BecomesOn.congr hb fun i j _ hj _ => ?_
  unfold rightElem rightRest
  cases t
  · simp only [Triangle.flip, restOf, foldl_range'_leftSum, Nat.zero_add]
  · simp only [Triangle.flip, restOf, foldl_range'_leftSum]
    rw [hr, show A.cols - (j + 1) = A.cols - 1 - j by omega]

example (d : Diag) : Ends (trmmRightInPlace (A.view : MatV Term) .upper d W) (heap Term)
    fun _ h' => W.Becomes (heap Term) h' fun i j =>
      leftSum (if d = .explicit then mvals Term W i j * mvals Term A j j else mvals Term W i j) j
        fun k => mvals Term W i k * mvals Term A k j :=
  C54_trmm_right_in_place _ _ _ _ _ _ _ (mholdsV bA) (mholds bW) rfl rfl (by view_facts)
    (by view_facts)

example (d : Diag) : Ends (trmmRightInPlace (A.view : MatV Term) .lower d W) (heap Term)
    fun _ h' => W.Becomes (heap Term) h' fun i j =>
      leftSum (if d = .explicit then mvals Term W i j * mvals Term A j j else mvals Term W i j)
        (2 - j) fun k => mvals Term W i (j + 1 + k) * mvals Term A (j + 1 + k) j :=
  C54_trmm_right_in_place _ _ _ _ _ _ _ (mholdsV bA) (mholds bW) rfl rfl (by view_facts)
    (by view_facts)

/-! ## Triangular solves -/

/-- **C54** `triangular_matrix_vector_solve(A, t, d, B, X)` -/
theorem C54_trsv [Sub α] [Mul α] [Div α] (A : MatV α) (t : Triangle) (d : Diag) (B : VecV α)
    (X : Vec) (h : Heap α) (a : Nat → Nat → α) (b : Nat → α)
    (hA : A.HoldsOn h (triRegion t d) a) (hB : B.Holds h b) (hX : X.Alloc h)
    (hsq : A.rows = A.cols) (hext : A.rows = X.ext) (hBe : A.rows ≤ B.ext) (hu : X.Unique)
    (hAX : Apart (A.toMat.CellOn (triRegion t d)) X.Cell) (hBX : B.toVec.Aligned X) :
    Ends (trsv (· / ·) A t d B X) h fun _ h' => ∃ v, X.Becomes h h' v ∧
      ∀ i, i < A.rows → v i = solveRow t d A.cols i (fun k => a i k * v k) (b i) (a i i) := by
  refine (trsv_fold _ hA hB hX hsq hext hBe hu hAX hBX).mono ?_
  rintro _ h' ⟨v, hb, hv⟩
  exact ⟨v, hb, fun i hi => (hv i hi).trans (subRow_eq ..)⟩

example (t : Triangle) (d : Diag) : Ends (trsv (· / ·) (A.view : MatV Term) t d x.view x)
    (heap Term) fun _ h' => ∃ v, x.Becomes (heap Term) h' v ∧ ∀ i, i < 3 →
      v i = solveRow t d 3 i (fun k => mvals Term A i k * v k) (vals Term x i) (mvals Term A i i) :=
  C54_trsv _ _ _ _ _ _ _ _ (mholdsV bA) (holdsV bx) (alloc bx) rfl rfl le_rfl
    (by view_facts) (by view_facts) (by view_facts)

/-- **C54** `triangular_matrix_matrix_left_solve(A, t, d, B, X)` -/
theorem C54_trsm_left [Sub α] [Mul α] [Div α] (A : MatV α) (t : Triangle) (d : Diag) (B : MatV α)
    (X : Mat) (h : Heap α) (a b : Nat → Nat → α)
    (hA : A.HoldsOn h (triRegion t d) a) (hB : B.Holds h b) (hX : X.Alloc h)
    (hsq : A.rows = A.cols) (hr : X.rows = A.rows) (hBr : B.rows = A.rows) (hc : X.cols = B.cols)
    (hu : X.Unique) (hAX : Apart (A.toMat.CellOn (triRegion t d)) X.Cell)
    (hBX : B.toMat.Aligned X) :
    Ends (trsmLeft A t d B X) h fun _ h' => ∃ v, X.Becomes h h' v ∧
      ∀ i j, i < A.rows → j < X.cols →
        v i j = solveRow t d A.cols i (fun k => a i k * v k j) (b i j) (a i i) := by
  refine (trsmLeft_fold hA hB hX hsq hr.symm hBr.ge hc hu hAX hBX).mono ?_
  rintro _ h' ⟨v, hb, hv⟩
  exact ⟨v, hb, fun i j hi hj => (hv j hj i hi).trans (subRow_eq ..)⟩

example (t : Triangle) (d : Diag) : Ends (trsmLeft (A.view : MatV Term) t d T.view T)
    (heap Term) fun _ h' => ∃ v, T.Becomes (heap Term) h' v ∧ ∀ i j, i < 3 → j < 2 →
      v i j = solveRow t d 3 i (fun k => mvals Term A i k * v k j) (mvals Term T i j)
        (mvals Term A i i) :=
  C54_trsm_left _ _ _ _ _ _ _ _ (mholdsV bA) (mholdsV bT) (malloc bT) rfl rfl rfl rfl
    (by view_facts) (by view_facts) (by view_facts)

/-- **C54** `triangular_matrix_matrix_right_solve(A, t, d, B, X)` -/
theorem C54_trsm_right [Sub α] [Mul α] [Div α] (A : MatV α) (t : Triangle) (d : Diag) (B : MatV α)
    (X : Mat) (h : Heap α) (a b : Nat → Nat → α)
    (hA : A.HoldsOn h (triRegion t d) a) (hB : B.Holds h b) (hX : X.Alloc h)
    (hsq : A.rows = A.cols) (hr : X.cols = A.cols) (hBr : B.cols = A.cols) (hc : X.rows = B.rows)
    (hu : X.Unique) (hAX : Apart (A.toMat.CellOn (triRegion t d)) X.Cell)
    (hBX : B.toMat.Aligned X) :
    Ends (trsmRight A t d B X) h fun _ h' => ∃ v, X.Becomes h h' v ∧
      ∀ i j, i < X.rows → j < A.cols →
        v i j = solveRow t.other d A.cols j (fun k => v i k * a k j) (b i j) (a j j) := by
  refine (trsmRight_fold hA hB hX hsq hr.symm hBr.ge hc hu hAX hBX).mono ?_
  rintro _ h' ⟨v, hb, hv⟩
  refine ⟨v, hb, fun i j hi hj => (hv i hi j hj).trans ((@subRow_eq _ _ mulFlip _ _ _ _ _ _ _ _).trans ?_)⟩
  rw [hsq]
  cases t <;> rfl

example (t : Triangle) (d : Diag) : Ends (trsmRight (A.view : MatV Term) t d W.view W)
    (heap Term) fun _ h' => ∃ v, W.Becomes (heap Term) h' v ∧ ∀ i j, i < 2 → j < 3 →
      v i j = solveRow t.other d 3 j (fun k => v i k * mvals Term A k j) (mvals Term W i j)
        (mvals Term A j j) :=
  C54_trsm_right _ _ _ _ _ _ _ _ (mholdsV bA) (mholdsV bW) (malloc bW) rfl rfl rfl rfl
    (by view_facts) (by view_facts) (by view_facts)

/-! ## Rank-k updates -/

/-- **C54** `symmetric_matrix_rank_k_update(A, C, t)` -/
theorem C54_syrk [Add α] [Mul α] (A : MatV α) (C : Mat) (t : Triangle)
    (h : Heap α) (a c : Nat → Nat → α) (hA : A.Holds h a) (hC : C.HoldsOn h t.region c)
    (hsq : C.rows = C.cols) (hAe : C.rows ≤ A.rows) (hu : C.UniqueOn t.region)
    (hAC : Apart A.toMat.Cell (C.CellOn t.region)) :
    Ends (syrk A C t) h fun _ h' => C.BecomesOn h h' t.region fun i j =>
      leftSum (c i j) A.cols fun k => a i k * a j k :=
  (syrk_fold A C t h a c hA hC hsq hAe hu hAC).mono fun _ _ hb =>
    hb.congr fun _ _ _ _ _ => foldl_up_leftSum _ _ _

example (t : Triangle) : Ends (syrk (T.view : MatV Term) C t) (heap Term) fun _ h' =>
    C.BecomesOn (heap Term) h' t.region fun i j =>
      leftSum (mvals Term C i j) 2 fun k => mvals Term T i k * mvals Term T j k :=
  C54_syrk _ _ _ _ _ _ (mholdsV bT) (mholds bC) rfl le_rfl (by view_facts) (by view_facts)

/-- **C54** `symmetric_matrix_rank_k_update(alpha, A, C, t)` -/
theorem C54_syrk_alpha [Add α] [Mul α] (alpha : α) (A : MatV α) (C : Mat) (t : Triangle)
    (h : Heap α) (a c : Nat → Nat → α) (hA : A.Holds h a) (hC : C.HoldsOn h t.region c)
    (hsq : C.rows = C.cols) (hAe : C.rows ≤ A.rows) (hu : C.UniqueOn t.region)
    (hAC : Apart A.toMat.Cell (C.CellOn t.region)) :
    Ends (syrkAlpha alpha A C t) h fun _ h' => C.BecomesOn h h' t.region fun i j =>
      leftSum (c i j) A.cols fun k => alpha * a i k * a j k :=
  (syrkAlpha_fold alpha A C t h a c hA hC hsq hAe hu hAC).mono fun _ _ hb =>
    hb.congr fun _ _ _ _ _ => foldl_up_leftSum _ _ _

example (t : Triangle) : Ends (syrkAlpha (.int 5) (T.view : MatV Term) C t) (heap Term) fun _ h' =>
    C.BecomesOn (heap Term) h' t.region fun i j =>
      leftSum (mvals Term C i j) 2 fun k => .int 5 * mvals Term T i k * mvals Term T j k :=
  C54_syrk_alpha _ _ _ _ _ _ _ (mholdsV bT) (mholds bC) rfl le_rfl (by view_facts) (by view_facts)

/-- **C54** `hermitian_matrix_rank_k_update(A, C, t)` -/
theorem C54_herk [Add α] [Mul α] [ConjOps α] (A : MatV α) (C : Mat) (t : Triangle)
    (h : Heap α) (a c : Nat → Nat → α) (hA : A.Holds h a) (hC : C.HoldsOn h t.region c)
    (hsq : C.rows = C.cols) (hAe : C.rows ≤ A.rows) (hu : C.UniqueOn t.region)
    (hAC : Apart A.toMat.Cell (C.CellOn t.region)) :
    Ends (herk A C t) h fun _ h' => C.BecomesOn h h' t.region fun i j =>
      leftSum (if i = j then ConjOps.re (c i i) else c i j) A.cols fun k => a i k * ConjOps.conj (a j k) :=
  (herk_fold A C t h a c hA hC hsq hAe hu hAC).mono fun _ _ hb =>
    hb.congr fun _ _ _ _ _ => foldl_up_leftSum _ _ _

example (t : Triangle) : Ends (herk (T.view : MatV Term) C t) (heap Term) fun _ h' =>
    C.BecomesOn (heap Term) h' t.region fun i j =>
      leftSum (if i = j then ConjOps.re (mvals Term C i i) else mvals Term C i j) 2 fun k => mvals Term T i k * ConjOps.conj (mvals Term T j k) :=
  C54_herk _ _ _ _ _ _ (mholdsV bT) (mholds bC) rfl le_rfl (by view_facts) (by view_facts)

/-- **C54** `hermitian_matrix_rank_k_update(alpha, A, C, t)` -/
theorem C54_herk_alpha [Add α] [Mul α] [ConjOps α] (alpha : α) (A : MatV α) (C : Mat) (t : Triangle)
    (h : Heap α) (a c : Nat → Nat → α) (hA : A.Holds h a) (hC : C.HoldsOn h t.region c)
    (hsq : C.rows = C.cols) (hAe : C.rows ≤ A.rows) (hu : C.UniqueOn t.region)
    (hAC : Apart A.toMat.Cell (C.CellOn t.region)) :
    Ends (herkAlpha alpha A C t) h fun _ h' => C.BecomesOn h h' t.region fun i j =>
      leftSum (if i = j then ConjOps.re (c i i) else c i j) A.cols fun k => alpha * a i k * ConjOps.conj (a j k) :=
  (herkAlpha_fold alpha A C t h a c hA hC hsq hAe hu hAC).mono fun _ _ hb =>
    hb.congr fun _ _ _ _ _ => foldl_up_leftSum _ _ _

example (t : Triangle) : Ends (herkAlpha (.int 5) (T.view : MatV Term) C t) (heap Term) fun _ h' =>
    C.BecomesOn (heap Term) h' t.region fun i j =>
      leftSum (if i = j then ConjOps.re (mvals Term C i i) else mvals Term C i j) 2 fun k => .int 5 * mvals Term T i k * ConjOps.conj (mvals Term T j k) :=
  C54_herk_alpha _ _ _ _ _ _ _ (mholdsV bT) (mholds bC) rfl le_rfl (by view_facts) (by view_facts)

/-- **C54** `symmetric_matrix_rank_2k_update(A, B, C, t)` -/
theorem C54_syr2k [Add α] [Mul α] (A B : MatV α) (C : Mat) (t : Triangle)
    (h : Heap α) (a b c : Nat → Nat → α) (hA : A.Holds h a) (hB : B.Holds h b)
    (hC : C.HoldsOn h t.region c) (hsq : C.rows = C.cols) (hAe : C.rows ≤ A.rows)
    (hBe : C.rows ≤ B.rows) (hAB : A.cols ≤ B.cols) (hu : C.UniqueOn t.region)
    (hAC : Apart A.toMat.Cell (C.CellOn t.region)) (hBC : Apart B.toMat.Cell (C.CellOn t.region)) :
    Ends (syr2k A B C t) h fun _ h' => C.BecomesOn h h' t.region fun i j =>
      leftSum (c i j) A.cols fun k =>
        a i k * b j k + b i k * a j k :=
  (syr2k_fold A B C t h a b c hA hB hC hsq hAe hBe hAB hu hAC hBC).mono fun _ _ hb =>
    hb.congr fun _ _ _ _ _ => foldl_up_leftSum _ _ _

example (t : Triangle) : Ends (syr2k (T.view : MatV Term) A.view C t) (heap Term) fun _ h' =>
    C.BecomesOn (heap Term) h' t.region fun i j =>
      leftSum (mvals Term C i j) 2 fun k =>
        mvals Term T i k * mvals Term A j k + mvals Term A i k * mvals Term T j k :=
  C54_syr2k _ _ _ _ _ _ _ _ (mholdsV bT) (mholdsV bA) (mholds bC) rfl le_rfl le_rfl (by decide)
    (by view_facts) (by view_facts) (by view_facts)

/-- **C54** `hermitian_matrix_rank_2k_update(A, B, C, t)` -/
theorem C54_her2k [Add α] [Mul α] [ConjOps α] (A B : MatV α) (C : Mat) (t : Triangle)
    (h : Heap α) (a b c : Nat → Nat → α) (hA : A.Holds h a) (hB : B.Holds h b)
    (hC : C.HoldsOn h t.region c) (hsq : C.rows = C.cols) (hAe : C.rows ≤ A.rows)
    (hBe : C.rows ≤ B.rows) (hAB : A.cols ≤ B.cols) (hu : C.UniqueOn t.region)
    (hAC : Apart A.toMat.Cell (C.CellOn t.region)) (hBC : Apart B.toMat.Cell (C.CellOn t.region)) :
    Ends (her2k A B C t) h fun _ h' => C.BecomesOn h h' t.region fun i j =>
      leftSum (if i = j then ConjOps.re (c i i) else c i j) A.cols fun k =>
        a i k * ConjOps.conj (b j k) + b i k * ConjOps.conj (a j k) :=
  (her2k_fold A B C t h a b c hA hB hC hsq hAe hBe hAB hu hAC hBC).mono fun _ _ hb =>
    hb.congr fun _ _ _ _ _ => foldl_up_leftSum _ _ _

example (t : Triangle) : Ends (her2k (T.view : MatV Term) A.view C t) (heap Term) fun _ h' =>
    C.BecomesOn (heap Term) h' t.region fun i j =>
      leftSum (if i = j then ConjOps.re (mvals Term C i i) else mvals Term C i j) 2 fun k =>
        mvals Term T i k * ConjOps.conj (mvals Term A j k) + mvals Term A i k * ConjOps.conj (mvals Term T j k) :=
  C54_her2k _ _ _ _ _ _ _ _ (mholdsV bT) (mholdsV bA) (mholds bC) rfl le_rfl le_rfl (by decide)
    (by view_facts) (by view_facts) (by view_facts)

/-! ## Reproducibility

Two calls with equal element values give equal results, for any two memories, layouts, strides and
addresses, and whatever the triangle that is not named, the diagonal that is implicit, and all
other memory hold.  (For the functions above it is the stated expression that shows this; these
theorems spell it out for a sum, a triangular product and a solve.) -/

/-- **C54** two runs of `dot` on equal elements return the same result. -/
theorem C54_dot_reproducible [Add α] [Mul α] (v1 v2 w1 w2 : VecV α) (init : α) (h k : Heap α)
    (f g : Nat → α) (h1 : v1.Holds h f) (h2 : v2.Holds h g) (k1 : w1.Holds k f)
    (k2 : w2.Holds k g) (he : v1.ext ≤ v2.ext) (ke : w1.ext ≤ w2.ext) (hk : v1.ext = w1.ext) :
    Ends (dot v1 v2 init) h fun r _ => Ends (dot w1 w2 init) k fun r' _ => r = r' := by
  refine (C54_dot v1 v2 init h f g h1 h2 he).mono ?_
  rintro r h' ⟨rfl, _⟩
  refine (C54_dot w1 w2 init k f g k1 k2 ke).mono ?_
  rintro r' k' ⟨rfl, _⟩
  rw [hk]

/-- **C54** two runs of `triangular_matrix_vector_product` on equal elements leave equal elements. -/
theorem C54_trmv_reproducible [Add α] [Mul α] [Zero α] (A A' : MatV α) (t : Triangle) (d : Diag)
    (x x' : VecV α) (y y' : Vec) (h k : Heap α) (a : Nat → Nat → α) (f : Nat → α)
    (hA : A.HoldsOn h (triRegion t d) a) (hx : x.Holds h f) (hy : y.Alloc h)
    (hsq : A.rows = A.cols) (hext : A.rows = y.ext) (hxe : A.cols ≤ x.ext) (hu : y.Unique)
    (hAy : Apart (A.toMat.CellOn (triRegion t d)) y.Cell) (hxy : Apart x.toVec.Cell y.Cell)
    (hA' : A'.HoldsOn k (triRegion t d) a) (hx' : x'.Holds k f) (hy' : y'.Alloc k)
    (hsq' : A'.rows = A'.cols) (hext' : A'.rows = y'.ext) (hxe' : A'.cols ≤ x'.ext)
    (hu' : y'.Unique) (hAy' : Apart (A'.toMat.CellOn (triRegion t d)) y'.Cell)
    (hxy' : Apart x'.toVec.Cell y'.Cell) (hn : A.cols = A'.cols) :
    Ends (trmv A t d x y) h fun _ h' => Ends (trmv A' t d x' y') k fun _ k' =>
      ∀ i, i < y.ext → h' (y.addr i) = k' (y'.addr i) := by
  refine (C54_trmv A t d x y h a f hA hx hy hsq hext hxe hu hAy hxy).mono fun _ h' hb => ?_
  refine (C54_trmv A' t d x' y' k a f hA' hx' hy' hsq' hext' hxe' hu' hAy' hxy').mono
    fun _ k' hb' i hi => ?_
  rw [hb.1 i hi, hb'.1 i (by omega), hn]

/-- Two solutions of the same triangular recurrence are equal. -/
theorem solveRow_unique [Sub α] [Mul α] [Div α] {t : Triangle} {d : Diag} {n : Nat}
    {a : Nat → Nat → α} {b v w : Nat → α}
    (hv : ∀ i, i < n → v i = solveRow t d n i (fun k => a i k * v k) (b i) (a i i))
    (hw : ∀ i, i < n → w i = solveRow t d n i (fun k => a i k * w k) (b i) (a i i)) :
    ∀ i, i < n → v i = w i := by
  cases t with
  | lower =>
    intro i
    induction i using Nat.strong_induction_on with
    | _ i ih =>
      intro hi
      rw [hv i hi, hw i hi]
      unfold solveRow
      have : leftDiff (b i) i (fun k => a i k * v k) = leftDiff (b i) i (fun k => a i k * w k) :=
        leftDiff_congr fun k hk => by rw [ih k hk (by omega)]
      simp only [this]
  | upper =>
    suffices ∀ m i, n = m + (i + 1) → v i = w i from fun i hi => this (n - (i + 1)) i (by omega)
    intro m
    induction m using Nat.strong_induction_on with
    | _ m ih =>
      intro i hi
      rw [hv i (by omega), hw i (by omega)]
      unfold solveRow
      have : leftDiff (b i) (n - 1 - i) (fun k => a i (i + 1 + k) * v (i + 1 + k)) =
          leftDiff (b i) (n - 1 - i) (fun k => a i (i + 1 + k) * w (i + 1 + k)) :=
        leftDiff_congr fun k hk => by rw [ih (m - (k + 1)) (by omega) (i + 1 + k) (by omega)]
      simp only [this]

/-- **C54** two runs of `triangular_matrix_vector_solve` on equal elements leave equal elements. -/
theorem C54_trsv_reproducible [Sub α] [Mul α] [Div α] (A A' : MatV α) (t : Triangle) (d : Diag)
    (B B' : VecV α) (X X' : Vec) (h k : Heap α) (a : Nat → Nat → α) (b : Nat → α)
    (hA : A.HoldsOn h (triRegion t d) a) (hB : B.Holds h b) (hX : X.Alloc h)
    (hsq : A.rows = A.cols) (hext : A.rows = X.ext) (hBe : A.rows ≤ B.ext) (hu : X.Unique)
    (hAX : Apart (A.toMat.CellOn (triRegion t d)) X.Cell) (hBX : B.toVec.Aligned X)
    (hA' : A'.HoldsOn k (triRegion t d) a) (hB' : B'.Holds k b) (hX' : X'.Alloc k)
    (hsq' : A'.rows = A'.cols) (hext' : A'.rows = X'.ext) (hBe' : A'.rows ≤ B'.ext)
    (hu' : X'.Unique) (hAX' : Apart (A'.toMat.CellOn (triRegion t d)) X'.Cell)
    (hBX' : B'.toVec.Aligned X') (hn : A.rows = A'.rows) :
    Ends (trsv (· / ·) A t d B X) h fun _ h' => Ends (trsv (· / ·) A' t d B' X') k fun _ k' =>
      ∀ i, i < X.ext → h' (X.addr i) = k' (X'.addr i) := by
  refine (C54_trsv A t d B X h a b hA hB hX hsq hext hBe hu hAX hBX).mono ?_
  rintro _ h' ⟨v, hb, hv⟩
  refine (C54_trsv A' t d B' X' k a b hA' hB' hX' hsq' hext' hBe' hu' hAX' hBX').mono ?_
  rintro _ k' ⟨w, hb', hw⟩ i hi
  rw [hb.1 i hi, hb'.1 i (by omega)]
  rw [show A'.cols = A.cols by omega, ← hn, hsq] at hw
  rw [hsq] at hv
  rw [solveRow_unique hv hw i (by omega)]

/-- A second memory: the cells of `A` and `x` hold what they hold in `heap`, but at other places
(`A` by rows, `x` backwards), all other cells hold 99. -/
def heap2 : Heap Term := fun a =>
  if 130 ≤ a ∧ a < 139 then some (mvals Term A ((a - 130) / 3) ((a - 130) % 3))
  else if 150 ≤ a ∧ a < 153 then some (vals Term x (152 - a))
  else if a < 200 then some (.int 99) else none
/-- 3×3 by rows -/
def A2 : Mat := ⟨3, 3, fun i j => 130 + 3 * i + j⟩
/-- 3 elements backwards -/
def x2 : Vec := ⟨3, fun i => 152 - i⟩

theorem A2_holds {R : Region} : (A2.view : MatV Term).HoldsOn heap2 R (mvals Term A) := by
  intro i j hi hj _
  have hi' : i < 3 := hi
  have hj' : j < 3 := hj
  refine ⟨_, ?_, rfl⟩
  show heap2 (130 + 3 * i + j) = some (mvals Term A i j)
  unfold heap2
  rw [if_pos (by omega), show (130 + 3 * i + j - 130) / 3 = i by omega,
    show (130 + 3 * i + j - 130) % 3 = j by omega]

theorem x2_holds : (x2.view : VecV Term).Holds heap2 (vals Term x) := by
  intro i hi
  have hi' : i < 3 := hi
  refine ⟨_, ?_, rfl⟩
  show heap2 (152 - i) = some (vals Term x i)
  unfold heap2
  rw [if_neg (by omega), if_pos (by omega), show 152 - (152 - i) = i by omega]

theorem y_alloc2 : y.Alloc heap2 := by
  intro i hi
  have hi' : i < 3 := hi
  refine ⟨.int 99, ?_⟩
  show heap2 (10 + 2 * i) = _
  unfold heap2
  rw [if_neg (by omega), if_neg (by omega), if_pos (by omega)]

theorem A2y {R : Region} : Apart ((A2.view : MatV Term).toMat.CellOn R) y.Cell := by
  rintro a ⟨i, j, hi, hj, hr, e⟩ ⟨k, hk, e'⟩
  simp only [A2, y, Mat.view] at *; omega

theorem x2y : Apart (x2.view : VecV Term).toVec.Cell y.Cell := by
  rintro a ⟨i, hi, e⟩ ⟨k, hk, e'⟩
  simp only [x2, y, Vec.view] at *; omega

example : Ends (dot (x.view : VecV Term) x.view (.int 5)) (heap Term) fun r _ =>
    Ends (dot (x2.view : VecV Term) x2.view (.int 5)) heap2 fun r' _ => r = r' :=
  C54_dot_reproducible _ _ _ _ _ _ _ _ _ (holdsV bx) (holdsV bx) x2_holds x2_holds le_rfl le_rfl rfl

example (t : Triangle) (d : Diag) : Ends (trmv (A.view : MatV Term) t d x.view y) (heap Term)
    fun _ h' => Ends (trmv (A2.view : MatV Term) t d x2.view y) heap2 fun _ k' =>
      ∀ i, i < 3 → h' (y.addr i) = k' (y.addr i) :=
  C54_trmv_reproducible _ _ _ _ _ _ _ _ _ _ _ _ (mholdsV bA) (holdsV bx) (alloc by_) rfl rfl le_rfl
    (by view_facts) (by view_facts) (by view_facts) A2_holds x2_holds y_alloc2 rfl rfl le_rfl
    (by view_facts) A2y x2y rfl

example (t : Triangle) (d : Diag) : Ends (trsv (· / ·) (A.view : MatV Term) t d x.view y)
    (heap Term) fun _ h' => Ends (trsv (· / ·) (A2.view : MatV Term) t d x2.view y) heap2
      fun _ k' => ∀ i, i < 3 → h' (y.addr i) = k' (y.addr i) :=
  C54_trsv_reproducible _ _ _ _ _ _ _ _ _ _ _ _ (mholdsV bA) (holdsV bx) (alloc by_) rfl rfl le_rfl
    (by view_facts) (by view_facts) (by view_facts) A2_holds x2_holds y_alloc2 rfl rfl le_rfl
    (by view_facts) A2y (by
      intro i k hi hk e
      simp only [x2, y, Vec.view] at *; omega) rfl

end StdBLAS

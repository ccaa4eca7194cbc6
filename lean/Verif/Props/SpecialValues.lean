import Verif.Lemmas.Absorb
import Verif.Lemmas.FloatReductions
import Verif.Props.EvaluationOrder
import Verif.Props.Blas1Elementwise

/-!
# Property C55: NaN is not lost

`bad` is a set of element values that every operation passes on, such as NaN (`FP.absorbs_nan`).
If an element that belongs to the formula of a result element is `bad`, the result element is
`bad`; in particular no multiplication is left out because the other factor is zero.

The examples use the numbers `FP f` of an arbitrary floating-point format and a memory in which
`y(1)`, `A(1,0)` and `T(1,0)` are NaN.
-/

namespace StdBLAS
open Witness
variable {α : Type} [Add α] [Sub α] [Mul α] [Div α] [ConjOps α] {bad : α → Prop}
variable {f : Format}

namespace Witness

/-- As `heap`, but cells 12, 31 and 112 hold NaN. -/
noncomputable def heapN (f : Format) : Heap (FP f) := fun a =>
  if a = 12 ∨ a = 31 ∨ a = 112 then some .nan else heap (FP f) a

/-- The elements of a vector view of `heapN`. -/
noncomputable def valsN (f : Format) (v : Vec) (i : Nat) : FP f := (heapN f (v.addr i)).getD 0
/-- The elements of a matrix view of `heapN`. -/
noncomputable def mvalsN (f : Format) (m : Mat) (i j : Nat) : FP f :=
  (heapN f (m.addr i j)).getD 0

theorem heapN_lt {a : Nat} (ha : a < 200) : heapN f a = some ((heapN f a).getD 0) := by
  unfold heapN
  split
  · rfl
  · rw [heap_lt ha]; rfl

theorem holdsN {v : Vec} (hv : ∀ i, i < v.ext → v.addr i < 200) :
    v.Holds (heapN f) (valsN f v) := fun i hi => heapN_lt (hv i hi)
theorem allocN {v : Vec} (hv : ∀ i, i < v.ext → v.addr i < 200) :
    v.Alloc (heapN f) := fun i hi => ⟨_, heapN_lt (hv i hi)⟩
theorem holdsVN {v : Vec} (hv : ∀ i, i < v.ext → v.addr i < 200) :
    (v.view : VecV (FP f)).Holds (heapN f) (valsN f v) := fun i hi => ⟨_, heapN_lt (hv i hi), rfl⟩
theorem mholdsN {m : Mat} {R : Region} (hm : ∀ i j, i < m.rows → j < m.cols → m.addr i j < 200) :
    m.HoldsOn (heapN f) R (mvalsN f m) := fun i j hi hj _ => heapN_lt (hm i j hi hj)
theorem mallocN {m : Mat} {R : Region} (hm : ∀ i j, i < m.rows → j < m.cols → m.addr i j < 200) :
    m.AllocOn (heapN f) R := fun i j hi hj _ => ⟨_, heapN_lt (hm i j hi hj)⟩
theorem mholdsVN {m : Mat} {R : Region} (hm : ∀ i j, i < m.rows → j < m.cols → m.addr i j < 200) :
    (m.view : MatV (FP f)).HoldsOn (heapN f) R (mvalsN f m) :=
  fun i j hi hj _ => ⟨_, heapN_lt (hm i j hi hj), rfl⟩

theorem y1 : valsN f y 1 = .nan := rfl
theorem A10 : mvalsN f A 1 0 = .nan := rfl
theorem T10 : mvalsN f T 1 0 = .nan := rfl

end Witness

theorem Absorbs.hermOf (N : Absorbs bad) {t : Triangle} {a : Nat → Nat → α} {i k : Nat}
    (hb : bad (symOf t a i k)) : bad (StdBLAS.hermOf t a i k) := by
  unfold symOf at hb
  unfold StdBLAS.hermOf
  by_cases e : i = k
  · subst e
    rw [if_pos rfl]
    rw [ite_self] at hb
    exact N.re _ hb
  · rw [if_neg e]
    by_cases q : t.region i k
    · rw [if_pos q] at hb ⊢; exact hb
    · rw [if_neg q] at hb ⊢; exact N.conj _ hb

theorem Absorbs.start (N : Absorbs bad) {c : Nat → Nat → α} {i j : Nat} (hb : bad (c i j)) :
    bad (if i = j then ConjOps.re (c i i) else c i j) := by
  by_cases e : i = j
  · subst e; rw [if_pos rfl]; exact N.re _ hb
  · rw [if_neg e]; exact hb

/-! ## Elementwise operations -/

/-- **C55** `scale(alpha, x)`, even with `alpha = 0` -/
theorem C55_scale_vector (N : Absorbs bad) (alpha : α) (x : Vec) (h : Heap α) (f : Nat → α)
    (hx : x.Holds h f) (hu : x.Unique) :
    Ends (scale1 alpha x) h fun _ h' => ∃ w, x.Becomes h h' w ∧
      ∀ i, i < x.ext →
        (bad (f i) ∨ bad alpha) → bad (w i) := by
  refine (C11_scale_vector alpha x h f hx hu).mono fun _ h' hb => ⟨_, hb, fun i hi hc => ?_⟩
  exact N.mul _ _ hc

example : Ends (scale1 0 y) (heapN f) fun _ h' => h' 12 = some .nan :=
  (C55_scale_vector FP.absorbs_nan _ _ _ _ (holdsN by_) (by view_facts)).mono
    fun _ h' ⟨w, hb, hn⟩ => (hb.1 1 (by decide)).trans (congrArg some (hn 1 (by decide) (Or.inl y1)))

/-- **C55** `scale(alpha, A)` -/
theorem C55_scale_matrix (N : Absorbs bad) (alpha : α) (A : Mat) (h : Heap α) (f : Nat → Nat → α)
    (hA : A.Holds h f) (hu : A.Unique) :
    Ends (scale2 alpha A) h fun _ h' => ∃ w, A.Becomes h h' w ∧
      ∀ i j, i < A.rows → j < A.cols →
        (bad (f i j) ∨ bad alpha) → bad (w i j) := by
  refine (C11_scale_matrix alpha A h f hA hu).mono fun _ h' hb => ⟨_, hb, fun i j hi hj hc => ?_⟩
  exact N.mul _ _ hc

example : Ends (scale2 0 A) (heapN f) fun _ h' => h' 31 = some .nan :=
  (C55_scale_matrix FP.absorbs_nan _ _ _ _ (mholdsN bA) (by view_facts)).mono
    fun _ h' ⟨w, hb, hn⟩ => (hb.1 1 0 (by decide) (by decide) trivial).trans
      (congrArg some (hn 1 0 (by decide) (by decide) (Or.inl A10)))

/-- **C55** `add(x, y, z)` -/
theorem C55_add_vector (N : Absorbs bad) (x y : VecV α) (z : Vec) (h : Heap α) (f g : Nat → α)
    (hx : x.Holds h f) (hy : y.Holds h g) (hz : z.Alloc h)
    (hex : z.ext ≤ x.ext) (hey : z.ext ≤ y.ext) (hu : z.Unique)
    (hax : x.toVec.Aligned z) (hay : y.toVec.Aligned z) :
    Ends (add1 x y z) h fun _ h' => ∃ w, z.Becomes h h' w ∧
      ∀ i, i < z.ext →
        (bad (f i) ∨ bad (g i)) → bad (w i) := by
  refine (C12_add_vector x y z h f g hx hy hz hex hey hu hax hay).mono fun _ h' hb => ⟨_, hb, fun i hi hc => ?_⟩
  exact N.add _ _ hc

example : Ends (add1 (x.view : VecV (FP f)) y.view z) (heapN f) fun _ h' => h' 21 = some .nan :=
  (C55_add_vector FP.absorbs_nan _ _ _ _ _ _ (holdsVN bx) (holdsVN by_) (allocN bz) le_rfl le_rfl
    (by view_facts) (by view_facts) (by view_facts)).mono
    fun _ h' ⟨w, hb, hn⟩ => (hb.1 1 (by decide)).trans (congrArg some (hn 1 (by decide) (Or.inr y1)))

/-- **C55** `add(x, y, z)` for matrices -/
theorem C55_add_matrix (N : Absorbs bad) (x y : MatV α) (z : Mat) (h : Heap α) (f g : Nat → Nat → α)
    (hx : x.Holds h f) (hy : y.Holds h g) (hz : z.Alloc h)
    (hr : x.rows = z.rows) (hc : x.cols = z.cols) (hr' : z.rows ≤ y.rows) (hc' : z.cols ≤ y.cols)
    (hu : z.Unique) (hax : x.toMat.Aligned z) (hay : y.toMat.Aligned z) :
    Ends (add2 x y z) h fun _ h' => ∃ w, z.Becomes h h' w ∧
      ∀ i j, i < z.rows → j < z.cols →
        (bad (f i j) ∨ bad (g i j)) → bad (w i j) := by
  refine (C12_add_matrix x y z h f g hx hy hz hr hc hr' hc' hu hax hay).mono fun _ h' hb => ⟨_, hb, fun i j hi hj hc => ?_⟩
  exact N.add _ _ hc

example : Ends (add2 (A.view : MatV (FP f)) B.view C) (heapN f) fun _ h' => h' 73 = some .nan :=
  (C55_add_matrix FP.absorbs_nan _ _ _ _ _ _ (mholdsVN bA) (mholdsVN bB) (mallocN bC) rfl rfl le_rfl
    le_rfl (by view_facts) (by view_facts) (by view_facts)).mono
    fun _ h' ⟨w, hb, hn⟩ => (hb.1 1 0 (by decide) (by decide) trivial).trans
      (congrArg some (hn 1 0 (by decide) (by decide) (Or.inl A10)))

/-! ## Dot products -/

/-- **C55** `dot(v1, v2, init)` -/
theorem C55_dot (N : Absorbs bad) (v1 v2 : VecV α) (init : α) (h : Heap α) (f g : Nat → α)
    (h1 : v1.Holds h f) (h2 : v2.Holds h g) (hext : v1.ext ≤ v2.ext)
    (hb : bad init ∨ ∃ k, k < v1.ext ∧ (bad (f k) ∨ bad (g k))) :
    Ends (dot v1 v2 init) h fun r h' => bad r ∧ h' = h :=
  (C54_dot v1 v2 init h f g h1 h2 hext).mono fun _ _ hr => ⟨hr.1 ▸ N.products hb, hr.2⟩

example : Ends (dot (x.view : VecV (FP f)) y.view 0) (heapN f) fun r h' => r = .nan ∧ h' = heapN f :=
  C55_dot FP.absorbs_nan _ _ _ _ _ _ (holdsVN bx) (holdsVN by_) le_rfl
    (Or.inr ⟨1, (show 1 < 3 by decide), Or.inr y1⟩)

/-- **C55** `dotc(v1, v2, init)` -/
theorem C55_dotc (N : Absorbs bad) (v1 v2 : VecV α) (init : α) (h : Heap α) (f g : Nat → α)
    (h1 : v1.Holds h f) (h2 : v2.Holds h g) (hext : v1.ext ≤ v2.ext)
    (hb : bad init ∨ ∃ k, k < v1.ext ∧ (bad (f k) ∨ bad (g k))) :
    Ends (dotc v1 v2 init) h fun r h' => bad r ∧ h' = h :=
  (C54_dotc v1 v2 init h f g h1 h2 hext).mono fun _ _ hr => ⟨hr.1 ▸ N.products (hb.imp id
    fun ⟨k, hk, hb⟩ => ⟨k, hk, hb.imp (N.conj _) id⟩), hr.2⟩

example : Ends (dotc (y.view : VecV (FP f)) x.view 0) (heapN f) fun r h' =>
    r = .nan ∧ h' = heapN f :=
  C55_dotc FP.absorbs_nan _ _ _ _ _ _ (holdsVN by_) (holdsVN bx) le_rfl
    (Or.inr ⟨1, (show 1 < 3 by decide), Or.inl y1⟩)

/-! ## Matrix times vector -/

/-- **C55** `matrix_vector_product(A, x, y)` -/
theorem C55_gemv [Zero α] (N : Absorbs bad) (A : MatV α) (x : VecV α) (y : Vec) (h : Heap α)
    (a : Nat → Nat → α) (f : Nat → α) (hA : A.Holds h a) (hx : x.Holds h f) (hy : y.Alloc h)
    (hrows : y.ext = A.rows) (hcols : A.cols ≤ x.ext) (hu : y.Unique)
    (hAy : Apart A.toMat.Cell y.Cell) (hxy : Apart x.toVec.Cell y.Cell) :
    Ends (gemv A x y) h fun _ h' => ∃ w, y.Becomes h h' w ∧
      ∀ i, i < y.ext →
        (∃ k, k < A.cols ∧ (bad (a i k) ∨ bad (f k))) → bad (w i) := by
  refine (C54_gemv A x y h a f hA hx hy hrows hcols hu hAy hxy).mono fun _ h' hb => ⟨_, hb, fun i hi hc => ?_⟩
  exact N.products (Or.inr hc)

example : Ends (gemv (A.view : MatV (FP f)) x.view z) (heapN f) fun _ h' => h' 21 = some .nan :=
  (C55_gemv FP.absorbs_nan _ _ _ _ _ _ (mholdsVN bA) (holdsVN bx) (allocN bz) rfl le_rfl
    (by view_facts) (by view_facts) (by view_facts)).mono
    fun _ h' ⟨w, hb, hn⟩ => (hb.1 1 (by decide)).trans (congrArg some (hn 1 (by decide) 
      ⟨0, Nat.succ_pos _, Or.inl A10⟩))

/-- **C55** `matrix_vector_product(A, x, y, z)` -/
theorem C55_gemv_update (N : Absorbs bad) (A : MatV α) (x y : VecV α) (z : Vec) (h : Heap α)
    (a : Nat → Nat → α) (f g : Nat → α) (hA : A.Holds h a) (hx : x.Holds h f) (hy : y.Holds h g)
    (hz : z.Alloc h) (hrows : z.ext = A.rows) (hcols : A.cols ≤ x.ext) (hye : A.rows ≤ y.ext)
    (hu : z.Unique) (hAz : Apart A.toMat.Cell z.Cell) (hxz : Apart x.toVec.Cell z.Cell)
    (hyz : y.toVec.Aligned z) :
    Ends (gemvUpdate A x y z) h fun _ h' => ∃ w, z.Becomes h h' w ∧
      ∀ i, i < z.ext →
        (bad (g i) ∨ ∃ k, k < A.cols ∧ (bad (a i k) ∨ bad (f k))) → bad (w i) := by
  refine (C54_gemv_update A x y z h a f g hA hx hy hz hrows hcols hye hu hAz hxz hyz).mono fun _ h' hb => ⟨_, hb, fun i hi hc => ?_⟩
  exact N.products hc

example : Ends (gemvUpdate (A.view : MatV (FP f)) x.view y.view z) (heapN f) fun _ h' => h' 21 = some .nan :=
  (C55_gemv_update FP.absorbs_nan _ _ _ _ _ _ _ _ (mholdsVN bA) (holdsVN bx) (holdsVN by_) (allocN bz)
    rfl le_rfl le_rfl (by view_facts) (by view_facts) (by view_facts) (by view_facts)).mono
    fun _ h' ⟨w, hb, hn⟩ => (hb.1 1 (by decide)).trans (congrArg some (hn 1 (by decide) (Or.inl y1)))

/-- **C55** `symmetric_matrix_vector_product(A, t, x, y)` -/
theorem C55_symv [Zero α] (N : Absorbs bad) (A : MatV α) (t : Triangle) (x : VecV α) (y : Vec)
    (h : Heap α) (a : Nat → Nat → α) (f : Nat → α) (hA : A.HoldsOn h t.region a)
    (hx : x.Holds h f) (hy : y.Alloc h) (hsq : A.rows = A.cols) (hext : A.rows = y.ext)
    (hxe : A.cols ≤ x.ext) (hu : y.Unique) (hAy : Apart (A.toMat.CellOn t.region) y.Cell)
    (hxy : Apart x.toVec.Cell y.Cell) :
    Ends (symv A t x y) h fun _ h' => ∃ w, y.Becomes h h' w ∧
      ∀ i, i < y.ext →
        (∃ k, k < A.cols ∧ (bad (symOf t a i k) ∨ bad (f k))) → bad (w i) := by
  refine (C54_symv A t x y h a f hA hx hy hsq hext hxe hu hAy hxy).mono fun _ h' hb => ⟨_, hb, fun i hi hc => ?_⟩
  exact N.products (Or.inr hc)

example : Ends (symv (A.view : MatV (FP f)) .lower x.view z) (heapN f) fun _ h' => h' 21 = some .nan :=
  (C55_symv FP.absorbs_nan _ _ _ _ _ _ _ (mholdsVN bA) (holdsVN bx) (allocN bz) rfl rfl le_rfl
    (by view_facts) (by view_facts) (by view_facts)).mono
    fun _ h' ⟨w, hb, hn⟩ => (hb.1 1 (by decide)).trans (congrArg some (hn 1 (by decide) 
      ⟨0, Nat.succ_pos _, Or.inl (by rw [symOf, if_pos (show Triangle.lower.region 1 0 from Nat.zero_le 1)]; exact A10)⟩))

/-- **C55** `symmetric_matrix_vector_product(A, t, x, y, z)` -/
theorem C55_symv_update (N : Absorbs bad) (A : MatV α) (t : Triangle) (x y : VecV α) (z : Vec)
    (h : Heap α) (a : Nat → Nat → α) (f g : Nat → α) (hA : A.HoldsOn h t.region a)
    (hx : x.Holds h f) (hy : y.Holds h g) (hz : z.Alloc h) (hsq : A.rows = A.cols)
    (hext : A.rows = z.ext) (hxe : A.cols ≤ x.ext) (hye : A.rows ≤ y.ext) (hu : z.Unique)
    (hAz : Apart (A.toMat.CellOn t.region) z.Cell) (hxz : Apart x.toVec.Cell z.Cell)
    (hyz : y.toVec.Aligned z) :
    Ends (symvUpdate A t x y z) h fun _ h' => ∃ w, z.Becomes h h' w ∧
      ∀ i, i < z.ext →
        (bad (g i) ∨ ∃ k, k < A.cols ∧ (bad (symOf t a i k) ∨ bad (f k))) → bad (w i) := by
  refine (C54_symv_update A t x y z h a f g hA hx hy hz hsq hext hxe hye hu hAz hxz hyz).mono fun _ h' hb => ⟨_, hb, fun i hi hc => ?_⟩
  exact N.products hc

example : Ends (symvUpdate (A.view : MatV (FP f)) .lower x.view y.view z) (heapN f) fun _ h' => h' 21 = some .nan :=
  (C55_symv_update FP.absorbs_nan _ _ _ _ _ _ _ _ _ (mholdsVN bA) (holdsVN bx) (holdsVN by_) (allocN bz)
    rfl rfl le_rfl le_rfl (by view_facts) (by view_facts) (by view_facts) (by view_facts)).mono
    fun _ h' ⟨w, hb, hn⟩ => (hb.1 1 (by decide)).trans (congrArg some (hn 1 (by decide) (Or.inl y1)))

/-- **C55** `hermitian_matrix_vector_product(A, t, x, y)` -/
theorem C55_hemv [Zero α] (N : Absorbs bad) (A : MatV α) (t : Triangle) (x : VecV α)
    (y : Vec) (h : Heap α) (a : Nat → Nat → α) (f : Nat → α) (hA : A.HoldsOn h t.region a)
    (hx : x.Holds h f) (hy : y.Alloc h) (hsq : A.rows = A.cols) (hext : A.rows = y.ext)
    (hxe : A.cols ≤ x.ext) (hu : y.Unique) (hAy : Apart (A.toMat.CellOn t.region) y.Cell)
    (hxy : Apart x.toVec.Cell y.Cell) :
    Ends (hemv A t x y) h fun _ h' => ∃ w, y.Becomes h h' w ∧
      ∀ i, i < y.ext →
        (∃ k, k < A.cols ∧ (bad (symOf t a i k) ∨ bad (f k))) → bad (w i) := by
  refine (C54_hemv A t x y h a f hA hx hy hsq hext hxe hu hAy hxy).mono fun _ h' hb => ⟨_, hb, fun i hi hc => ?_⟩
  exact N.products (Or.inr (hc.imp fun k hk => ⟨hk.1, hk.2.imp N.hermOf id⟩))

example : Ends (hemv (A.view : MatV (FP f)) .lower x.view z) (heapN f) fun _ h' => h' 21 = some .nan :=
  (C55_hemv FP.absorbs_nan _ _ _ _ _ _ _ (mholdsVN bA) (holdsVN bx) (allocN bz) rfl rfl le_rfl
    (by view_facts) (by view_facts) (by view_facts)).mono
    fun _ h' ⟨w, hb, hn⟩ => (hb.1 1 (by decide)).trans (congrArg some (hn 1 (by decide) 
      ⟨0, Nat.succ_pos _, Or.inl (by rw [symOf, if_pos (show Triangle.lower.region 1 0 from Nat.zero_le 1)]; exact A10)⟩))

/-- **C55** `hermitian_matrix_vector_product(A, t, x, y, z)` -/
theorem C55_hemv_update (N : Absorbs bad) (A : MatV α) (t : Triangle) (x y : VecV α)
    (z : Vec) (h : Heap α) (a : Nat → Nat → α) (f g : Nat → α) (hA : A.HoldsOn h t.region a)
    (hx : x.Holds h f) (hy : y.Holds h g) (hz : z.Alloc h) (hsq : A.rows = A.cols)
    (hext : A.rows = z.ext) (hxe : A.cols ≤ x.ext) (hye : A.rows ≤ y.ext) (hu : z.Unique)
    (hAz : Apart (A.toMat.CellOn t.region) z.Cell) (hxz : Apart x.toVec.Cell z.Cell)
    (hyz : y.toVec.Aligned z) :
    Ends (hemvUpdate A t x y z) h fun _ h' => ∃ w, z.Becomes h h' w ∧
      ∀ i, i < z.ext →
        (bad (g i) ∨ ∃ k, k < A.cols ∧ (bad (symOf t a i k) ∨ bad (f k))) → bad (w i) := by
  refine (C54_hemv_update A t x y z h a f g hA hx hy hz hsq hext hxe hye hu hAz hxz hyz).mono fun _ h' hb => ⟨_, hb, fun i hi hc => ?_⟩
  exact N.products (hc.imp id fun ⟨k, hk⟩ => ⟨k, hk.1, hk.2.imp N.hermOf id⟩)

example : Ends (hemvUpdate (A.view : MatV (FP f)) .lower x.view y.view z) (heapN f) fun _ h' => h' 21 = some .nan :=
  (C55_hemv_update FP.absorbs_nan _ _ _ _ _ _ _ _ _ (mholdsVN bA) (holdsVN bx) (holdsVN by_) (allocN bz)
    rfl rfl le_rfl le_rfl (by view_facts) (by view_facts) (by view_facts) (by view_facts)).mono
    fun _ h' ⟨w, hb, hn⟩ => (hb.1 1 (by decide)).trans (congrArg some (hn 1 (by decide) (Or.inl y1)))

/-- **C55** `triangular_matrix_vector_product(A, t, d, x, y)` -/
theorem C55_trmv [Zero α] (N : Absorbs bad) (A : MatV α) (t : Triangle) (d : Diag) (x : VecV α)
    (y : Vec) (h : Heap α) (a : Nat → Nat → α) (f : Nat → α) (hA : A.HoldsOn h (triRegion t d) a)
    (hx : x.Holds h f) (hy : y.Alloc h) (hsq : A.rows = A.cols) (hext : A.rows = y.ext)
    (hxe : A.cols ≤ x.ext) (hu : y.Unique) (hAy : Apart (A.toMat.CellOn (triRegion t d)) y.Cell)
    (hxy : Apart x.toVec.Cell y.Cell) :
    Ends (trmv A t d x y) h fun _ h' => ∃ w, y.Becomes h h' w ∧
      ∀ i, i < y.ext →
        (∃ k, k < A.cols ∧ ((triRegion t d i k ∧ bad (a i k)) ∨ (t.region i k ∧ bad (f k)))) → bad (w i) := by
  refine (C54_trmv A t d x y h a f hA hx hy hsq hext hxe hu hAy hxy).mono fun _ h' hb => ⟨_, hb, fun i hi hc => ?_⟩
  exact N.triSeq (by omega) (Or.inr hc)

example (d : Diag) : Ends (trmv (A.view : MatV (FP f)) .lower d x.view z) (heapN f) fun _ h' => h' 21 = some .nan :=
  (C55_trmv FP.absorbs_nan _ _ _ _ _ _ _ _ (mholdsVN bA) (holdsVN bx) (allocN bz) rfl rfl le_rfl
    (by view_facts) (by view_facts) (by view_facts)).mono
    fun _ h' ⟨w, hb, hn⟩ => (hb.1 1 (by decide)).trans (congrArg some (hn 1 (by decide) 
      ⟨0, Nat.succ_pos _, Or.inl ⟨⟨(show (0 : Nat) ≤ 1 by decide), fun _ => by decide⟩, A10⟩⟩))

/-- **C55** `triangular_matrix_vector_product(A, t, d, x, y, z)` -/
theorem C55_trmv_update (N : Absorbs bad) (A : MatV α) (t : Triangle) (d : Diag) (x y : VecV α)
    (z : Vec) (h : Heap α) (a : Nat → Nat → α) (f g : Nat → α)
    (hA : A.HoldsOn h (triRegion t d) a) (hx : x.Holds h f) (hy : y.Holds h g) (hz : z.Alloc h)
    (hsq : A.rows = A.cols) (hext : A.rows = z.ext) (hxe : A.cols ≤ x.ext) (hye : A.rows ≤ y.ext)
    (hu : z.Unique) (hAz : Apart (A.toMat.CellOn (triRegion t d)) z.Cell)
    (hxz : Apart x.toVec.Cell z.Cell) (hyz : y.toVec.Aligned z) :
    Ends (trmvUpdate A t d x y z) h fun _ h' => ∃ w, z.Becomes h h' w ∧
      ∀ i, i < z.ext →
        (bad (g i) ∨ ∃ k, k < A.cols ∧ ((triRegion t d i k ∧ bad (a i k)) ∨ (t.region i k ∧ bad (f k)))) → bad (w i) := by
  refine (C54_trmv_update A t d x y z h a f g hA hx hy hz hsq hext hxe hye hu hAz hxz hyz).mono fun _ h' hb => ⟨_, hb, fun i hi hc => ?_⟩
  exact N.triSeq (by omega) hc

example (d : Diag) : Ends (trmvUpdate (A.view : MatV (FP f)) .lower d x.view y.view z) (heapN f) fun _ h' => h' 21 = some .nan :=
  (C55_trmv_update FP.absorbs_nan _ _ _ _ _ _ _ _ _ _ (mholdsVN bA) (holdsVN bx) (holdsVN by_) (allocN bz)
    rfl rfl le_rfl le_rfl (by view_facts) (by view_facts) (by view_facts) (by view_facts)).mono
    fun _ h' ⟨w, hb, hn⟩ => (hb.1 1 (by decide)).trans (congrArg some (hn 1 (by decide) (Or.inr
      ⟨0, Nat.succ_pos _, Or.inl ⟨⟨(show (0 : Nat) ≤ 1 by decide), fun _ => by decide⟩, A10⟩⟩)))

/-- **C55** `triangular_matrix_vector_product(A, t, d, y)` -/
theorem C55_trmv_in_place (N : Absorbs bad) (A : MatV α) (t : Triangle) (d : Diag) (y : Vec)
    (h : Heap α) (a : Nat → Nat → α) (f : Nat → α) (hA : A.HoldsOn h (triRegion t d) a)
    (hy : y.Holds h f) (hsq : A.rows = A.cols) (hext : A.rows = y.ext) (hu : y.Unique)
    (hAy : Apart (A.toMat.CellOn (triRegion t d)) y.Cell) :
    Ends (trmvInPlace A t d y) h fun _ h' => ∃ w, y.Becomes h h' w ∧
      ∀ i, i < y.ext →
        (∃ k, k < A.cols ∧ ((triRegion t d i k ∧ bad (a i k)) ∨ (t.region i k ∧ bad (f k)))) → bad (w i) := by
  refine (C54_trmv_in_place A t d y h a f hA hy hsq hext hu hAy).mono fun _ h' hb => ⟨_, hb, fun i hi hc => ?_⟩
  rcases hc with ⟨k, hk, hc⟩
  by_cases e : k = i
  · subst e
    refine N.triSeqInPlace (by omega) (Or.inl ?_)
    cases d with
    | explicit => exact N.mul _ _ (hc.symm.imp And.right And.right)
    | implicitUnit =>
      rcases hc with ⟨hc, _⟩ | ⟨_, hc⟩
      · exact absurd rfl (hc.2 rfl)
      · exact hc
  · refine N.triSeqInPlace (by omega) (Or.inr ⟨k, hk, e, ?_⟩)
    rcases hc with ⟨h1, h2⟩ | ⟨h1, h2⟩
    · exact ⟨h1.1, Or.inl h2⟩
    · exact ⟨h1, Or.inr h2⟩

example (d : Diag) : Ends (trmvInPlace (A.view : MatV (FP f)) .lower d z) (heapN f) fun _ h' => h' 21 = some .nan :=
  (C55_trmv_in_place FP.absorbs_nan _ _ _ _ _ _ _ (mholdsVN bA) (holdsN bz) rfl rfl
    (by view_facts) (by view_facts)).mono
    fun _ h' ⟨w, hb, hn⟩ => (hb.1 1 (by decide)).trans (congrArg some (hn 1 (by decide) 
      ⟨0, Nat.succ_pos _, Or.inl ⟨⟨(show (0 : Nat) ≤ 1 by decide), fun _ => by decide⟩, A10⟩⟩))

/-! ## Matrix times matrix -/

/-- **C55** `matrix_product(A, B, C)` -/
theorem C55_gemm [Zero α] (N : Absorbs bad) (A B : MatV α) (C : Mat) (h : Heap α)
    (a b : Nat → Nat → α) (hA : A.Holds h a) (hB : B.Holds h b) (hC : C.Alloc h)
    (hr : C.rows = A.rows) (hk : A.cols = B.rows) (hc : C.cols = B.cols) (hu : C.Unique)
    (hAC : Apart A.toMat.Cell C.Cell) (hBC : Apart B.toMat.Cell C.Cell) :
    Ends (gemm A B C) h fun _ h' => ∃ w, C.Becomes h h' w ∧
      ∀ i j, i < C.rows → j < C.cols →
        (∃ k, k < A.cols ∧ (bad (a i k) ∨ bad (b k j))) → bad (w i j) := by
  refine (C54_gemm A B C h a b hA hB hC hr hk hc hu hAC hBC).mono fun _ h' hb => ⟨_, hb, fun i j hi hj hc => ?_⟩
  exact N.products (Or.inr hc)

example : Ends (gemm (T.view : MatV (FP f)) W.view C) (heapN f) fun _ h' => h' 74 = some .nan :=
  (C55_gemm FP.absorbs_nan _ _ _ _ _ _ (mholdsVN bT) (mholdsVN bW) (mallocN bC) rfl rfl rfl
    (by view_facts) (by view_facts) (by view_facts)).mono
    fun _ h' ⟨w, hb, hn⟩ => (hb.1 1 1 (by decide) (by decide) trivial).trans
      (congrArg some (hn 1 1 (by decide) (by decide) ⟨0, Nat.succ_pos _, Or.inl T10⟩))

/-- **C55** `matrix_product(A, B, E, C)` -/
theorem C55_gemm_update (N : Absorbs bad) (A B E : MatV α) (C : Mat)
    (h : Heap α) (a b e : Nat → Nat → α) (hA : A.Holds h a) (hB : B.Holds h b) (hE : E.Holds h e)
    (hC : C.Alloc h) (hr : C.rows = A.rows) (hk : A.cols = B.rows) (hc : C.cols = B.cols)
    (her : C.rows ≤ E.rows) (hec : C.cols ≤ E.cols) (hu : C.Unique)
    (hAC : Apart A.toMat.Cell C.Cell) (hBC : Apart B.toMat.Cell C.Cell) (hEC : E.toMat.Aligned C) :
    Ends (gemmUpdate A B E C) h fun _ h' => ∃ w, C.Becomes h h' w ∧
      ∀ i j, i < C.rows → j < C.cols →
        (bad (e i j) ∨ ∃ k, k < A.cols ∧ (bad (a i k) ∨ bad (b k j))) → bad (w i j) := by
  refine (C54_gemm_update A B E C h a b e hA hB hE hC hr hk hc her hec hu hAC hBC hEC).mono fun _ h' hb => ⟨_, hb, fun i j hi hj hc => ?_⟩
  exact N.products hc

example : Ends (gemmUpdate (T.view : MatV (FP f)) W.view A.view C) (heapN f) fun _ h' => h' 73 = some .nan :=
  (C55_gemm_update FP.absorbs_nan _ _ _ _ _ _ _ _ (mholdsVN bT) (mholdsVN bW) (mholdsVN bA) (mallocN bC) rfl
    rfl rfl le_rfl le_rfl (by view_facts) (by view_facts) (by view_facts) (by view_facts)).mono
    fun _ h' ⟨w, hb, hn⟩ => (hb.1 1 0 (by decide) (by decide) trivial).trans
      (congrArg some (hn 1 0 (by decide) (by decide) (Or.inl A10)))

/-- **C55** `symmetric_matrix_product(A, t, B, C)` -/
theorem C55_symm_left [Zero α] (N : Absorbs bad) (A : MatV α) (t : Triangle)
    (B : MatV α) (C : Mat) (h : Heap α) (a b : Nat → Nat → α) (hA : A.HoldsOn h t.region a)
    (hB : B.Holds h b) (hC : C.Alloc h) (hsq : A.rows = A.cols) (hr : C.rows = A.rows)
    (hk : A.cols = B.rows) (hc : C.cols = B.cols) (hu : C.Unique)
    (hAC : Apart (A.toMat.CellOn t.region) C.Cell) (hBC : Apart B.toMat.Cell C.Cell) :
    Ends (symmLeft A t B C) h fun _ h' => ∃ w, C.Becomes h h' w ∧
      ∀ i j, i < C.rows → j < C.cols →
        (∃ k, k < A.cols ∧ (bad (symOf t a i k) ∨ bad (b k j))) → bad (w i j) := by
  refine (C54_symm_left A t B C h a b hA hB hC hsq hr hk hc hu hAC hBC).mono fun _ h' hb => ⟨_, hb, fun i j hi hj hc => ?_⟩
  exact N.products (Or.inr hc)

example : Ends (symmLeft (A.view : MatV (FP f)) .lower T.view ⟨3, 2, C.addr⟩) (heapN f) fun _ h' => h' 74 = some .nan :=
  (C55_symm_left FP.absorbs_nan _ _ _ ⟨3, 2, C.addr⟩ (heapN f) _ _ (mholdsVN bA) (mholdsVN bT)
    (mallocN fun i j hi hj => bC i j hi (by simp only [C] at *; omega)) rfl rfl rfl rfl
    (by view_facts) (by view_facts) (by view_facts)).mono
    fun _ h' ⟨w, hb, hn⟩ => (hb.1 1 1 (by decide) (by decide) trivial).trans
      (congrArg some (hn 1 1 (by decide) (by decide) ⟨0, Nat.succ_pos _, Or.inl (by
        rw [symOf, if_pos (show Triangle.lower.region 1 0 from Nat.zero_le 1)]; exact A10)⟩))

/-- **C55** `symmetric_matrix_product(B, A, t, C)` -/
theorem C55_symm_right [Zero α] (N : Absorbs bad) (A : MatV α) (t : Triangle)
    (B : MatV α) (C : Mat) (h : Heap α) (a b : Nat → Nat → α) (hA : A.HoldsOn h t.region a)
    (hB : B.Holds h b) (hC : C.Alloc h) (hsq : A.rows = A.cols) (hr : C.rows = B.rows)
    (hk : B.cols = A.rows) (hc : C.cols = A.cols) (hu : C.Unique)
    (hAC : Apart (A.toMat.CellOn t.region) C.Cell) (hBC : Apart B.toMat.Cell C.Cell) :
    Ends (symmRight B A t C) h fun _ h' => ∃ w, C.Becomes h h' w ∧
      ∀ i j, i < C.rows → j < C.cols →
        (∃ k, k < A.cols ∧ (bad (b i k) ∨ bad (symOf t a k j))) → bad (w i j) := by
  refine (C54_symm_right A t B C h a b hA hB hC hsq hr hk hc hu hAC hBC).mono fun _ h' hb => ⟨_, hb, fun i j hi hj hc => ?_⟩
  exact N.products (Or.inr hc)

example : Ends (symmRight (W.view : MatV (FP f)) A.view .lower ⟨2, 3, C.addr⟩) (heapN f) fun _ h' => h' 73 = some .nan :=
  (C55_symm_right FP.absorbs_nan _ _ _ ⟨2, 3, C.addr⟩ (heapN f) _ _ (mholdsVN bA) (mholdsVN bW)
    (mallocN fun i j hi hj => bC i j (by simp only [C] at *; omega) hj) rfl rfl rfl rfl
    (by view_facts) (by view_facts) (by view_facts)).mono
    fun _ h' ⟨w, hb, hn⟩ => (hb.1 1 0 (by decide) (by decide) trivial).trans
      (congrArg some (hn 1 0 (by decide) (by decide) ⟨1, (show 1 < 3 by decide), Or.inr (by
        rw [symOf, if_pos (show Triangle.lower.region 1 0 from Nat.zero_le 1)]; exact A10)⟩))

/-- **C55** `hermitian_matrix_product(A, t, B, C)` -/
theorem C55_hemm_left [Zero α] (N : Absorbs bad) (A : MatV α) (t : Triangle)
    (B : MatV α) (C : Mat) (h : Heap α) (a b : Nat → Nat → α) (hA : A.HoldsOn h t.region a)
    (hB : B.Holds h b) (hC : C.Alloc h) (hsq : A.rows = A.cols) (hr : C.rows = A.rows)
    (hk : A.cols = B.rows) (hc : C.cols = B.cols) (hu : C.Unique)
    (hAC : Apart (A.toMat.CellOn t.region) C.Cell) (hBC : Apart B.toMat.Cell C.Cell) :
    Ends (hemmLeft A t B C) h fun _ h' => ∃ w, C.Becomes h h' w ∧
      ∀ i j, i < C.rows → j < C.cols →
        (∃ k, k < A.cols ∧ (bad (symOf t a i k) ∨ bad (b k j))) → bad (w i j) := by
  refine (C54_hemm_left A t B C h a b hA hB hC hsq hr hk hc hu hAC hBC).mono fun _ h' hb => ⟨_, hb, fun i j hi hj hc => ?_⟩
  exact N.products (Or.inr (hc.imp fun k hk => ⟨hk.1, hk.2.imp N.hermOf id⟩))

example : Ends (hemmLeft (A.view : MatV (FP f)) .lower T.view ⟨3, 2, C.addr⟩) (heapN f) fun _ h' => h' 74 = some .nan :=
  (C55_hemm_left FP.absorbs_nan _ _ _ ⟨3, 2, C.addr⟩ (heapN f) _ _ (mholdsVN bA) (mholdsVN bT)
    (mallocN fun i j hi hj => bC i j hi (by simp only [C] at *; omega)) rfl rfl rfl rfl
    (by view_facts) (by view_facts) (by view_facts)).mono
    fun _ h' ⟨w, hb, hn⟩ => (hb.1 1 1 (by decide) (by decide) trivial).trans
      (congrArg some (hn 1 1 (by decide) (by decide) ⟨0, Nat.succ_pos _, Or.inl (by
        rw [symOf, if_pos (show Triangle.lower.region 1 0 from Nat.zero_le 1)]; exact A10)⟩))

/-- **C55** `hermitian_matrix_product(B, A, t, C)` -/
theorem C55_hemm_right [Zero α] (N : Absorbs bad) (A : MatV α) (t : Triangle)
    (B : MatV α) (C : Mat) (h : Heap α) (a b : Nat → Nat → α) (hA : A.HoldsOn h t.region a)
    (hB : B.Holds h b) (hC : C.Alloc h) (hsq : A.rows = A.cols) (hr : C.rows = B.rows)
    (hk : B.cols = A.rows) (hc : C.cols = A.cols) (hu : C.Unique)
    (hAC : Apart (A.toMat.CellOn t.region) C.Cell) (hBC : Apart B.toMat.Cell C.Cell) :
    Ends (hemmRight B A t C) h fun _ h' => ∃ w, C.Becomes h h' w ∧
      ∀ i j, i < C.rows → j < C.cols →
        (∃ k, k < A.cols ∧ (bad (b i k) ∨ bad (symOf t a k j))) → bad (w i j) := by
  refine (C54_hemm_right A t B C h a b hA hB hC hsq hr hk hc hu hAC hBC).mono fun _ h' hb => ⟨_, hb, fun i j hi hj hc => ?_⟩
  refine N.products (Or.inr (hc.imp fun k hk => ⟨hk.1, hk.2.imp id fun hb => ?_⟩))
  by_cases e : k = j
  · subst e
    rw [if_pos rfl]
    unfold symOf at hb
    rwa [ite_self] at hb
  · rw [if_neg e]; exact N.hermOf hb

example : Ends (hemmRight (W.view : MatV (FP f)) A.view .lower ⟨2, 3, C.addr⟩) (heapN f) fun _ h' => h' 73 = some .nan :=
  (C55_hemm_right FP.absorbs_nan _ _ _ ⟨2, 3, C.addr⟩ (heapN f) _ _ (mholdsVN bA) (mholdsVN bW)
    (mallocN fun i j hi hj => bC i j (by simp only [C] at *; omega) hj) rfl rfl rfl rfl
    (by view_facts) (by view_facts) (by view_facts)).mono
    fun _ h' ⟨w, hb, hn⟩ => (hb.1 1 0 (by decide) (by decide) trivial).trans
      (congrArg some (hn 1 0 (by decide) (by decide) ⟨1, (show 1 < 3 by decide), Or.inr (by
        rw [symOf, if_pos (show Triangle.lower.region 1 0 from Nat.zero_le 1)]; exact A10)⟩))

/-- **C55** `triangular_matrix_product(A, t, d, B, C)` -/
theorem C55_trmm_left [Zero α] (N : Absorbs bad) (A : MatV α) (t : Triangle) (d : Diag)
    (B : MatV α) (C : Mat) (h : Heap α) (a b : Nat → Nat → α)
    (hA : A.HoldsOn h (triRegion t d) a) (hB : B.Holds h b) (hC : C.Alloc h)
    (hsq : A.rows = A.cols) (hr : C.rows = A.rows) (hk : A.cols = B.rows) (hc : C.cols = B.cols)
    (hu : C.Unique) (hAC : Apart (A.toMat.CellOn (triRegion t d)) C.Cell)
    (hBC : Apart B.toMat.Cell C.Cell) :
    Ends (trmmLeft A t d B C) h fun _ h' => ∃ w, C.Becomes h h' w ∧
      ∀ i j, i < C.rows → j < C.cols →
        (∃ k, k < A.rows ∧ ((triRegion t d i k ∧ bad (a i k)) ∨ (t.region i k ∧ bad (b k j)))) → bad (w i j) := by
  refine (C54_trmm_left A t d B C h a b hA hB hC hsq hr hk hc hu hAC hBC).mono fun _ h' hb => ⟨_, hb, fun i j hi hj hc => ?_⟩
  rcases hc with ⟨k, hk, hc⟩
  refine N.triElement (by omega) (Or.inr ?_)
  by_cases e : k = i
  · subst e
    refine Or.inl ?_
    cases d with
    | explicit => exact N.mul _ _ (hc.imp And.right And.right)
    | implicitUnit =>
      rcases hc with ⟨hc, _⟩ | ⟨_, hc⟩
      · exact absurd rfl (hc.2 rfl)
      · exact hc
  · have hr : t.region i k := hc.elim (fun q => q.1.1) (fun q => q.1)
    refine Or.inr ⟨k, hk, ?_, N.mul _ _ (hc.imp And.right And.right)⟩
    cases t <;> simp only [Triangle.region] at hr <;> simp <;> omega

example (d : Diag) : Ends (trmmLeft (A.view : MatV (FP f)) .lower d T.view ⟨3, 2, C.addr⟩) (heapN f) fun _ h' => h' 74 = some .nan :=
  (C55_trmm_left FP.absorbs_nan _ _ _ _ ⟨3, 2, C.addr⟩ (heapN f) _ _ (mholdsVN bA) (mholdsVN bT)
    (mallocN fun i j hi hj => bC i j hi (by simp only [C] at *; omega)) rfl rfl rfl rfl
    (by view_facts) (by view_facts) (by view_facts)).mono
    fun _ h' ⟨w, hb, hn⟩ => (hb.1 1 1 (by decide) (by decide) trivial).trans
      (congrArg some (hn 1 1 (by decide) (by decide) 
        ⟨0, Nat.succ_pos _, Or.inl ⟨⟨(show (0 : Nat) ≤ 1 by decide), fun _ => by decide⟩, A10⟩⟩))

/-- **C55** `triangular_matrix_product(B, A, t, d, C)` -/
theorem C55_trmm_right [Zero α] (N : Absorbs bad) (A : MatV α) (t : Triangle) (d : Diag)
    (B : MatV α) (C : Mat) (h : Heap α) (a b : Nat → Nat → α)
    (hA : A.HoldsOn h (triRegion t d) a) (hB : B.Holds h b) (hC : C.Alloc h)
    (hsq : A.rows = A.cols) (hr : C.rows = B.rows) (hk : B.cols = A.rows) (hc : C.cols = A.cols)
    (hu : C.Unique) (hAC : Apart (A.toMat.CellOn (triRegion t d)) C.Cell)
    (hBC : Apart B.toMat.Cell C.Cell) :
    Ends (trmmRight B A t d C) h fun _ h' => ∃ w, C.Becomes h h' w ∧
      ∀ i j, i < C.rows → j < C.cols →
        (∃ k, k < A.rows ∧ ((triRegion t d k j ∧ bad (a k j)) ∨ (t.region k j ∧ bad (b i k)))) → bad (w i j) := by
  refine (C54_trmm_right A t d B C h a b hA hB hC hsq hr hk hc hu hAC hBC).mono fun _ h' hb => ⟨_, hb, fun i j hi hj hc => ?_⟩
  rcases hc with ⟨k, hk, hc⟩
  refine N.triElement (by omega) (Or.inr ?_)
  by_cases e : k = j
  · subst e
    refine Or.inl ?_
    cases d with
    | explicit => exact N.mul _ _ (hc.symm.imp And.right And.right)
    | implicitUnit =>
      rcases hc with ⟨hc, _⟩ | ⟨_, hc⟩
      · exact absurd rfl (hc.2 rfl)
      · exact hc
  · have hr : t.region k j := hc.elim (fun q => q.1.1) (fun q => q.1)
    refine Or.inr ⟨k, hk, ?_, N.mul _ _ (hc.symm.imp And.right And.right)⟩
    cases t <;> simp only [Triangle.region] at hr <;> simp <;> omega

example (d : Diag) : Ends (trmmRight (W.view : MatV (FP f)) A.view .lower d ⟨2, 3, C.addr⟩) (heapN f) fun _ h' => h' 73 = some .nan :=
  (C55_trmm_right FP.absorbs_nan _ _ _ _ ⟨2, 3, C.addr⟩ (heapN f) _ _ (mholdsVN bA) (mholdsVN bW)
    (mallocN fun i j hi hj => bC i j (by simp only [C] at *; omega) hj) rfl rfl rfl rfl
    (by view_facts) (by view_facts) (by view_facts)).mono
    fun _ h' ⟨w, hb, hn⟩ => (hb.1 1 0 (by decide) (by decide) trivial).trans
      (congrArg some (hn 1 0 (by decide) (by decide) 
        ⟨1, (show 1 < 3 by decide), Or.inl ⟨⟨(show (0 : Nat) ≤ 1 by decide), fun _ => by decide⟩, A10⟩⟩))

/-- **C55** `triangular_matrix_left_product(A, t, d, C)` -/
theorem C55_trmm_left_in_place (N : Absorbs bad) (A : MatV α) (t : Triangle) (d : Diag) (C : Mat)
    (h : Heap α) (a c : Nat → Nat → α) (hA : A.HoldsOn h (triRegion t d) a) (hC : C.Holds h c)
    (hsq : A.rows = A.cols) (hr : C.rows = A.rows) (hu : C.Unique)
    (hAC : Apart (A.toMat.CellOn (triRegion t d)) C.Cell) :
    Ends (trmmLeftInPlace A t d C) h fun _ h' => ∃ w, C.Becomes h h' w ∧
      ∀ i j, i < C.rows → j < C.cols →
        (∃ k, k < A.cols ∧ ((triRegion t d i k ∧ bad (a i k)) ∨ (t.region i k ∧ bad (c k j)))) → bad (w i j) := by
  refine (C54_trmm_left_in_place A t d C h a c hA hC hsq hr hu hAC).mono fun _ h' hb => ⟨_, hb, fun i j hi hj hc => ?_⟩
  rcases hc with ⟨k, hk, hc⟩
  by_cases e : k = i
  · subst e
    refine N.triSeqInPlace (by omega) (Or.inl ?_)
    cases d with
    | explicit => exact N.mul _ _ (hc.imp And.right And.right)
    | implicitUnit =>
      rcases hc with ⟨hc, _⟩ | ⟨_, hc⟩
      · exact absurd rfl (hc.2 rfl)
      · exact hc
  · refine N.triSeqInPlace (by omega) (Or.inr ⟨k, hk, e, ?_⟩)
    rcases hc with ⟨h1, h2⟩ | ⟨h1, h2⟩
    · exact ⟨h1.1, Or.inl h2⟩
    · exact ⟨h1, Or.inr h2⟩

example (d : Diag) : Ends (trmmLeftInPlace (A.view : MatV (FP f)) .lower d C) (heapN f) fun _ h' => h' 74 = some .nan :=
  (C55_trmm_left_in_place FP.absorbs_nan _ _ _ _ _ _ _ (mholdsVN bA) (mholdsN bC) rfl rfl
    (by view_facts) (by view_facts)).mono
    fun _ h' ⟨w, hb, hn⟩ => (hb.1 1 1 (by decide) (by decide) trivial).trans
      (congrArg some (hn 1 1 (by decide) (by decide) 
        ⟨0, Nat.succ_pos _, Or.inl ⟨⟨(show (0 : Nat) ≤ 1 by decide), fun _ => by decide⟩, A10⟩⟩))

/-- **C55** `triangular_matrix_right_product(A, t, d, C)` -/
theorem C55_trmm_right_in_place (N : Absorbs bad) (A : MatV α) (t : Triangle) (d : Diag) (C : Mat)
    (h : Heap α) (a c : Nat → Nat → α) (hA : A.HoldsOn h (triRegion t d) a) (hC : C.Holds h c)
    (hsq : A.rows = A.cols) (hr : C.cols = A.cols) (hu : C.Unique)
    (hAC : Apart (A.toMat.CellOn (triRegion t d)) C.Cell) :
    Ends (trmmRightInPlace A t d C) h fun _ h' => ∃ w, C.Becomes h h' w ∧
      ∀ i j, i < C.rows → j < C.cols →
        (∃ k, k < A.cols ∧ ((triRegion t d k j ∧ bad (a k j)) ∨ (t.region k j ∧ bad (c i k)))) → bad (w i j) := by
  refine (C54_trmm_right_in_place A t d C h a c hA hC hsq hr hu hAC).mono fun _ h' hb => ⟨_, hb, fun i j hi hj hc => ?_⟩
  rcases hc with ⟨k, hk, hc⟩
  have hdiag : k = j → bad (if d = .explicit then c i j * a j j else c i j) := by
    rintro rfl
    cases d with
    | explicit => exact N.mul _ _ (hc.symm.imp And.right And.right)
    | implicitUnit =>
      rcases hc with ⟨hc, _⟩ | ⟨_, hc⟩
      · exact absurd rfl (hc.2 rfl)
      · exact hc
  have hr : t.region k j := hc.elim (fun q => q.1.1) (fun q => q.1)
  have hm := N.mul _ _ (hc.symm.imp And.right And.right)
  cases t with
  | upper =>
    have hr : k ≤ j := hr
    refine N.leftSum ?_
    by_cases e : k = j
    · exact Or.inl (hdiag e)
    · exact Or.inr ⟨k, by omega, hm⟩
  | lower =>
    have hr : j ≤ k := hr
    refine N.leftSum ?_
    by_cases e : k = j
    · exact Or.inl (hdiag e)
    · refine Or.inr ⟨k - j - 1, by omega, ?_⟩
      rw [show j + 1 + (k - j - 1) = k by omega]
      exact hm

example (d : Diag) : Ends (trmmRightInPlace (A.view : MatV (FP f)) .lower d C) (heapN f) fun _ h' => h' 73 = some .nan :=
  (C55_trmm_right_in_place FP.absorbs_nan _ _ _ _ _ _ _ (mholdsVN bA) (mholdsN bC) rfl rfl
    (by view_facts) (by view_facts)).mono
    fun _ h' ⟨w, hb, hn⟩ => (hb.1 1 0 (by decide) (by decide) trivial).trans
      (congrArg some (hn 1 0 (by decide) (by decide) 
        ⟨1, (show 1 < 3 by decide), Or.inl ⟨⟨(show (0 : Nat) ≤ 1 by decide), fun _ => by decide⟩, A10⟩⟩))

/-! ## Rank updates -/

/-- **C55** `matrix_rank_1_update(x, y, A)` -/
theorem C55_ger (N : Absorbs bad) (x y : VecV α) (A : Mat) (h : Heap α) (f g : Nat → α)
    (a : Nat → Nat → α) (hx : x.Holds h f) (hy : y.Holds h g) (hA : A.Holds h a)
    (hxe : A.rows ≤ x.ext) (hye : A.cols ≤ y.ext) (hu : A.Unique)
    (hxA : Apart x.toVec.Cell A.Cell) (hyA : Apart y.toVec.Cell A.Cell) :
    Ends (ger x y A) h fun _ h' => ∃ w, A.Becomes h h' w ∧
      ∀ i j, i < A.rows → j < A.cols →
        (bad (a i j) ∨ bad (f i) ∨ bad (g j)) → bad (w i j) := by
  refine (C25_ger x y A h f g a hx hy hA hxe hye hu hxA hyA).mono fun _ h' hb => ⟨_, hb, fun i j hi hj hc => ?_⟩
  refine N.add _ _ ?_
  rcases hc with hc | hc
  · exact Or.inl hc
  · exact Or.inr (N.mul _ _ hc)

example : Ends (ger (x.view : VecV (FP f)) y.view C) (heapN f) fun _ h' => h' 77 = some .nan :=
  (C55_ger FP.absorbs_nan _ _ _ _ _ _ _ (holdsVN bx) (holdsVN by_) (mholdsN bC) le_rfl le_rfl
    (by view_facts) (by view_facts) (by view_facts)).mono
    fun _ h' ⟨w, hb, hn⟩ => (hb.1 2 1 (by decide) (by decide) trivial).trans
      (congrArg some (hn 2 1 (by decide) (by decide) (Or.inr (Or.inr y1))))

/-- **C55** `matrix_rank_1_update_c(x, y, A)` -/
theorem C55_gerc (N : Absorbs bad) (x y : VecV α) (A : Mat) (h : Heap α)
    (f g : Nat → α) (a : Nat → Nat → α) (hx : x.Holds h f) (hy : y.Holds h g) (hA : A.Holds h a)
    (hxe : A.rows ≤ x.ext) (hye : A.cols ≤ y.ext) (hu : A.Unique)
    (hxA : Apart x.toVec.Cell A.Cell) (hyA : Apart y.toVec.Cell A.Cell) :
    Ends (gerc x y A) h fun _ h' => ∃ w, A.Becomes h h' w ∧
      ∀ i j, i < A.rows → j < A.cols →
        (bad (a i j) ∨ bad (f i) ∨ bad (g j)) → bad (w i j) := by
  refine (C25_gerc x y A h f g a hx hy hA hxe hye hu hxA hyA).mono fun _ h' hb => ⟨_, hb, fun i j hi hj hc => ?_⟩
  refine N.add _ _ ?_
  rcases hc with hc | hc
  · exact Or.inl hc
  · exact Or.inr (N.mul _ _ (hc.imp id (N.conj _)))

example : Ends (gerc (x.view : VecV (FP f)) y.view C) (heapN f) fun _ h' => h' 77 = some .nan :=
  (C55_gerc FP.absorbs_nan _ _ _ _ _ _ _ (holdsVN bx) (holdsVN by_) (mholdsN bC) le_rfl le_rfl
    (by view_facts) (by view_facts) (by view_facts)).mono
    fun _ h' ⟨w, hb, hn⟩ => (hb.1 2 1 (by decide) (by decide) trivial).trans
      (congrArg some (hn 2 1 (by decide) (by decide) (Or.inr (Or.inr y1))))

/-- **C55** `symmetric_matrix_rank_1_update(x, A, t)` -/
theorem C55_syr (N : Absorbs bad) (x : VecV α) (A : Mat) (t : Triangle) (h : Heap α)
    (f : Nat → α) (a : Nat → Nat → α) (hx : x.Holds h f) (hA : A.HoldsOn h t.region a)
    (hsq : A.rows = A.cols) (hxe : A.rows ≤ x.ext) (hu : A.UniqueOn t.region)
    (hxA : Apart x.toVec.Cell (A.CellOn t.region)) :
    Ends (syr x A t) h fun _ h' => ∃ w, A.BecomesOn h h' t.region w ∧
      ∀ i j, i < A.rows → j < A.cols → t.region i j →
        (bad (a i j) ∨ bad (f i) ∨ bad (f j)) → bad (w i j) := by
  refine (C26_syr x A t h f a hx hA hsq hxe hu hxA).mono fun _ h' hb => ⟨_, hb, fun i j hi hj hr hc => ?_⟩
  refine N.add _ _ ?_
  rcases hc with hc | hc
  · exact Or.inl hc
  · exact Or.inr (N.mul _ _ (hc.imp id id))

example : Ends (syr (y.view : VecV (FP f)) C .lower) (heapN f) fun _ h' => h' 73 = some .nan :=
  (C55_syr FP.absorbs_nan _ _ _ _ _ _ (holdsVN by_) (mholdsN bC) rfl le_rfl
    (by view_facts) (by view_facts)).mono
    fun _ h' ⟨w, hb, hn⟩ => (hb.1 1 0 (by decide) (by decide) (show _ ≤ _ by decide)).trans
      (congrArg some (hn 1 0 (by decide) (by decide) (show _ ≤ _ by decide) (Or.inr (Or.inl y1))))

/-- **C55** `symmetric_matrix_rank_1_update(alpha, x, A, t)` -/
theorem C55_syr_alpha (N : Absorbs bad) (alpha : α) (x : VecV α) (A : Mat) (t : Triangle) (h : Heap α)
    (f : Nat → α) (a : Nat → Nat → α) (hx : x.Holds h f) (hA : A.HoldsOn h t.region a)
    (hsq : A.rows = A.cols) (hxe : A.rows ≤ x.ext) (hu : A.UniqueOn t.region)
    (hxA : Apart x.toVec.Cell (A.CellOn t.region)) :
    Ends (syrAlpha alpha x A t) h fun _ h' => ∃ w, A.BecomesOn h h' t.region w ∧
      ∀ i j, i < A.rows → j < A.cols → t.region i j →
        (bad (a i j) ∨ bad alpha ∨ bad (f i) ∨ bad (f j)) → bad (w i j) := by
  refine (C26_syrAlpha alpha x A t h f a hx hA hsq hxe hu hxA).mono fun _ h' hb => ⟨_, hb, fun i j hi hj hr hc => ?_⟩
  refine N.add _ _ ?_
  rcases hc with hc | hc
  · exact Or.inl hc
  · exact Or.inr (N.mul _ _ (hc.elim (fun q => Or.inl (N.mul _ _ (Or.inl q)))
      fun q => q.imp (fun q => N.mul _ _ (Or.inr q)) id))

example : Ends (syrAlpha 0 (y.view : VecV (FP f)) C .lower) (heapN f) fun _ h' => h' 73 = some .nan :=
  (C55_syr_alpha FP.absorbs_nan _ _ _ _ _ _ _ (holdsVN by_) (mholdsN bC) rfl le_rfl
    (by view_facts) (by view_facts)).mono
    fun _ h' ⟨w, hb, hn⟩ => (hb.1 1 0 (by decide) (by decide) (show _ ≤ _ by decide)).trans
      (congrArg some (hn 1 0 (by decide) (by decide) (show _ ≤ _ by decide) (Or.inr (Or.inr (Or.inl y1)))))

/-- **C55** `hermitian_matrix_rank_1_update(x, A, t)` -/
theorem C55_her (N : Absorbs bad) (x : VecV α) (A : Mat) (t : Triangle) (h : Heap α)
    (f : Nat → α) (a : Nat → Nat → α) (hx : x.Holds h f) (hA : A.HoldsOn h t.region a)
    (hsq : A.rows = A.cols) (hxe : A.rows ≤ x.ext) (hu : A.UniqueOn t.region)
    (hxA : Apart x.toVec.Cell (A.CellOn t.region)) :
    Ends (her x A t) h fun _ h' => ∃ w, A.BecomesOn h h' t.region w ∧
      ∀ i j, i < A.rows → j < A.cols → t.region i j →
        (bad (a i j) ∨ bad (f i) ∨ bad (f j)) → bad (w i j) := by
  refine (C26_her x A t h f a hx hA hsq hxe hu hxA).mono fun _ h' hb => ⟨_, hb, fun i j hi hj hr hc => ?_⟩
  refine N.add _ _ ?_
  rcases hc with hc | hc
  · exact Or.inl (N.start hc)
  · exact Or.inr (N.mul _ _ (hc.imp id (N.conj _)))

example : Ends (her (y.view : VecV (FP f)) C .lower) (heapN f) fun _ h' => h' 73 = some .nan :=
  (C55_her FP.absorbs_nan _ _ _ _ _ _ (holdsVN by_) (mholdsN bC) rfl le_rfl
    (by view_facts) (by view_facts)).mono
    fun _ h' ⟨w, hb, hn⟩ => (hb.1 1 0 (by decide) (by decide) (show _ ≤ _ by decide)).trans
      (congrArg some (hn 1 0 (by decide) (by decide) (show _ ≤ _ by decide) (Or.inr (Or.inl y1))))

/-- **C55** `hermitian_matrix_rank_1_update(alpha, x, A, t)` -/
theorem C55_her_alpha (N : Absorbs bad) (alpha : α) (x : VecV α) (A : Mat) (t : Triangle) (h : Heap α)
    (f : Nat → α) (a : Nat → Nat → α) (hx : x.Holds h f) (hA : A.HoldsOn h t.region a)
    (hsq : A.rows = A.cols) (hxe : A.rows ≤ x.ext) (hu : A.UniqueOn t.region)
    (hxA : Apart x.toVec.Cell (A.CellOn t.region)) :
    Ends (herAlpha alpha x A t) h fun _ h' => ∃ w, A.BecomesOn h h' t.region w ∧
      ∀ i j, i < A.rows → j < A.cols → t.region i j →
        (bad (a i j) ∨ bad alpha ∨ bad (f i) ∨ bad (f j)) → bad (w i j) := by
  refine (C26_herAlpha alpha x A t h f a hx hA hsq hxe hu hxA).mono fun _ h' hb => ⟨_, hb, fun i j hi hj hr hc => ?_⟩
  refine N.add _ _ ?_
  rcases hc with hc | hc
  · exact Or.inl (N.start hc)
  · exact Or.inr (N.mul _ _ (hc.elim (fun q => Or.inl (N.mul _ _ (Or.inl q)))
      fun q => q.imp (fun q => N.mul _ _ (Or.inr q)) (N.conj _)))

example : Ends (herAlpha 0 (y.view : VecV (FP f)) C .lower) (heapN f) fun _ h' => h' 73 = some .nan :=
  (C55_her_alpha FP.absorbs_nan _ _ _ _ _ _ _ (holdsVN by_) (mholdsN bC) rfl le_rfl
    (by view_facts) (by view_facts)).mono
    fun _ h' ⟨w, hb, hn⟩ => (hb.1 1 0 (by decide) (by decide) (show _ ≤ _ by decide)).trans
      (congrArg some (hn 1 0 (by decide) (by decide) (show _ ≤ _ by decide) (Or.inr (Or.inr (Or.inl y1)))))

/-- **C55** `symmetric_matrix_rank_2_update(x, y, A, t)` -/
theorem C55_syr2 (N : Absorbs bad) (x y : VecV α) (A : Mat) (t : Triangle) (h : Heap α)
    (f g : Nat → α) (a : Nat → Nat → α) (hx : x.Holds h f) (hy : y.Holds h g)
    (hA : A.HoldsOn h t.region a) (hsq : A.rows = A.cols) (hxe : A.rows ≤ x.ext)
    (hye : A.rows ≤ y.ext) (hu : A.UniqueOn t.region)
    (hxA : Apart x.toVec.Cell (A.CellOn t.region))
    (hyA : Apart y.toVec.Cell (A.CellOn t.region)) :
    Ends (syr2 x y A t) h fun _ h' => ∃ w, A.BecomesOn h h' t.region w ∧
      ∀ i j, i < A.rows → j < A.cols → t.region i j →
        (bad (a i j) ∨ bad (f i) ∨ bad (g j) ∨ bad (g i) ∨ bad (f j)) → bad (w i j) := by
  refine (C27_syr2 x y A t h f g a hx hy hA hsq hxe hye hu hxA hyA).mono fun _ h' hb => ⟨_, hb, fun i j hi hj hr hc => ?_⟩
  refine N.add _ _ ?_
  rcases hc with hc | hc
  · exact Or.inl hc
  · exact Or.inr (N.add _ _
      (hc.elim (fun q => Or.inl (N.mul _ _ (Or.inl q))) fun q => q.elim
      (fun q => Or.inl (N.mul _ _ (Or.inr (q)))) fun q => q.elim
      (fun q => Or.inr (N.mul _ _ (Or.inl q))) fun q => Or.inr (N.mul _ _ (Or.inr (q)))))

example : Ends (syr2 (x.view : VecV (FP f)) y.view C .lower) (heapN f) fun _ h' => h' 73 = some .nan :=
  (C55_syr2 FP.absorbs_nan _ _ _ _ _ _ _ _ (holdsVN bx) (holdsVN by_) (mholdsN bC) rfl le_rfl le_rfl
    (by view_facts) (by view_facts) (by view_facts)).mono
    fun _ h' ⟨w, hb, hn⟩ => (hb.1 1 0 (by decide) (by decide) (show _ ≤ _ by decide)).trans
      (congrArg some (hn 1 0 (by decide) (by decide) (show _ ≤ _ by decide) (Or.inr (Or.inr (Or.inr (Or.inl y1))))))

/-- **C55** `hermitian_matrix_rank_2_update(x, y, A, t)` -/
theorem C55_her2 (N : Absorbs bad) (x y : VecV α) (A : Mat) (t : Triangle) (h : Heap α)
    (f g : Nat → α) (a : Nat → Nat → α) (hx : x.Holds h f) (hy : y.Holds h g)
    (hA : A.HoldsOn h t.region a) (hsq : A.rows = A.cols) (hxe : A.rows ≤ x.ext)
    (hye : A.rows ≤ y.ext) (hu : A.UniqueOn t.region)
    (hxA : Apart x.toVec.Cell (A.CellOn t.region))
    (hyA : Apart y.toVec.Cell (A.CellOn t.region)) :
    Ends (her2 x y A t) h fun _ h' => ∃ w, A.BecomesOn h h' t.region w ∧
      ∀ i j, i < A.rows → j < A.cols → t.region i j →
        (bad (a i j) ∨ bad (f i) ∨ bad (g j) ∨ bad (g i) ∨ bad (f j)) → bad (w i j) := by
  refine (C27_her2 x y A t h f g a hx hy hA hsq hxe hye hu hxA hyA).mono fun _ h' hb => ⟨_, hb, fun i j hi hj hr hc => ?_⟩
  refine N.add _ _ ?_
  rcases hc with hc | hc
  · exact Or.inl (N.start hc)
  · exact Or.inr (N.add _ _
      (hc.elim (fun q => Or.inl (N.mul _ _ (Or.inl q))) fun q => q.elim
      (fun q => Or.inl (N.mul _ _ (Or.inr (N.conj _ q)))) fun q => q.elim
      (fun q => Or.inr (N.mul _ _ (Or.inl q))) fun q => Or.inr (N.mul _ _ (Or.inr (N.conj _ q)))))

example : Ends (her2 (x.view : VecV (FP f)) y.view C .lower) (heapN f) fun _ h' => h' 73 = some .nan :=
  (C55_her2 FP.absorbs_nan _ _ _ _ _ _ _ _ (holdsVN bx) (holdsVN by_) (mholdsN bC) rfl le_rfl le_rfl
    (by view_facts) (by view_facts) (by view_facts)).mono
    fun _ h' ⟨w, hb, hn⟩ => (hb.1 1 0 (by decide) (by decide) (show _ ≤ _ by decide)).trans
      (congrArg some (hn 1 0 (by decide) (by decide) (show _ ≤ _ by decide) (Or.inr (Or.inr (Or.inr (Or.inl y1))))))

/-- **C55** `symmetric_matrix_rank_k_update(A, C, t)` -/
theorem C55_syrk (N : Absorbs bad) (A : MatV α) (C : Mat) (t : Triangle)
    (h : Heap α) (a c : Nat → Nat → α) (hA : A.Holds h a) (hC : C.HoldsOn h t.region c)
    (hsq : C.rows = C.cols) (hAe : C.rows ≤ A.rows) (hu : C.UniqueOn t.region)
    (hAC : Apart A.toMat.Cell (C.CellOn t.region)) :
    Ends (syrk A C t) h fun _ h' => ∃ w, C.BecomesOn h h' t.region w ∧
      ∀ i j, i < C.rows → j < C.cols → t.region i j →
        (bad (c i j) ∨ ∃ k, k < A.cols ∧ (bad (a i k) ∨ bad (a j k))) → bad (w i j) := by
  refine (C54_syrk A C t h a c hA hC hsq hAe hu hAC).mono fun _ h' hb => ⟨_, hb, fun i j hi hj hr hc => ?_⟩
  exact N.leftSum (hc.imp id fun ⟨k, hk⟩ => ⟨k, hk.1, N.mul _ _ (hk.2.imp id id)⟩)

example : Ends (syrk (T.view : MatV (FP f)) C .lower) (heapN f) fun _ h' => h' 73 = some .nan :=
  (C55_syrk FP.absorbs_nan _ _ _ _ _ _ (mholdsVN bT) (mholdsN bC) rfl le_rfl
    (by view_facts) (by view_facts)).mono
    fun _ h' ⟨w, hb, hn⟩ => (hb.1 1 0 (by decide) (by decide) (show _ ≤ _ by decide)).trans
      (congrArg some (hn 1 0 (by decide) (by decide) (show _ ≤ _ by decide) (Or.inr ⟨0, Nat.succ_pos _, Or.inl T10⟩)))

/-- **C55** `symmetric_matrix_rank_k_update(alpha, A, C, t)` -/
theorem C55_syrk_alpha (N : Absorbs bad) (alpha : α) (A : MatV α) (C : Mat) (t : Triangle)
    (h : Heap α) (a c : Nat → Nat → α) (hA : A.Holds h a) (hC : C.HoldsOn h t.region c)
    (hsq : C.rows = C.cols) (hAe : C.rows ≤ A.rows) (hu : C.UniqueOn t.region)
    (hAC : Apart A.toMat.Cell (C.CellOn t.region)) :
    Ends (syrkAlpha alpha A C t) h fun _ h' => ∃ w, C.BecomesOn h h' t.region w ∧
      ∀ i j, i < C.rows → j < C.cols → t.region i j →
        (bad (c i j) ∨ ∃ k, k < A.cols ∧ (bad alpha ∨ bad (a i k) ∨ bad (a j k))) → bad (w i j) := by
  refine (C54_syrk_alpha alpha A C t h a c hA hC hsq hAe hu hAC).mono fun _ h' hb => ⟨_, hb, fun i j hi hj hr hc => ?_⟩
  exact N.leftSum (hc.imp id fun ⟨k, hk⟩ => ⟨k, hk.1, N.mul _ _ (hk.2.elim (fun q => Or.inl (N.mul _ _ (Or.inl q)))
      fun q => q.imp (fun q => N.mul _ _ (Or.inr q)) id)⟩)

example : Ends (syrkAlpha 0 (T.view : MatV (FP f)) C .lower) (heapN f) fun _ h' => h' 73 = some .nan :=
  (C55_syrk_alpha FP.absorbs_nan _ _ _ _ _ _ _ (mholdsVN bT) (mholdsN bC) rfl le_rfl
    (by view_facts) (by view_facts)).mono
    fun _ h' ⟨w, hb, hn⟩ => (hb.1 1 0 (by decide) (by decide) (show _ ≤ _ by decide)).trans
      (congrArg some (hn 1 0 (by decide) (by decide) (show _ ≤ _ by decide) (Or.inr ⟨0, Nat.succ_pos _, Or.inr (Or.inl T10)⟩)))

/-- **C55** `hermitian_matrix_rank_k_update(A, C, t)` -/
theorem C55_herk (N : Absorbs bad) (A : MatV α) (C : Mat) (t : Triangle)
    (h : Heap α) (a c : Nat → Nat → α) (hA : A.Holds h a) (hC : C.HoldsOn h t.region c)
    (hsq : C.rows = C.cols) (hAe : C.rows ≤ A.rows) (hu : C.UniqueOn t.region)
    (hAC : Apart A.toMat.Cell (C.CellOn t.region)) :
    Ends (herk A C t) h fun _ h' => ∃ w, C.BecomesOn h h' t.region w ∧
      ∀ i j, i < C.rows → j < C.cols → t.region i j →
        (bad (c i j) ∨ ∃ k, k < A.cols ∧ (bad (a i k) ∨ bad (a j k))) → bad (w i j) := by
  refine (C54_herk A C t h a c hA hC hsq hAe hu hAC).mono fun _ h' hb => ⟨_, hb, fun i j hi hj hr hc => ?_⟩
  exact N.leftSum (hc.imp N.start fun ⟨k, hk⟩ => ⟨k, hk.1, N.mul _ _ (hk.2.imp id (N.conj _))⟩)

example : Ends (herk (T.view : MatV (FP f)) C .lower) (heapN f) fun _ h' => h' 73 = some .nan :=
  (C55_herk FP.absorbs_nan _ _ _ _ _ _ (mholdsVN bT) (mholdsN bC) rfl le_rfl
    (by view_facts) (by view_facts)).mono
    fun _ h' ⟨w, hb, hn⟩ => (hb.1 1 0 (by decide) (by decide) (show _ ≤ _ by decide)).trans
      (congrArg some (hn 1 0 (by decide) (by decide) (show _ ≤ _ by decide) (Or.inr ⟨0, Nat.succ_pos _, Or.inl T10⟩)))

/-- **C55** `hermitian_matrix_rank_k_update(alpha, A, C, t)` -/
theorem C55_herk_alpha (N : Absorbs bad) (alpha : α) (A : MatV α) (C : Mat) (t : Triangle)
    (h : Heap α) (a c : Nat → Nat → α) (hA : A.Holds h a) (hC : C.HoldsOn h t.region c)
    (hsq : C.rows = C.cols) (hAe : C.rows ≤ A.rows) (hu : C.UniqueOn t.region)
    (hAC : Apart A.toMat.Cell (C.CellOn t.region)) :
    Ends (herkAlpha alpha A C t) h fun _ h' => ∃ w, C.BecomesOn h h' t.region w ∧
      ∀ i j, i < C.rows → j < C.cols → t.region i j →
        (bad (c i j) ∨ ∃ k, k < A.cols ∧ (bad alpha ∨ bad (a i k) ∨ bad (a j k))) → bad (w i j) := by
  refine (C54_herk_alpha alpha A C t h a c hA hC hsq hAe hu hAC).mono fun _ h' hb => ⟨_, hb, fun i j hi hj hr hc => ?_⟩
  exact N.leftSum (hc.imp N.start fun ⟨k, hk⟩ => ⟨k, hk.1, N.mul _ _ (hk.2.elim (fun q => Or.inl (N.mul _ _ (Or.inl q)))
      fun q => q.imp (fun q => N.mul _ _ (Or.inr q)) (N.conj _))⟩)

example : Ends (herkAlpha 0 (T.view : MatV (FP f)) C .lower) (heapN f) fun _ h' => h' 73 = some .nan :=
  (C55_herk_alpha FP.absorbs_nan _ _ _ _ _ _ _ (mholdsVN bT) (mholdsN bC) rfl le_rfl
    (by view_facts) (by view_facts)).mono
    fun _ h' ⟨w, hb, hn⟩ => (hb.1 1 0 (by decide) (by decide) (show _ ≤ _ by decide)).trans
      (congrArg some (hn 1 0 (by decide) (by decide) (show _ ≤ _ by decide) (Or.inr ⟨0, Nat.succ_pos _, Or.inr (Or.inl T10)⟩)))

/-- **C55** `symmetric_matrix_rank_2k_update(A, B, C, t)` -/
theorem C55_syr2k (N : Absorbs bad) (A B : MatV α) (C : Mat) (t : Triangle)
    (h : Heap α) (a b c : Nat → Nat → α) (hA : A.Holds h a) (hB : B.Holds h b)
    (hC : C.HoldsOn h t.region c) (hsq : C.rows = C.cols) (hAe : C.rows ≤ A.rows)
    (hBe : C.rows ≤ B.rows) (hAB : A.cols ≤ B.cols) (hu : C.UniqueOn t.region)
    (hAC : Apart A.toMat.Cell (C.CellOn t.region)) (hBC : Apart B.toMat.Cell (C.CellOn t.region)) :
    Ends (syr2k A B C t) h fun _ h' => ∃ w, C.BecomesOn h h' t.region w ∧
      ∀ i j, i < C.rows → j < C.cols → t.region i j →
        (bad (c i j) ∨ ∃ k, k < A.cols ∧ (bad (a i k) ∨ bad (b j k) ∨ bad (b i k) ∨ bad (a j k))) → bad (w i j) := by
  refine (C54_syr2k A B C t h a b c hA hB hC hsq hAe hBe hAB hu hAC hBC).mono fun _ h' hb => ⟨_, hb, fun i j hi hj hr hc => ?_⟩
  exact N.leftSum (hc.imp id fun ⟨k, hk⟩ => ⟨k, hk.1, N.add _ _ (hk.2.elim
      (fun q => Or.inl (N.mul _ _ (Or.inl q))) fun q => q.elim
      (fun q => Or.inl (N.mul _ _ (Or.inr q))) fun q => q.elim
      (fun q => Or.inr (N.mul _ _ (Or.inl q))) fun q => Or.inr (N.mul _ _ (Or.inr q)))⟩)

example : Ends (syr2k (T.view : MatV (FP f)) A.view C .lower) (heapN f) fun _ h' => h' 73 = some .nan :=
  (C55_syr2k FP.absorbs_nan _ _ _ _ _ _ _ _ (mholdsVN bT) (mholdsVN bA) (mholdsN bC) rfl le_rfl le_rfl
    (show 2 ≤ 3 by decide) (by view_facts) (by view_facts) (by view_facts)).mono
    fun _ h' ⟨w, hb, hn⟩ => (hb.1 1 0 (by decide) (by decide) (show _ ≤ _ by decide)).trans
      (congrArg some (hn 1 0 (by decide) (by decide) (show _ ≤ _ by decide) (Or.inr ⟨0, Nat.succ_pos _, Or.inl T10⟩)))

/-- **C55** `hermitian_matrix_rank_2k_update(A, B, C, t)` -/
theorem C55_her2k (N : Absorbs bad) (A B : MatV α) (C : Mat) (t : Triangle)
    (h : Heap α) (a b c : Nat → Nat → α) (hA : A.Holds h a) (hB : B.Holds h b)
    (hC : C.HoldsOn h t.region c) (hsq : C.rows = C.cols) (hAe : C.rows ≤ A.rows)
    (hBe : C.rows ≤ B.rows) (hAB : A.cols ≤ B.cols) (hu : C.UniqueOn t.region)
    (hAC : Apart A.toMat.Cell (C.CellOn t.region)) (hBC : Apart B.toMat.Cell (C.CellOn t.region)) :
    Ends (her2k A B C t) h fun _ h' => ∃ w, C.BecomesOn h h' t.region w ∧
      ∀ i j, i < C.rows → j < C.cols → t.region i j →
        (bad (c i j) ∨ ∃ k, k < A.cols ∧ (bad (a i k) ∨ bad (b j k) ∨ bad (b i k) ∨ bad (a j k))) → bad (w i j) := by
  refine (C54_her2k A B C t h a b c hA hB hC hsq hAe hBe hAB hu hAC hBC).mono fun _ h' hb => ⟨_, hb, fun i j hi hj hr hc => ?_⟩
  exact N.leftSum (hc.imp N.start fun ⟨k, hk⟩ => ⟨k, hk.1, N.add _ _ (hk.2.elim
      (fun q => Or.inl (N.mul _ _ (Or.inl q))) fun q => q.elim
      (fun q => Or.inl (N.mul _ _ (Or.inr (N.conj _ q)))) fun q => q.elim
      (fun q => Or.inr (N.mul _ _ (Or.inl q))) fun q => Or.inr (N.mul _ _ (Or.inr (N.conj _ q))))⟩)

example : Ends (her2k (T.view : MatV (FP f)) A.view C .lower) (heapN f) fun _ h' => h' 73 = some .nan :=
  (C55_her2k FP.absorbs_nan _ _ _ _ _ _ _ _ (mholdsVN bT) (mholdsVN bA) (mholdsN bC) rfl le_rfl le_rfl
    (show 2 ≤ 3 by decide) (by view_facts) (by view_facts) (by view_facts)).mono
    fun _ h' ⟨w, hb, hn⟩ => (hb.1 1 0 (by decide) (by decide) (show _ ≤ _ by decide)).trans
      (congrArg some (hn 1 0 (by decide) (by decide) (show _ ≤ _ by decide) (Or.inr ⟨0, Nat.succ_pos _, Or.inl T10⟩)))

/-! ## Solves

A `bad` right-hand side element or matrix element of row `k` spoils the solution from row `k` on, in
the order of the substitution. -/

/-- **C55** `triangular_matrix_vector_solve(A, t, d, b, x)` -/
theorem C55_trsv (N : Absorbs bad) (A : MatV α) (t : Triangle) (d : Diag) (B : VecV α)
    (X : Vec) (h : Heap α) (a : Nat → Nat → α) (b : Nat → α)
    (hA : A.HoldsOn h (triRegion t d) a) (hB : B.Holds h b) (hX : X.Alloc h)
    (hsq : A.rows = A.cols) (hext : A.rows = X.ext) (hBe : A.rows ≤ B.ext) (hu : X.Unique)
    (hAX : Apart (A.toMat.CellOn (triRegion t d)) X.Cell) (hBX : B.toVec.Aligned X) :
    Ends (trsv (· / ·) A t d B X) h fun _ h' => ∃ w, X.Becomes h h' w ∧
      ∀ i, i < X.ext →
        (∃ k, k < A.rows ∧ t.region i k ∧
          (bad (b k) ∨ ∃ l, l < A.rows ∧ triRegion t d k l ∧ bad (a k l))) → bad (w i) := by
  refine (C54_trsv A t d B X h a b hA hB hX hsq hext hBe hu hAX hBX).mono fun _ h' ⟨w, hb, hw⟩ => ⟨w, hb, ?_⟩
  have hstep : ∀ i, i < A.rows → (bad (b i) ∨ (∃ l, l < A.rows ∧ triRegion t d i l ∧ bad (a i l)) ∨
      ∃ k, k < A.rows ∧ k ≠ i ∧ t.region i k ∧ bad (w k)) → bad (w i) := fun i hi hc => by
    rw [hw i hi]
    refine N.solveRow (by omega) ?_
    rcases hc with hc | ⟨l, hl, hr, hc⟩ | ⟨k, hk, hn, hr, hc⟩
    · exact Or.inl hc
    · by_cases e : l = i
      · subst e
        cases d with
        | explicit => exact Or.inr (Or.inl ⟨rfl, hc⟩)
        | implicitUnit => exact absurd rfl (hr.2 rfl)
      · exact Or.inr (Or.inr ⟨l, by omega, e, hr.1, N.mul _ _ (Or.inl hc)⟩)
    · exact Or.inr (Or.inr ⟨k, by omega, hn, hr, N.mul _ _ (Or.inr hc)⟩)
  intro i hi ⟨k, hk, hr, hc⟩
  have hk' : bad (w k) := hstep k hk (hc.imp id Or.inl)
  by_cases e : k = i
  · exact e ▸ hk'
  · exact hstep i (by omega) (Or.inr (Or.inr ⟨k, hk, e, hr, hk'⟩))

example (d : Diag) : Ends (trsv (· / ·) (B.view : MatV (FP f)) .lower d y.view z) (heapN f)
    fun _ h' => h' 21 = some .nan ∧ h' 20 = some .nan :=
  (C55_trsv FP.absorbs_nan _ _ _ _ _ _ _ _ (mholdsVN bB) (holdsVN by_) (allocN bz) rfl rfl le_rfl
    (by view_facts) (by view_facts) (by view_facts)).mono fun _ h' ⟨w, hb, hn⟩ =>
    ⟨(hb.1 1 (by decide)).trans (congrArg some (hn 1 (by decide)
      ⟨1, (show 1 < 3 by decide), (show (1 : Nat) ≤ 1 by decide), Or.inl y1⟩)),
     (hb.1 2 (by decide)).trans (congrArg some (hn 2 (by decide)
      ⟨1, (show 1 < 3 by decide), (show (1 : Nat) ≤ 2 by decide), Or.inl y1⟩))⟩

/-- **C55** `triangular_matrix_matrix_left_solve(A, t, d, B, X)` -/
theorem C55_trsm_left (N : Absorbs bad) (A : MatV α) (t : Triangle) (d : Diag) (B : MatV α)
    (X : Mat) (h : Heap α) (a b : Nat → Nat → α)
    (hA : A.HoldsOn h (triRegion t d) a) (hB : B.Holds h b) (hX : X.Alloc h)
    (hsq : A.rows = A.cols) (hr : X.rows = A.rows) (hBr : B.rows = A.rows) (hc : X.cols = B.cols)
    (hu : X.Unique) (hAX : Apart (A.toMat.CellOn (triRegion t d)) X.Cell)
    (hBX : B.toMat.Aligned X) :
    Ends (trsmLeft A t d B X) h fun _ h' => ∃ w, X.Becomes h h' w ∧
      ∀ i j, i < X.rows → j < X.cols →
        (∃ k, k < A.rows ∧ t.region i k ∧
          (bad (b k j) ∨ ∃ l, l < A.rows ∧ triRegion t d k l ∧ bad (a k l))) → bad (w i j) := by
  refine (C54_trsm_left A t d B X h a b hA hB hX hsq hr hBr hc hu hAX hBX).mono fun _ h' ⟨w, hb, hw⟩ => ⟨w, hb, ?_⟩
  have hstep : ∀ i j, i < A.rows → j < X.cols → (bad (b i j) ∨ (∃ l, l < A.rows ∧ triRegion t d i l ∧ bad (a i l)) ∨
      ∃ k, k < A.rows ∧ k ≠ i ∧ t.region i k ∧ bad (w k j)) → bad (w i j) := fun i j hi hj hc => by
    rw [hw i j hi hj]
    refine N.solveRow (by omega) ?_
    rcases hc with hc | ⟨l, hl, hr, hc⟩ | ⟨k, hk, hn, hr, hc⟩
    · exact Or.inl hc
    · by_cases e : l = i
      · subst e
        cases d with
        | explicit => exact Or.inr (Or.inl ⟨rfl, hc⟩)
        | implicitUnit => exact absurd rfl (hr.2 rfl)
      · exact Or.inr (Or.inr ⟨l, by omega, e, hr.1, N.mul _ _ (Or.inl hc)⟩)
    · exact Or.inr (Or.inr ⟨k, by omega, hn, hr, N.mul _ _ (Or.inr hc)⟩)
  intro i j hi hj ⟨k, hk, hr, hc⟩
  have hk' : bad (w k j) := hstep k j hk hj (hc.imp id Or.inl)
  by_cases e : k = i
  · exact e ▸ hk'
  · exact hstep i j (by omega) hj (Or.inr (Or.inr ⟨k, hk, e, hr, hk'⟩))

example (d : Diag) : Ends (trsmLeft (B.view : MatV (FP f)) .lower d T.view ⟨3, 2, C.addr⟩) (heapN f)
    fun _ h' => h' 73 = some .nan ∧ h' 76 = some .nan :=
  (C55_trsm_left FP.absorbs_nan _ _ _ _ ⟨3, 2, C.addr⟩ (heapN f) _ _ (mholdsVN bB) (mholdsVN bT)
    (mallocN fun i j hi hj => bC i j hi (by simp only [C] at *; omega)) rfl rfl rfl rfl
    (by view_facts) (by view_facts) (by view_facts)).mono fun _ h' ⟨w, hb, hn⟩ =>
    ⟨(hb.1 1 0 (by decide) (by decide) trivial).trans (congrArg some (hn 1 0 (by decide) (by decide)
      ⟨1, (show 1 < 3 by decide), (show (1 : Nat) ≤ 1 by decide), Or.inl T10⟩)),
     (hb.1 2 0 (by decide) (by decide) trivial).trans (congrArg some (hn 2 0 (by decide) (by decide)
      ⟨1, (show 1 < 3 by decide), (show (1 : Nat) ≤ 2 by decide), Or.inl T10⟩))⟩

/-- **C55** `triangular_matrix_matrix_right_solve(A, t, d, B, X)` -/
theorem C55_trsm_right (N : Absorbs bad) (A : MatV α) (t : Triangle) (d : Diag) (B : MatV α)
    (X : Mat) (h : Heap α) (a b : Nat → Nat → α)
    (hA : A.HoldsOn h (triRegion t d) a) (hB : B.Holds h b) (hX : X.Alloc h)
    (hsq : A.rows = A.cols) (hr : X.cols = A.cols) (hBr : B.cols = A.cols) (hc : X.rows = B.rows)
    (hu : X.Unique) (hAX : Apart (A.toMat.CellOn (triRegion t d)) X.Cell)
    (hBX : B.toMat.Aligned X) :
    Ends (trsmRight A t d B X) h fun _ h' => ∃ w, X.Becomes h h' w ∧
      ∀ i j, i < X.rows → j < X.cols →
        (∃ k, k < A.cols ∧ t.region k j ∧
          (bad (b i k) ∨ ∃ l, l < A.cols ∧ triRegion t d l k ∧ bad (a l k))) → bad (w i j) := by
  refine (C54_trsm_right A t d B X h a b hA hB hX hsq hr hBr hc hu hAX hBX).mono fun _ h' ⟨w, hb, hw⟩ => ⟨w, hb, ?_⟩
  have hot : ∀ {p q : Nat}, t.other.region p q ↔ t.region q p := fun {p q} => by
    cases t <;> rfl
  have hstep : ∀ i j, i < X.rows → j < A.cols → (bad (b i j) ∨
      (∃ l, l < A.cols ∧ triRegion t d l j ∧ bad (a l j)) ∨
      ∃ k, k < A.cols ∧ k ≠ j ∧ t.region k j ∧ bad (w i k)) → bad (w i j) := fun i j hi hj hc => by
    rw [hw i j hi hj]
    refine N.solveRow (by omega) ?_
    rcases hc with hc | ⟨l, hl, hr, hc⟩ | ⟨k, hk, hn, hr, hc⟩
    · exact Or.inl hc
    · by_cases e : l = j
      · subst e
        cases d with
        | explicit => exact Or.inr (Or.inl ⟨rfl, hc⟩)
        | implicitUnit => exact absurd rfl (hr.2 rfl)
      · exact Or.inr (Or.inr ⟨l, by omega, e, hot.2 hr.1, N.mul _ _ (Or.inr hc)⟩)
    · exact Or.inr (Or.inr ⟨k, by omega, hn, hot.2 hr, N.mul _ _ (Or.inl hc)⟩)
  intro i j hi hj ⟨k, hk, hr, hc⟩
  have hk' : bad (w i k) := hstep i k hi hk (hc.imp id Or.inl)
  by_cases e : k = j
  · exact e ▸ hk'
  · exact hstep i j hi (by omega) (Or.inr (Or.inr ⟨k, hk, e, hr, hk'⟩))

example (d : Diag) : Ends (trsmRight (B.view : MatV (FP f)) .lower d A.view C) (heapN f)
    fun _ h' => h' 73 = some .nan :=
  (C55_trsm_right FP.absorbs_nan _ _ _ _ _ _ _ _ (mholdsVN bB) (mholdsVN bA) (mallocN bC) rfl rfl rfl
    rfl (by view_facts) (by view_facts) (by view_facts)).mono fun _ h' ⟨w, hb, hn⟩ =>
    (hb.1 1 0 (by decide) (by decide) trivial).trans (congrArg some (hn 1 0 (by decide) (by decide)
      ⟨0, Nat.succ_pos _, (show (0 : Nat) ≤ 0 by decide), Or.inl A10⟩))

end StdBLAS

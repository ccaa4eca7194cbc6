import Verif.Lemmas.Rounding
import Verif.Props.RankUpdates

/-!
# Property C47: rounding errors

`F` is the type of the elements with rounded operations, `val x` the exact real or complex number
that `x` stands for, `u` the bound on the relative error of each operation (`Spec/Rounding.lean`).
The examples run in binary floating point with 53 significant digits, `u = 2^(-53)`.
-/

namespace StdBLAS
open Finset Witness
variable {F K : Type} [Zero F] [Add F] [Sub F] [Mul F] [Div F] [NormedField K]

/-- Floating-point numbers of the examples. -/
abbrev F53 := Flt 53
theorem R53 : Rounded (Flt.val (p := 53)) ((2 : ℝ)⁻¹ ^ 53) := Rounded.flt 53
theorem u53 : ((2 : ℝ)⁻¹ ^ 53) < 1 := pow_lt_one₀ (by norm_num) (by norm_num) (by norm_num)

/-- **C47** `dot(v1, v2, init)`. -/
theorem C47_dot (val : F → K) (u : ℝ) (R : Rounded val u) (v1 v2 : VecV F) (init : F)
    (h : Heap F) (f g : Nat → F) (h1 : v1.Holds h f) (h2 : v2.Holds h g) (hext : v1.ext ≤ v2.ext) :
    Ends (dot v1 v2 init) h fun r h' => h' = h ∧
      ‖val r - (val init + ∑ k ∈ range v1.ext, val (f k) * val (g k))‖ ≤
        ((1 + u) ^ (v1.ext + 1) - 1) *
          (‖val init‖ + ∑ k ∈ range v1.ext, ‖val (f k)‖ * ‖val (g k)‖) := by
  refine (dot_fold v1 v2 init h f g h1 h2 hext).mono ?_
  rintro r h' ⟨rfl, rfl⟩
  exact ⟨rfl, (R.close_products _ f g init).2⟩

example : Ends (dot (x.view : VecV F53) y.view ⟨5⟩) (heap F53) fun r h' => h' = heap F53 ∧
    ‖r.val - (5 + ∑ k ∈ range 3, (vals F53 x k).val * (vals F53 y k).val)‖ ≤
      ((1 + (2 : ℝ)⁻¹ ^ 53) ^ 4 - 1) *
        (‖(5 : ℝ)‖ + ∑ k ∈ range 3, ‖(vals F53 x k).val‖ * ‖(vals F53 y k).val‖) :=
  C47_dot _ _ R53 _ _ _ _ _ _ (holdsV bx) (holdsV by_) le_rfl

/-- **C47** `dotc(v1, v2, init)`: as `dot` with the conjugated elements. -/
theorem C47_dotc [ConjOps F] (val : F → K) (u : ℝ) (R : Rounded val u) (v1 v2 : VecV F) (init : F)
    (h : Heap F) (f g : Nat → F) (h1 : v1.Holds h f) (h2 : v2.Holds h g) (hext : v1.ext ≤ v2.ext) :
    Ends (dotc v1 v2 init) h fun r h' => h' = h ∧
      ‖val r - (val init + ∑ k ∈ range v1.ext, val (ConjOps.conj (f k)) * val (g k))‖ ≤
        ((1 + u) ^ (v1.ext + 1) - 1) *
          (‖val init‖ + ∑ k ∈ range v1.ext, ‖val (ConjOps.conj (f k))‖ * ‖val (g k)‖) :=
  C47_dot val u R v1.conjugated v2 init h (fun k => ConjOps.conj (f k)) g
    (fun i hi => by
      obtain ⟨v, hv, e⟩ := h1 i hi
      exact ⟨v, hv, congrArg ConjOps.conj e⟩) h2 hext

example : Ends (dotc (x.view : VecV ℂ) y.view 5) (heap ℂ) fun r h' => h' = heap ℂ ∧
    ‖r - (5 + ∑ k ∈ range 3, ConjOps.conj (vals ℂ x k) * vals ℂ y k)‖ ≤
      ((1 + 0) ^ 4 - 1) *
        (‖(5 : ℂ)‖ + ∑ k ∈ range 3, ‖ConjOps.conj (vals ℂ x k)‖ * ‖vals ℂ y k‖) :=
  C47_dotc id 0 (Rounded.exact ℂ) _ _ _ _ _ _ (holdsV bx) (holdsV by_) le_rfl

/-- **C47** `matrix_vector_product(A, x, y)`: componentwise. -/
theorem C47_gemv (val : F → K) (u : ℝ) (R : Rounded val u) (A : MatV F) (x : VecV F) (y : Vec)
    (h : Heap F) (a : Nat → Nat → F) (f : Nat → F) (hA : A.Holds h a) (hx : x.Holds h f)
    (hy : y.Alloc h) (hrows : y.ext = A.rows) (hcols : A.cols ≤ x.ext) (hu : y.Unique)
    (hAy : Apart A.toMat.Cell y.Cell) (hxy : Apart x.toVec.Cell y.Cell) :
    Ends (gemv A x y) h fun _ h' => ∃ r, y.Becomes h h' r ∧ ∀ i, i < y.ext →
      ‖val (r i) - ∑ k ∈ range A.cols, val (a i k) * val (f k)‖ ≤
        ((1 + u) ^ (A.cols + 1) - 1) * ∑ k ∈ range A.cols, ‖val (a i k)‖ * ‖val (f k)‖ := by
  refine (gemv_fold A x y h a f hA hx hy hrows hcols hu hAy hxy).mono fun _ h' hb =>
    ⟨_, hb, fun i _ => ?_⟩
  simpa only [R.zero, zero_add, norm_zero] using (R.close_products A.cols (a i) f 0).2

example : Ends (gemv (W.view : MatV F53) x.view ⟨2, y.addr⟩) (heap F53) fun _ h' =>
    ∃ r, (⟨2, y.addr⟩ : Vec).Becomes (heap F53) h' r ∧ ∀ i, i < 2 →
      ‖(r i).val - ∑ k ∈ range 3, (mvals F53 W i k).val * (vals F53 x k).val‖ ≤
        ((1 + (2 : ℝ)⁻¹ ^ 53) ^ 4 - 1) *
          ∑ k ∈ range 3, ‖(mvals F53 W i k).val‖ * ‖(vals F53 x k).val‖ :=
  C47_gemv _ _ R53 _ _ _ _ _ _ (mholdsV bW) (holdsV bx)
    (alloc fun i hi => by_ i (by simp only [y] at *; omega)) rfl le_rfl
    (by view_facts) (by view_facts) (by view_facts)

/-- **C47** `matrix_vector_product(A, x, y, z)`, the updating overload. -/
theorem C47_gemv_update (val : F → K) (u : ℝ) (R : Rounded val u) (A : MatV F) (x y : VecV F)
    (z : Vec) (h : Heap F) (a : Nat → Nat → F) (f g : Nat → F) (hA : A.Holds h a)
    (hx : x.Holds h f) (hy : y.Holds h g) (hz : z.Alloc h) (hrows : z.ext = A.rows)
    (hcols : A.cols ≤ x.ext) (hye : A.rows ≤ y.ext) (hu : z.Unique)
    (hAz : Apart A.toMat.Cell z.Cell) (hxz : Apart x.toVec.Cell z.Cell)
    (hyz : y.toVec.Aligned z) :
    Ends (gemvUpdate A x y z) h fun _ h' => ∃ r, z.Becomes h h' r ∧ ∀ i, i < z.ext →
      ‖val (r i) - (val (g i) + ∑ k ∈ range A.cols, val (a i k) * val (f k))‖ ≤
        ((1 + u) ^ (A.cols + 1) - 1) *
          (‖val (g i)‖ + ∑ k ∈ range A.cols, ‖val (a i k)‖ * ‖val (f k)‖) :=
  (gemvUpdate_fold A x y z h a f g hA hx hy hz hrows hcols hye hu hAz hxz hyz).mono fun _ _ hb =>
    ⟨_, hb, fun i _ => (R.close_products A.cols (a i) f (g i)).2⟩

example : Ends (gemvUpdate (A.view : MatV F53) x.view y.view y) (heap F53) fun _ h' =>
    ∃ r, y.Becomes (heap F53) h' r ∧ ∀ i, i < 3 →
      ‖(r i).val - ((vals F53 y i).val + ∑ k ∈ range 3, (mvals F53 A i k).val * (vals F53 x k).val)‖ ≤
        ((1 + (2 : ℝ)⁻¹ ^ 53) ^ 4 - 1) * (‖(vals F53 y i).val‖ +
          ∑ k ∈ range 3, ‖(mvals F53 A i k).val‖ * ‖(vals F53 x k).val‖) :=
  C47_gemv_update _ _ R53 _ _ _ _ _ _ _ _ (mholdsV bA) (holdsV bx) (holdsV by_) (alloc by_) rfl le_rfl
    le_rfl (by view_facts) (by view_facts) (by view_facts) (by view_facts)

/-- **C47** `matrix_product(A, B, C)`: componentwise. -/
theorem C47_gemm (val : F → K) (u : ℝ) (R : Rounded val u) (A B : MatV F) (C : Mat) (h : Heap F)
    (a b : Nat → Nat → F) (hA : A.Holds h a) (hB : B.Holds h b) (hC : C.Alloc h)
    (hr : C.rows = A.rows) (hk : A.cols = B.rows) (hc : C.cols = B.cols) (hu : C.Unique)
    (hAC : Apart A.toMat.Cell C.Cell) (hBC : Apart B.toMat.Cell C.Cell) :
    Ends (gemm A B C) h fun _ h' => ∃ r, C.Becomes h h' r ∧ ∀ i j, i < C.rows → j < C.cols →
      ‖val (r i j) - ∑ k ∈ range A.cols, val (a i k) * val (b k j)‖ ≤
        ((1 + u) ^ (A.cols + 1) - 1) * ∑ k ∈ range A.cols, ‖val (a i k)‖ * ‖val (b k j)‖ := by
  refine (gemm_fold hA hB hC hr.le hk.le hc.le hu hAC hBC).mono fun _ h' hb =>
    ⟨_, hb, fun i j _ _ => ?_⟩
  simpa only [R.zero, zero_add, norm_zero] using (R.close_products A.cols (a i) (fun k => b k j) 0).2

example : Ends (gemm (T.view : MatV F53) W.view C) (heap F53) fun _ h' =>
    ∃ r, C.Becomes (heap F53) h' r ∧ ∀ i j, i < 3 → j < 3 →
      ‖(r i j).val - ∑ k ∈ range 2, (mvals F53 T i k).val * (mvals F53 W k j).val‖ ≤
        ((1 + (2 : ℝ)⁻¹ ^ 53) ^ 3 - 1) *
          ∑ k ∈ range 2, ‖(mvals F53 T i k).val‖ * ‖(mvals F53 W k j).val‖ :=
  C47_gemm _ _ R53 _ _ _ _ _ _ (mholdsV bT) (mholdsV bW) (malloc bC) rfl rfl rfl
    (by view_facts) (by view_facts) (by view_facts)

/-- **C47** `matrix_product(A, B, E, C)`, the updating overload. -/
theorem C47_gemm_update (val : F → K) (u : ℝ) (R : Rounded val u) (A B E : MatV F) (C : Mat)
    (h : Heap F) (a b e : Nat → Nat → F) (hA : A.Holds h a) (hB : B.Holds h b) (hE : E.Holds h e)
    (hC : C.Alloc h) (hr : C.rows = A.rows) (hk : A.cols = B.rows) (hc : C.cols = B.cols)
    (her : C.rows ≤ E.rows) (hec : C.cols ≤ E.cols) (hu : C.Unique)
    (hAC : Apart A.toMat.Cell C.Cell) (hBC : Apart B.toMat.Cell C.Cell) (hEC : E.toMat.Aligned C) :
    Ends (gemmUpdate A B E C) h fun _ h' => ∃ r, C.Becomes h h' r ∧
      ∀ i j, i < C.rows → j < C.cols →
      ‖val (r i j) - (val (e i j) + ∑ k ∈ range A.cols, val (a i k) * val (b k j))‖ ≤
        ((1 + u) ^ (A.cols + 1) - 1) *
          (‖val (e i j)‖ + ∑ k ∈ range A.cols, ‖val (a i k)‖ * ‖val (b k j)‖) :=
  (gemmUpdate_fold hA hB hE hC hr.le hk.le hc.le her hec hu hAC hBC hEC).mono fun _ _ hb =>
    ⟨_, hb, fun i j _ _ => (R.close_products A.cols (a i) (fun k => b k j) (e i j)).2⟩

example : Ends (gemmUpdate (T.view : MatV F53) W.view C.view C) (heap F53) fun _ h' =>
    ∃ r, C.Becomes (heap F53) h' r ∧ ∀ i j, i < 3 → j < 3 →
      ‖(r i j).val - ((mvals F53 C i j).val +
          ∑ k ∈ range 2, (mvals F53 T i k).val * (mvals F53 W k j).val)‖ ≤
        ((1 + (2 : ℝ)⁻¹ ^ 53) ^ 3 - 1) * (‖(mvals F53 C i j).val‖ +
          ∑ k ∈ range 2, ‖(mvals F53 T i k).val‖ * ‖(mvals F53 W k j).val‖) :=
  C47_gemm_update _ _ R53 _ _ _ _ _ _ _ _ (mholdsV bT) (mholdsV bW) (mholdsV bC) (malloc bC) rfl rfl
    rfl le_rfl le_rfl (by view_facts) (by view_facts) (by view_facts) (by view_facts)

omit [Zero F] [Add F] [Sub F] [Mul F] [Div F] [NormedField K] in
theorem val_symOf {val : F → K} {t : Triangle} {a : Nat → Nat → F} {i j : Nat} :
    val (symOf t a i j) = symOf t (fun i j => val (a i j)) i j := by
  unfold symOf
  split_ifs <;> rfl

/-- **C47** `symmetric_matrix_product(A, t, B, C)`. -/
theorem C47_symm_left (val : F → K) (u : ℝ) (R : Rounded val u) (A : MatV F) (t : Triangle)
    (B : MatV F) (C : Mat) (h : Heap F) (a b : Nat → Nat → F) (hA : A.HoldsOn h t.region a)
    (hB : B.Holds h b) (hC : C.Alloc h) (hsq : A.rows = A.cols) (hr : C.rows = A.rows)
    (hk : A.cols = B.rows) (hc : C.cols = B.cols) (hu : C.Unique)
    (hAC : Apart (A.toMat.CellOn t.region) C.Cell) (hBC : Apart B.toMat.Cell C.Cell) :
    Ends (symmLeft A t B C) h fun _ h' => ∃ r, C.Becomes h h' r ∧ ∀ i j, i < C.rows → j < C.cols →
      ‖val (r i j) - ∑ k ∈ range A.cols, symOf t (fun i j => val (a i j)) i k * val (b k j)‖ ≤
        ((1 + u) ^ (A.cols + 1) - 1) *
          ∑ k ∈ range A.cols, ‖symOf t (fun i j => val (a i j)) i k‖ * ‖val (b k j)‖ := by
  refine (symmLeft_fold hA hB hC hsq hr.le hk.le hc.le hu hAC hBC).mono fun _ h' hb =>
    ⟨_, hb, fun i j _ _ => ?_⟩
  simpa only [R.zero, zero_add, norm_zero, val_symOf] using
    (R.close_products A.cols (symOf t a i) (fun k => b k j) 0).2

/-- **C47** `symmetric_matrix_product(B, A, t, C)`. -/
theorem C47_symm_right (val : F → K) (u : ℝ) (R : Rounded val u) (A : MatV F) (t : Triangle)
    (B : MatV F) (C : Mat) (h : Heap F) (a b : Nat → Nat → F) (hA : A.HoldsOn h t.region a)
    (hB : B.Holds h b) (hC : C.Alloc h) (hsq : A.rows = A.cols) (hr : C.rows = B.rows)
    (hk : B.cols = A.rows) (hc : C.cols = A.cols) (hu : C.Unique)
    (hAC : Apart (A.toMat.CellOn t.region) C.Cell) (hBC : Apart B.toMat.Cell C.Cell) :
    Ends (symmRight B A t C) h fun _ h' => ∃ r, C.Becomes h h' r ∧ ∀ i j, i < C.rows → j < C.cols →
      ‖val (r i j) - ∑ k ∈ range A.cols, val (b i k) * symOf t (fun i j => val (a i j)) k j‖ ≤
        ((1 + u) ^ (A.cols + 1) - 1) *
          ∑ k ∈ range A.cols, ‖val (b i k)‖ * ‖symOf t (fun i j => val (a i j)) k j‖ := by
  refine (symmRight_fold hA hB hC hsq hr.le (by omega) hc.le hu hAC hBC).mono fun _ h' hb =>
    ⟨_, hb, fun i j _ _ => ?_⟩
  simpa only [R.zero, zero_add, norm_zero, val_symOf] using
    (R.close_products A.cols (b i) (fun k => symOf t a k j) 0).2

example (t : Triangle) : Ends (symmLeft (A.view : MatV F53) t T.view ⟨3, 2, C.addr⟩) (heap F53)
    fun _ h' => ∃ r, (⟨3, 2, C.addr⟩ : Mat).Becomes (heap F53) h' r ∧ ∀ i j, i < 3 → j < 2 →
      ‖(r i j).val - ∑ k ∈ range 3, symOf t (fun i j => (mvals F53 A i j).val) i k *
          (mvals F53 T k j).val‖ ≤
        ((1 + (2 : ℝ)⁻¹ ^ 53) ^ 4 - 1) * ∑ k ∈ range 3,
          ‖symOf t (fun i j => (mvals F53 A i j).val) i k‖ * ‖(mvals F53 T k j).val‖ :=
  C47_symm_left _ _ R53 _ _ _ _ _ _ _ (mholdsV bA) (mholdsV bT)
    (malloc fun i j hi hj => bC i j hi (by simp only [C] at *; omega)) rfl rfl rfl rfl
    (by view_facts) (by view_facts) (by view_facts)

example (t : Triangle) : Ends (symmRight (W.view : MatV F53) A.view t ⟨2, 3, C.addr⟩) (heap F53)
    fun _ h' => ∃ r, (⟨2, 3, C.addr⟩ : Mat).Becomes (heap F53) h' r ∧ ∀ i j, i < 2 → j < 3 →
      ‖(r i j).val - ∑ k ∈ range 3, (mvals F53 W i k).val *
          symOf t (fun i j => (mvals F53 A i j).val) k j‖ ≤
        ((1 + (2 : ℝ)⁻¹ ^ 53) ^ 4 - 1) * ∑ k ∈ range 3,
          ‖(mvals F53 W i k).val‖ * ‖symOf t (fun i j => (mvals F53 A i j).val) k j‖ :=
  C47_symm_right _ _ R53 _ _ _ _ _ _ _ (mholdsV bA) (mholdsV bW)
    (malloc fun i j hi hj => bC i j (by simp only [C] at *; omega) hj) rfl rfl rfl rfl
    (by view_facts) (by view_facts) (by view_facts)

/-- **C47** `matrix_rank_1_update(x, y, A)`: two roundings in each element. -/
theorem C47_ger (val : F → K) (u : ℝ) (R : Rounded val u) (x y : VecV F) (A : Mat) (h : Heap F)
    (f g : Nat → F) (a : Nat → Nat → F) (hx : x.Holds h f) (hy : y.Holds h g) (hA : A.Holds h a)
    (hxe : A.rows ≤ x.ext) (hye : A.cols ≤ y.ext) (hu : A.Unique)
    (hxA : Apart x.toVec.Cell A.Cell) (hyA : Apart y.toVec.Cell A.Cell) :
    Ends (ger x y A) h fun _ h' => ∃ r, A.Becomes h h' r ∧ ∀ i j, i < A.rows → j < A.cols →
      ‖val (r i j) - (val (a i j) + val (f i) * val (g j))‖ ≤
        ((1 + u) ^ 2 - 1) * (‖val (a i j)‖ + ‖val (f i)‖ * ‖val (g j)‖) :=
  (C25_ger x y A h f g a hx hy hA hxe hye hu hxA hyA).mono fun _ _ hb => ⟨_, hb, fun i j _ _ =>
    (R.close_add (Close.refl 1 R.nonneg) (R.close_mul (f i) (g j))).2⟩

example : Ends (ger (x.view : VecV F53) y.view C) (heap F53) fun _ h' =>
    ∃ r, C.Becomes (heap F53) h' r ∧ ∀ i j, i < 3 → j < 3 →
      ‖(r i j).val - ((mvals F53 C i j).val + (vals F53 x i).val * (vals F53 y j).val)‖ ≤
        ((1 + (2 : ℝ)⁻¹ ^ 53) ^ 2 - 1) *
          (‖(mvals F53 C i j).val‖ + ‖(vals F53 x i).val‖ * ‖(vals F53 y j).val‖) :=
  C47_ger _ _ R53 _ _ _ _ _ _ _ (holdsV bx) (holdsV by_) (mholds bC) le_rfl le_rfl
    (by view_facts) (by view_facts) (by view_facts)

/-- **C47** `symmetric_matrix_rank_k_update(A, C, t)`. -/
theorem C47_syrk (val : F → K) (u : ℝ) (R : Rounded val u) (A : MatV F) (C : Mat) (t : Triangle)
    (h : Heap F) (a c : Nat → Nat → F) (hA : A.Holds h a) (hC : C.HoldsOn h t.region c)
    (hsq : C.rows = C.cols) (hAe : C.rows ≤ A.rows) (hu : C.UniqueOn t.region)
    (hAC : Apart A.toMat.Cell (C.CellOn t.region)) :
    Ends (syrk A C t) h fun _ h' => ∃ r, C.BecomesOn h h' t.region r ∧
      ∀ i j, i < C.rows → j < C.cols → t.region i j →
      ‖val (r i j) - (val (c i j) + ∑ k ∈ range A.cols, val (a i k) * val (a j k))‖ ≤
        ((1 + u) ^ (A.cols + 1) - 1) *
          (‖val (c i j)‖ + ∑ k ∈ range A.cols, ‖val (a i k)‖ * ‖val (a j k)‖) :=
  (syrk_fold A C t h a c hA hC hsq hAe hu hAC).mono fun _ _ hb => ⟨_, hb, fun i j _ _ _ =>
    (R.close_products A.cols (a i) (a j) (c i j)).2⟩

example (t : Triangle) : Ends (syrk (T.view : MatV F53) C t) (heap F53) fun _ h' =>
    ∃ r, C.BecomesOn (heap F53) h' t.region r ∧ ∀ i j, i < 3 → j < 3 → t.region i j →
      ‖(r i j).val - ((mvals F53 C i j).val +
          ∑ k ∈ range 2, (mvals F53 T i k).val * (mvals F53 T j k).val)‖ ≤
        ((1 + (2 : ℝ)⁻¹ ^ 53) ^ 3 - 1) * (‖(mvals F53 C i j).val‖ +
          ∑ k ∈ range 2, ‖(mvals F53 T i k).val‖ * ‖(mvals F53 T j k).val‖) :=
  C47_syrk _ _ R53 _ _ _ _ _ _ (mholdsV bT) (mholds bC) rfl le_rfl (by view_facts) (by view_facts)

/-! ## Triangular solve: backward error -/

/-- **C47** `triangular_matrix_vector_solve(A, t, d, B, X)` returns the exact solution of a
triangular system each element of which differs from the given one by a relative amount of at most
`((1+u)/(1-u))^n - 1`. -/
theorem C47_trsv (val : F → K) (u : ℝ) (R : Rounded val u) (hu1 : u < 1) (A : MatV F)
    (t : Triangle) (d : Diag) (B : VecV F) (X : Vec) (h : Heap F) (a : Nat → Nat → F) (b : Nat → F)
    (hA : A.HoldsOn h (triRegion t d) a) (hB : B.Holds h b) (hX : X.Alloc h)
    (hsq : A.rows = A.cols) (hext : A.rows = X.ext) (hBe : A.rows ≤ B.ext) (hu : X.Unique)
    (hAX : Apart (A.toMat.CellOn (triRegion t d)) X.Cell) (hBX : B.toVec.Aligned X)
    (hd : d = .explicit → ∀ i, i < A.rows → val (a i i) ≠ 0) :
    Ends (trsv (· / ·) A t d B X) h fun _ h' => ∃ r, X.Becomes h h' r ∧ ∃ p : Nat → Nat → K,
      (∀ i j, i < A.rows → j < A.cols →
        ‖p i j - triOf t d (fun i j => val (a i j)) i j‖ ≤
          (((1 + u) / (1 - u)) ^ A.cols - 1) * ‖triOf t d (fun i j => val (a i j)) i j‖) ∧
      ∀ i, i < A.rows → ∑ j ∈ range A.cols, p i j * val (r j) = val (b i) := by
  refine (trsv_fold _ hA hB hX hsq hext hBe hu hAX hBX).mono ?_
  rintro _ h' ⟨v, hb, hv⟩
  refine ⟨v, hb, ?_⟩
  choose p hp using fun i : Fin A.rows => R.subRow_backward hu1 (t := t) (d := d) (a := a) (g := b)
    (show i.1 < A.cols by omega) (fun e => hd e i i.2) (hv i i.2)
  refine ⟨fun i => if hi : i < A.rows then p ⟨i, hi⟩ else 0, fun i j hi hj => ?_, fun i hi => ?_⟩
  · simp only [dif_pos hi]; exact (hp ⟨i, hi⟩).1 j hj
  · simp only [dif_pos hi]; exact (hp ⟨i, hi⟩).2

example (t : Triangle) (d : Diag) : Ends (trsv (· / ·) (A.view : MatV F53) t d x.view x)
    (heap F53) fun _ h' => ∃ r, x.Becomes (heap F53) h' r ∧ ∃ p : Nat → Nat → ℝ,
      (∀ i j, i < 3 → j < 3 → ‖p i j - triOf t d (fun i j => (mvals F53 A i j).val) i j‖ ≤
        (((1 + (2 : ℝ)⁻¹ ^ 53) / (1 - (2 : ℝ)⁻¹ ^ 53)) ^ 3 - 1) *
          ‖triOf t d (fun i j => (mvals F53 A i j).val) i j‖) ∧
      ∀ i, i < 3 → ∑ j ∈ range 3, p i j * (r j).val = (vals F53 x i).val :=
  C47_trsv _ _ R53 u53 _ _ _ _ _ _ _ _ (mholdsV bA) (holdsV bx) (alloc bx) rfl rfl le_rfl
    (by view_facts) (by view_facts) (by view_facts) fun _ i hi => by
      have hi' : i < 3 := hi
      show (((A.addr i i : ℤ) - 7 : ℤ) : ℝ) ≠ 0
      simp only [A]
      exact Int.cast_ne_zero.2 (by omega)

/-- **C47** `triangular_matrix_matrix_left_solve(A, t, d, B, X)`: each column is the exact solution
of a perturbed triangular system. -/
theorem C47_trsm_left (val : F → K) (u : ℝ) (R : Rounded val u) (hu1 : u < 1) (A : MatV F)
    (t : Triangle) (d : Diag) (B : MatV F) (X : Mat) (h : Heap F) (a b : Nat → Nat → F)
    (hA : A.HoldsOn h (triRegion t d) a) (hB : B.Holds h b) (hX : X.Alloc h)
    (hsq : A.rows = A.cols) (hr : X.rows = A.rows) (hBr : B.rows = A.rows) (hc : X.cols = B.cols)
    (hu : X.Unique) (hAX : Apart (A.toMat.CellOn (triRegion t d)) X.Cell)
    (hBX : B.toMat.Aligned X) (hd : d = .explicit → ∀ i, i < A.rows → val (a i i) ≠ 0) :
    Ends (trsmLeft A t d B X) h fun _ h' => ∃ r, X.Becomes h h' r ∧ ∀ k, k < X.cols →
      ∃ p : Nat → Nat → K,
      (∀ i j, i < A.rows → j < A.cols →
        ‖p i j - triOf t d (fun i j => val (a i j)) i j‖ ≤
          (((1 + u) / (1 - u)) ^ A.cols - 1) * ‖triOf t d (fun i j => val (a i j)) i j‖) ∧
      ∀ i, i < A.rows → ∑ j ∈ range A.cols, p i j * val (r j k) = val (b i k) := by
  refine (trsmLeft_fold hA hB hX hsq hr.symm hBr.ge hc hu hAX hBX).mono ?_
  rintro _ h' ⟨v, hb, hv⟩
  refine ⟨v, hb, fun k hk => ?_⟩
  choose p hp using fun i : Fin A.rows => R.subRow_backward hu1 (t := t) (d := d) (a := a)
    (g := fun i => b i k) (v := fun i => v i k)
    (show i.1 < A.cols by omega) (fun e => hd e i i.2) (hv k hk i i.2)
  refine ⟨fun i => if hi : i < A.rows then p ⟨i, hi⟩ else 0, fun i j hi hj => ?_, fun i hi => ?_⟩
  · simp only [dif_pos hi]; exact (hp ⟨i, hi⟩).1 j hj
  · simp only [dif_pos hi]; exact (hp ⟨i, hi⟩).2

theorem Rounded.flip {val : F → K} {u : ℝ} (R : Rounded val u) :
    @Rounded F K _ _ _ mulFlip _ _ val u :=
  @Rounded.mk F K _ _ _ mulFlip _ _ val u R.nonneg R.zero R.add R.sub (fun a b => by
      obtain ⟨δ, hδ, e⟩ := R.mul b a
      exact ⟨δ, hδ, e.trans (by rw [mul_comm (val b)])⟩) R.div

/-- **C47** `triangular_matrix_matrix_right_solve(A, t, d, B, X)`: each row is the exact solution
of a perturbed triangular system. -/
theorem C47_trsm_right (val : F → K) (u : ℝ) (R : Rounded val u) (hu1 : u < 1) (A : MatV F)
    (t : Triangle) (d : Diag) (B : MatV F) (X : Mat) (h : Heap F) (a b : Nat → Nat → F)
    (hA : A.HoldsOn h (triRegion t d) a) (hB : B.Holds h b) (hX : X.Alloc h)
    (hsq : A.rows = A.cols) (hr : X.cols = A.cols) (hBr : B.cols = A.cols) (hc : X.rows = B.rows)
    (hu : X.Unique) (hAX : Apart (A.toMat.CellOn (triRegion t d)) X.Cell)
    (hBX : B.toMat.Aligned X) (hd : d = .explicit → ∀ i, i < A.rows → val (a i i) ≠ 0) :
    Ends (trsmRight A t d B X) h fun _ h' => ∃ r, X.Becomes h h' r ∧ ∀ i, i < X.rows →
      ∃ p : Nat → Nat → K,
      (∀ k j, k < A.rows → j < A.cols →
        ‖p k j - triOf t d (fun i j => val (a i j)) k j‖ ≤
          (((1 + u) / (1 - u)) ^ A.cols - 1) * ‖triOf t d (fun i j => val (a i j)) k j‖) ∧
      ∀ j, j < A.cols → ∑ k ∈ range A.rows, val (r i k) * p k j = val (b i j) := by
  refine (trsmRight_fold hA hB hX hsq hr.symm hBr.ge hc hu hAX hBX).mono ?_
  rintro _ h' ⟨v, hb, hv⟩
  refine ⟨v, hb, fun i hi => ?_⟩
  choose p hp using fun j : Fin A.cols =>
    @Rounded.subRow_backward F K _ _ _ mulFlip _ _ val u R.flip hu1 t.flip d A.rows j
      (fun i j => a j i) (b i) (v i) (by omega) (fun e => hd e j (by omega)) (hv i hi j j.2)
  refine ⟨fun k j => if hj : j < A.cols then p ⟨j, hj⟩ k else 0, fun k j hk hj => ?_,
    fun j hj => ?_⟩
  · have := (hp ⟨j, hj⟩).1 k hk
    simp only [dif_pos hj]
    rwa [triOf_flip (a := fun i j => val (a i j)), hsq] at this
  · simp only [dif_pos hj]
    refine Eq.trans (sum_congr rfl fun k _ => mul_comm _ _) (hp ⟨j, hj⟩).2

example (t : Triangle) (d : Diag) : Ends (trsmLeft (A.view : MatV F53) t d T.view T)
    (heap F53) fun _ h' => ∃ r, T.Becomes (heap F53) h' r ∧ ∀ k, k < 2 → ∃ p : Nat → Nat → ℝ,
      (∀ i j, i < 3 → j < 3 → ‖p i j - triOf t d (fun i j => (mvals F53 A i j).val) i j‖ ≤
        (((1 + (2 : ℝ)⁻¹ ^ 53) / (1 - (2 : ℝ)⁻¹ ^ 53)) ^ 3 - 1) *
          ‖triOf t d (fun i j => (mvals F53 A i j).val) i j‖) ∧
      ∀ i, i < 3 → ∑ j ∈ range 3, p i j * (r j k).val = (mvals F53 T i k).val :=
  C47_trsm_left _ _ R53 u53 _ _ _ _ _ _ _ _ (mholdsV bA) (mholdsV bT) (malloc bT) rfl rfl rfl rfl
    (by view_facts) (by view_facts) (by view_facts) fun _ i hi => by
      have hi' : i < 3 := hi
      show (((A.addr i i : ℤ) - 7 : ℤ) : ℝ) ≠ 0
      simp only [A]
      exact Int.cast_ne_zero.2 (by omega)

example (t : Triangle) (d : Diag) : Ends (trsmRight (A.view : MatV F53) t d W.view W)
    (heap F53) fun _ h' => ∃ r, W.Becomes (heap F53) h' r ∧ ∀ i, i < 2 → ∃ p : Nat → Nat → ℝ,
      (∀ k j, k < 3 → j < 3 → ‖p k j - triOf t d (fun i j => (mvals F53 A i j).val) k j‖ ≤
        (((1 + (2 : ℝ)⁻¹ ^ 53) / (1 - (2 : ℝ)⁻¹ ^ 53)) ^ 3 - 1) *
          ‖triOf t d (fun i j => (mvals F53 A i j).val) k j‖) ∧
      ∀ j, j < 3 → ∑ k ∈ range 3, (r i k).val * p k j = (mvals F53 W i j).val :=
  C47_trsm_right _ _ R53 u53 _ _ _ _ _ _ _ _ (mholdsV bA) (mholdsV bW) (malloc bW) rfl rfl rfl rfl
    (by view_facts) (by view_facts) (by view_facts) fun _ i hi => by
      have hi' : i < 3 := hi
      show (((A.addr i i : ℤ) - 7 : ℤ) : ℝ) ≠ 0
      simp only [A]
      exact Int.cast_ne_zero.2 (by omega)

end StdBLAS

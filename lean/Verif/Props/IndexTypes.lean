import Verif.Lemmas.IndexRefine
import Verif.Props.Blas2Solve
import Verif.Props.Blas3Solve

/-!
# Properties C23, C51 and the index part of C35: index types

`fuel` bounds the number of iterations of every loop: the theorems hold for every bound that
is larger than the extents, so the calls terminate.
-/

namespace StdBLAS
open IntTy Finset Witness
variable {α : Type}

/-! ## C51 the index types do not matter -/

/-- **C51** `triangular_matrix_vector_solve` is the same program for all index types that can
represent the extents, except for an empty upper triangular system with a 32-bit unsigned
`size_type` (see `C23_trsv_uint32_false`). -/
theorem C51_trsv [Sub α] [Mul α] (fuel : Nat) (tA tB tX : IntTy) (divide : α → α → α)
    (A : MatV α) (t : Triangle) (d : Diag) (b : VecV α) (x : Vec)
    (hA : tA.Std) (hB : tB.Std) (hX : tX.Std)
    (hsq : A.rows = A.cols) (hbe : b.ext = A.rows) (hxe : x.ext = A.rows)
    (fA : tA.Fits A.rows) (fB : tB.Fits b.ext) (fX : tX.Fits x.ext) (fp : ptrdiff.Fits A.rows)
    (h0 : A.rows = 0 → common3 tA tB tX ≠ uint32) (hfuel : A.rows < fuel) :
    trsvT fuel tA tB tX divide A t d b x = trsv divide A t d b x := by
  cases t with
  | lower => exact trsvLowerT_eq hA hB hX hbe hxe fA fB fX hfuel
  | upper => exact trsvUpperT_eq hA hB hX hsq hbe hxe fA fB fX fp h0 hfuel

/-- **C51** `triangular_matrix_matrix_left_solve`. -/
theorem C51_trsm_left [Sub α] [Mul α] [Div α] (fuel : Nat) (tA tB tX : IntTy)
    (A : MatV α) (t : Triangle) (d : Diag) (B : MatV α) (X : Mat)
    (hA : tA.Std) (hB : tB.Std) (hX : tX.Std)
    (hbr : B.rows = A.rows) (hxr : X.rows = A.rows) (hxc : X.cols = B.cols)
    (fA : tA.Fits A.rows) (fBr : tB.Fits B.rows) (fBc : tB.Fits B.cols)
    (fXr : tX.Fits X.rows) (fXc : tX.Fits X.cols) (fp : ptrdiff.Fits A.rows)
    (h0 : A.rows = 0 → common3 tA tB tX ≠ uint32) (hfuel : A.rows < fuel) (hfuel' : B.cols < fuel) :
    trsmLeftT fuel tA tB tX A t d B X = trsmLeft A t d B X := by
  cases t with
  | lower => exact trsmLowerLeftT_eq hA hB hX hbr hxr hxc fA fBr fBc fXr fXc hfuel hfuel'
  | upper => exact trsmUpperLeftT_eq hA hB hX hbr hxr hxc fA fBr fBc fXr fXc fp h0 hfuel hfuel'

/-- **C51** `triangular_matrix_matrix_right_solve`.  Missing: a lower triangular matrix whose
number of columns is representable in `size_type` but not in `make_signed_t<size_type>`; for that
case see `C51_trsm_right_false`. -/
theorem C51_trsm_right_partial [Sub α] [Mul α] [Div α] (fuel : Nat) (tA tB tX : IntTy)
    (A : MatV α) (t : Triangle) (d : Diag) (B : MatV α) (X : Mat)
    (hA : tA.Std) (hB : tB.Std) (hX : tX.Std)
    (hsq : A.rows = A.cols) (hbc : B.cols = A.cols) (hxc : X.cols = A.cols) (hxr : X.rows = B.rows)
    (fA : tA.Fits A.cols) (fBr : tB.Fits B.rows) (fBc : tB.Fits B.cols)
    (fXr : tX.Fits X.rows) (fXc : tX.Fits X.cols)
    (fsg : t = .lower → (common3 tA tB tX).makeSigned.Fits A.cols)
    (hfuel : A.cols < fuel) (hfuel' : B.rows < fuel) :
    trsmRightT fuel tA tB tX A t d B X = trsmRight A t d B X := by
  cases t with
  | lower => exact trsmLowerRightT_eq hA hB hX hsq hbc hxc hxr fA fBr fBc fXr fXc (fsg rfl) hfuel hfuel'
  | upper => exact trsmUpperRightT_eq hA hB hX hbc hxc hxr fA fBr fBc fXr fXc hfuel hfuel'

/-- **C51** `triangular_matrix_product`, both sides. -/
theorem C51_trmm [Add α] [Mul α] [Zero α] (fuel : Nat) (tA tB tC : IntTy) (A : MatV α)
    (t : Triangle) (d : Diag) (B : MatV α) (C : Mat) (hA : tA.Std) (hB : tB.Std) (hC : tC.Std)
    (hsq : A.rows = A.cols) (hbr : B.rows = C.rows) (hbc : B.cols = C.cols)
    (fA : tA.Fits A.rows) (fBr : tB.Fits B.rows) (fBc : tB.Fits B.cols)
    (fCr : tC.Fits C.rows) (fCc : tC.Fits C.cols) (fp : ptrdiff.Fits A.rows)
    (hfuel : C.rows < fuel) (hfuel' : C.cols < fuel) :
    (A.rows = C.rows → trmmLeftT fuel tA tB tC A t d B C = trmmLeft A t d B C) ∧
    (A.cols = C.cols → trmmRightT fuel tA tB tC B A t d C = trmmRight B A t d C) :=
  ⟨fun h => trmmLeftT_eq hA hB hC h hbr hbc fA fBr fBc fCr fCc (h ▸ fp) hfuel hfuel',
   fun h => trmmRightT_eq hA hB hC h hbr hbc (hsq ▸ fA) fBr fBc fCr fCc (h ▸ hsq ▸ fp) hfuel hfuel'⟩

/-- **C51** in-place triangular products, both sides. -/
theorem C51_trmm_in_place [Add α] [Mul α] (fuel : Nat) (tA tC : IntTy) (A : MatV α)
    (t : Triangle) (d : Diag) (C : Mat) (hA : tA.Std) (hC : tC.Std) (hsq : A.rows = A.cols)
    (fA : tA.Fits A.rows) (fCr : tC.Fits C.rows) (fCc : tC.Fits C.cols)
    (hfuel : C.rows < fuel) (hfuel' : C.cols < fuel) :
    (A.rows = C.rows → trmmLeftInPlaceT fuel tA tC A t d C = trmmLeftInPlace A t d C) ∧
    (A.cols = C.cols → trmmRightInPlaceT fuel tA tC A t d C = trmmRightInPlace A t d C) :=
  ⟨fun h => trmmLeftInPlaceT_eq hA hC h fA fCr fCc hfuel hfuel',
   fun h => trmmRightInPlaceT_eq hA hC h (hsq ▸ fA) fCr fCc hfuel hfuel'⟩

/-- `A` indexed by `uint8_t`, the right-hand side by `int`, the solution by `size_t`: the
theorems about `trsv` hold of the program with these types. -/
example (t : Triangle) :
    Ends (trsvT 1000 uint8 int size (fun a _ => a) (A.view : MatV ℤ) t .implicitUnit x.view y)
    (heap ℤ) fun _ h' => ∃ v, y.Becomes (heap ℤ) h' v ∧
      (∀ i, i < 3 → mulVec 3 (triOf t .implicitUnit (mvals ℤ A)) v i = vals ℤ x i) ∧
      ∀ w, (∀ i, i < 3 → mulVec 3 (triOf t .implicitUnit (mvals ℤ A)) w i = vals ℤ x i) →
        ∀ i, i < 3 → w i = v i := by
  rw [C51_trsv 1000 uint8 int size _ (A.view) t .implicitUnit x.view y (by unfold Std; decide)
    (by unfold Std; decide) (by unfold Std; decide) rfl rfl rfl (by decide) (by decide) (by decide)
    (by decide) (by decide) (by decide)]
  exact C21_trsv _ _ _ _ _ _ _ _ _ (mholdsV bA) (holdsV bx) (alloc by_) rfl rfl le_rfl
    (by view_facts) (by view_facts) (by view_facts) (by simp)

example (t : Triangle) (d : Diag) : trsmLeftT 1000 uint8 int size (A.view : MatV ℚ) t d T.view T =
    trsmLeft (A.view : MatV ℚ) t d T.view T :=
  C51_trsm_left _ _ _ _ _ _ _ _ _ (by unfold Std; decide) (by unfold Std; decide)
    (by unfold Std; decide) rfl rfl rfl (by decide) (by decide) (by decide) (by decide) (by decide)
    (by decide) (by decide) (by decide) (by decide)

example (t : Triangle) (d : Diag) : trsmRightT 1000 uint8 uint8 uint8 (A.view : MatV ℚ) t d W.view W =
    trsmRight (A.view : MatV ℚ) t d W.view W :=
  C51_trsm_right_partial _ _ _ _ _ _ _ _ _ (by unfold Std; decide) (by unfold Std; decide)
    (by unfold Std; decide) rfl rfl rfl rfl (by decide) (by decide) (by decide) (by decide) (by decide)
    (fun _ => by decide) (by decide) (by decide)

example (t : Triangle) (d : Diag) :
    trmmLeftT 1000 uint8 uint32 int (A.view : MatV ℤ) t d B.view C =
      trmmLeft (A.view : MatV ℤ) t d B.view C ∧
    trmmRightT 1000 uint8 uint32 int B.view (A.view : MatV ℤ) t d C =
      trmmRight B.view (A.view : MatV ℤ) t d C :=
  (C51_trmm 1000 uint8 uint32 int (A.view : MatV ℤ) t d B.view C (by unfold Std; decide)
    (by unfold Std; decide) (by unfold Std; decide) rfl rfl rfl (by decide) (by decide) (by decide)
    (by decide) (by decide) (by decide) (by decide) (by decide)).imp (fun h => h rfl) (fun h => h rfl)

example (t : Triangle) (d : Diag) :
    trmmLeftInPlaceT 1000 uint8 size (A.view : MatV ℤ) t d C =
      trmmLeftInPlace (A.view : MatV ℤ) t d C ∧
    trmmRightInPlaceT 1000 uint8 size (A.view : MatV ℤ) t d C =
      trmmRightInPlace (A.view : MatV ℤ) t d C :=
  (C51_trmm_in_place 1000 uint8 size (A.view : MatV ℤ) t d C (by unfold Std; decide)
    (by unfold Std; decide) rfl (by decide) (by decide)
    (by decide) (by decide) (by decide)).imp (fun h => h rfl) (fun h => h rfl)

/-- **C51** For 8-bit unsigned index types and a lower triangular matrix with 129 to 255 columns
`triangular_matrix_matrix_right_solve` does nothing at all. -/
theorem C51_trsm_right_uint8_skips [Sub α] [Mul α] [Div α] (fuel : Nat) (A : MatV α) (d : Diag)
    (B : MatV α) (X : Mat) (h : Heap α) (h1 : 129 ≤ A.cols) (h2 : A.cols ≤ 255)
    (hB : B.rows ≤ 255) (hfuel : 255 < fuel) :
    Ends (trsmRightT fuel uint8 uint8 uint8 A .lower d B X) h fun _ h' => h' = h := by
  have hsz : common3 uint8 uint8 uint8 = uint8 := rfl
  have hstd : uint8.Std := Or.inl rfl
  have hmax : uint8.max = 255 := rfl
  have fB : uint8.Fits B.rows := by unfold IntTy.Fits; omega
  unfold trsmRightT trsmLowerRightT
  simp only [hsz, cast_fits hstd fB]
  have hc : uint8.makeSigned.cast A.cols = (A.cols : Int) - 256 := by
    unfold IntTy.cast IntTy.makeSigned uint8
    simp only [true_and]
    norm_num
    split <;> omega
  have hs : (sub uint8.makeSigned int ((A.cols : Int) - 256) 1 : Prog α Int) =
      pure ((A.cols : Int) - 257) := by
    have hu : usual uint8.makeSigned int = int := rfl
    unfold IntTy.sub
    have m1 : int.min = -2147483648 := rfl
    have m2 : int.max = 2147483647 := rfl
    rw [hu, cast_of_range int_std (by omega) (by omega), cast_of_range int_std (by omega) (by omega),
      arith_of_range int_std (by omega) (by omega)]
    congr 1; omega
  have m1 : uint8.makeSigned.min = -128 := rfl
  have m2 : uint8.makeSigned.max = 127 := rfl
  rw [hc, hs, cForU_lt0 (g := fun _ => pure ()) hstd hstd fB fB (by omega)]
  · refine (ends_forEach_inv (fun _ h' => h' = h) ?_ rfl)
    intro _ _ _ _ h' e
    exact ends_pure.2 e
  · intro i _
    rw [pure_bind_prog, cast_of_range (t := uint8.makeSigned) (Or.inl rfl) (by omega) (by omega)]
    obtain ⟨f, rfl⟩ : ∃ f, fuel = f + 1 := ⟨fuel - 1, by omega⟩
    unfold cForU cFor
    rw [if_neg]
    have hu : usual int uint8.makeSigned = int := rfl
    have m1 : int.min = -2147483648 := rfl
    have m2 : int.max = 2147483647 := rfl
    unfold IntTy.le
    rw [hu, cast_of_range int_std (by omega) (by omega), cast_of_range int_std (by omega) (by omega)]
    simp only [decide_eq_true_eq]
    omega

example : Ends (trsmRightT 256 uint8 uint8 uint8 (⟨⟨200, 200, fun i j => i + j⟩, id⟩ : MatV ℚ) .lower
    .explicit ⟨⟨1, 200, fun i j => i + j⟩, id⟩ ⟨1, 200, fun i j => i + j⟩) (fun _ => none)
    fun _ h' => h' = fun _ => none :=
  C51_trsm_right_uint8_skips _ _ _ _ _ _ (by decide) (by decide) (by decide) (by decide)

/-- **C51 is false** for `triangular_matrix_matrix_right_solve` with a lower triangle: for `uint8_t`
index types there are inputs, all extents representable, whose result does not solve `X T = B`. -/
theorem C51_trsm_right_false :
    ¬ ∀ (fuel : Nat) (A B X : Mat) (h : Heap ℚ) (a b : Nat → Nat → ℚ),
      A.Holds h a → B.Holds h b → X.Alloc h → A.rows = A.cols → X.cols = A.cols →
      B.cols = A.cols → X.rows = B.rows → X.Unique → Apart A.Cell X.Cell → Apart B.Cell X.Cell →
      A.rows ≤ 255 → B.rows ≤ 255 → 255 < fuel →
      Ends (trsmRightT fuel uint8 uint8 uint8 A.view .lower .implicitUnit B.view X) h fun _ h' =>
        ∃ x, X.Becomes h h' x ∧ ∀ i j, i < X.rows → j < X.cols →
          mulMat X.cols x (triOf .lower .implicitUnit a) i j = b i j := by
  intro H
  let h : Heap ℚ := fun a => if a < 200 then some 0 else some 1
  let A : Mat := ⟨200, 200, fun i j => 1000 + i + 200 * j⟩
  let B : Mat := ⟨1, 200, fun _ j => 200 + j⟩
  let X : Mat := ⟨1, 200, fun _ j => j⟩
  have hA : A.Holds h fun _ _ => 1 := fun i j _ _ _ => if_neg (by simp only [A]; omega)
  have hB : B.Holds h fun _ _ => 1 := fun i j _ _ _ => if_neg (by simp only [B]; omega)
  have hX : X.Holds h fun _ _ => 0 := fun i j _ hj _ => if_pos hj
  have hu : X.Unique := by
    intro i j k l hi hj _ hk hl _ e
    simp only [X] at *; omega
  have aX : Apart A.Cell X.Cell := by
    rintro a ⟨i, j, _, _, _, e⟩ ⟨k, l, _, hl, _, e'⟩
    simp only [A, X] at *; omega
  have bX : Apart B.Cell X.Cell := by
    rintro a ⟨i, j, _, _, _, e⟩ ⟨k, l, _, hl, _, e'⟩
    simp only [B, X] at *; omega
  have h1 := H 256 A B X h _ _ hA hB (fun i j hi hj hr => ⟨_, hX i j hi hj hr⟩) rfl rfl rfl rfl hu aX
    bX (by decide) (by decide) (by decide)
  have h2 := C51_trsm_right_uint8_skips 256 (A.view : MatV ℚ) .implicitUnit B.view X h
    (by decide) (by decide) (by decide) (by decide)
  obtain ⟨_, h', _, ⟨x, hx, hsol⟩, e⟩ := h1.and h2
  rw [e] at hx
  have hz : ∀ k, k < 200 → x 0 k = 0 := fun k hk => by
    have h3 := hx.1 0 k (by decide) hk trivial
    rw [hX 0 k (by decide) hk trivial] at h3
    exact (Option.some.inj h3).symm
  have h4 := hsol 0 0 (by decide) (by decide)
  unfold mulMat at h4
  rw [sum_eq_zero fun k hk => by rw [hz k (mem_range.1 hk), zero_mul]] at h4
  exact absurd h4 (by norm_num)

/-! ## C23 empty systems -/

theorem cForU_fail {cond : Int → Bool} {step : Int → Prog α Int} {fuel : Nat} {i : Int}
    {body : Int → Prog α Unit} {e : Err} (hfuel : 0 < fuel) (hc : cond i = true)
    (hb : body i = Prog.fail e) : cForU cond step fuel i body = Prog.fail e := by
  obtain ⟨f, rfl⟩ : ∃ f, fuel = f + 1 := ⟨fuel - 1, by omega⟩
  unfold cForU cFor
  rw [if_pos hc]
  beta_reduce
  rw [hb]
  rfl

/-- **C23** (vector) an empty system is a no-op: it ends normally with the memory unchanged, even
when no memory cell is accessible (so it accesses nothing).  Missing: 32-bit unsigned `size_type`
with the upper triangle, where it is false (`C23_trsv_uint32_false`). -/
theorem C23_trsv_empty_partial [Sub α] [Mul α] (fuel : Nat) (tA tB tX : IntTy)
    (divide : α → α → α) (A : MatV α) (t : Triangle) (d : Diag) (b : VecV α) (x : Vec) (h : Heap α)
    (hA : tA.Std) (hB : tB.Std) (hX : tX.Std)
    (hr : A.rows = 0) (hc : A.cols = 0) (hb : b.ext = 0) (hx : x.ext = 0)
    (hty : t = .upper → common3 tA tB tX ≠ uint32) (hfuel : 0 < fuel) :
    Ends (trsvT fuel tA tB tX divide A t d b x) h fun _ h' => h' = h := by
  have f0 : ∀ {t : IntTy}, t.Std → t.Fits 0 := fun ht => le_trans (by decide) (one_le_max ht)
  cases t with
  | lower =>
    rw [show trsvT fuel tA tB tX divide A .lower d b x = trsvLower divide A d b x from
      trsvLowerT_eq hA hB hX (by omega) (by omega) (hr ▸ f0 hA) (hb ▸ f0 hB) (hx ▸ f0 hX) (by omega)]
    unfold trsvLower
    rw [hr]
    exact ends_pure.2 rfl
  | upper =>
    rw [show trsvT fuel tA tB tX divide A .upper d b x = trsvUpper divide A d b x from
      trsvUpperT_eq hA hB hX (by omega) (by omega) (by omega) (hr ▸ f0 hA) (hb ▸ f0 hB)
        (hx ▸ f0 hX) (hr ▸ f0 ptrdiff_std) (fun _ => hty rfl) (by omega)]
    unfold trsvUpper
    rw [hr]
    exact ends_pure.2 rfl

example (t : Triangle) (d : Diag) : Ends (trsvT 1 size size size (· / ·)
    (⟨⟨0, 0, fun _ _ => 0⟩, id⟩ : MatV ℚ) t d ⟨⟨0, fun _ => 0⟩, id⟩ ⟨0, fun _ => 0⟩) (fun _ => none)
    fun _ h' => h' = fun _ => none :=
  C23_trsv_empty_partial _ _ _ _ _ _ _ _ _ _ _ (by unfold Std; decide) (by unfold Std; decide)
    (by unfold Std; decide) rfl rfl rfl rfl (fun _ => by decide) (by decide)

/-- **C23 is false** for `uint32_t` index types (or any whose common type is a 32-bit unsigned
type) and the upper triangle: `A.extent(0) - 1` is 4294967295 and the first access is out of
range. -/
theorem C23_trsv_uint32_false [Sub α] [Mul α] (fuel : Nat) (tA tB tX : IntTy)
    (divide : α → α → α) (A : MatV α) (d : Diag) (b : VecV α) (x : Vec) (h : Heap α)
    (hty : common3 tA tB tX = uint32) (hr : A.rows = 0) (hb : b.ext = 0) (hfuel : 0 < fuel) :
    Fails (trsvT fuel tA tB tX divide A .upper d b x) h .ub := by
  unfold trsvT trsvUpperT
  simp only [hty, hr]
  have hs : (sub uint32 int (uint32.cast ((0 : Nat) : Int)) 1 : Prog α Int) = pure 4294967295 := rfl
  have hc : ptrdiff.cast 4294967295 = 4294967295 := rfl
  have hb : ∀ i : Int, (b.at_ tB i : Prog α α) = Prog.fail .ub := by
    intro i
    unfold VecV.at_ VecV.get
    rw [hb, if_neg (Nat.not_lt_zero _), ite_self]
  rw [hs, pure_bind_prog, hc, cForU_fail hfuel (e := .ub)]
  · rfl
  · rfl
  · rw [hb]; rfl

example : Fails (trsvT 1 uint32 uint32 uint32 (· / ·) (⟨⟨0, 0, fun _ _ => 0⟩, id⟩ : MatV ℚ) .upper
    .explicit ⟨⟨0, fun _ => 0⟩, id⟩ ⟨0, fun _ => 0⟩) (fun _ => some 1) .ub :=
  C23_trsv_uint32_false _ _ _ _ _ _ _ _ _ _ rfl rfl rfl (by decide)

/-- **C23** (matrix, left) -/
theorem C23_trsm_left_empty_partial [Sub α] [Mul α] [Div α] (fuel : Nat) (tA tB tX : IntTy)
    (A : MatV α) (t : Triangle) (d : Diag) (B : MatV α) (X : Mat) (h : Heap α)
    (hA : tA.Std) (hB : tB.Std) (hX : tX.Std) (hr : A.rows = 0) (hb : B.rows = 0)
    (hx : X.rows = 0) (hxc : X.cols = B.cols) (fB : tB.Fits B.cols) (fX : tX.Fits X.cols)
    (hty : t = .upper → common3 tA tB tX ≠ uint32) (hfuel : B.cols < fuel) :
    Ends (trsmLeftT fuel tA tB tX A t d B X) h fun _ h' => h' = h := by
  have f0 : ∀ {t : IntTy}, t.Std → t.Fits 0 := fun ht => le_trans (by decide) (one_le_max ht)
  have nop : ∀ n, Ends (forUp 0 n fun _ => (pure () : Prog α Unit)) h fun _ h' => h' = h := fun n =>
    ends_forEach_inv (fun _ h' => h' = h) (fun _ _ _ _ h' e => ends_pure.2 e) rfl
  cases t with
  | lower =>
    rw [show trsmLeftT fuel tA tB tX A .lower d B X = trsmLowerLeft A d B X from
      trsmLowerLeftT_eq hA hB hX (by omega) (by omega) hxc (hr ▸ f0 hA) (hb ▸ f0 hB) fB
        (hx ▸ f0 hX) fX (by omega) hfuel]
    unfold trsmLowerLeft
    rw [hr]
    exact nop _
  | upper =>
    rw [show trsmLeftT fuel tA tB tX A .upper d B X = trsmUpperLeft A d B X from
      trsmUpperLeftT_eq hA hB hX (by omega) (by omega) hxc (hr ▸ f0 hA) (hb ▸ f0 hB) fB
        (hx ▸ f0 hX) fX (hr ▸ f0 ptrdiff_std) (fun _ => hty rfl) (by omega) hfuel]
    unfold trsmUpperLeft
    rw [hr]
    exact nop _

example (t : Triangle) (d : Diag) : Ends (trsmLeftT 6 size size size
    (⟨⟨0, 0, fun _ _ => 0⟩, id⟩ : MatV ℚ) t d ⟨⟨0, 5, fun _ _ => 0⟩, id⟩ ⟨0, 5, fun _ _ => 0⟩)
    (fun _ => none) fun _ h' => h' = fun _ => none :=
  C23_trsm_left_empty_partial _ _ _ _ _ _ _ _ _ _ (by unfold Std; decide) (by unfold Std; decide)
    (by unfold Std; decide) rfl rfl rfl rfl (by decide) (by decide) (fun _ => by decide) (by decide)

/-- **C23 is false** (matrix, left) for a 32-bit unsigned `size_type`, the upper triangle and at
least one right-hand side. -/
theorem C23_trsm_left_uint32_false [Sub α] [Mul α] [Div α] (fuel : Nat) (tA tB tX : IntTy)
    (A : MatV α) (d : Diag) (B : MatV α) (X : Mat) (h : Heap α)
    (hty : common3 tA tB tX = uint32) (hr : A.rows = 0) (hb : B.rows = 0) (hc : 0 < B.cols)
    (hcm : B.cols < 4294967296) (hfuel : 0 < fuel) :
    Fails (trsmLeftT fuel tA tB tX A .upper d B X) h .ub := by
  unfold trsmLeftT trsmUpperLeftT
  simp only [hty, hr]
  have hstd : uint32.Std := Or.inr (Or.inr (Or.inl rfl))
  have hmax : uint32.max = 4294967295 := rfl
  have fc : uint32.Fits B.cols := by unfold IntTy.Fits; omega
  have hs : (sub uint32 int (uint32.cast ((0 : Nat) : Int)) 1 : Prog α Int) = pure 4294967295 := rfl
  have hp : ptrdiff.cast 4294967295 = 4294967295 := rfl
  have hbf : ∀ i j : Int, (B.at_ tB i j : Prog α α) = Prog.fail .ub := by
    intro i j
    have hg : ∀ i j, (B.get i j : Prog α α) = Prog.fail .ub := fun i j =>
      if_neg (fun h => absurd (hb ▸ h.1) (Nat.not_lt_zero _))
    unfold MatV.at_
    rw [hg, ite_self]
  rw [hs, cast_fits hstd fc, cForU_fail hfuel (e := .ub)]
  · rfl
  · have := lt_fits hstd hstd (m := 0) (by decide) fc
    rw [show ((0 : Nat) : Int) = 0 from rfl] at this
    rw [this]; simpa using hc
  · rw [pure_bind_prog, hp, cForU_fail hfuel (e := .ub)]
    · rfl
    · rw [hbf]; rfl

example : Fails (trsmLeftT 6 uint32 uint32 uint32 (⟨⟨0, 0, fun _ _ => 0⟩, id⟩ : MatV ℚ) .upper
    .explicit ⟨⟨0, 5, fun _ _ => 0⟩, id⟩ ⟨0, 5, fun _ _ => 0⟩) (fun _ => some 1) .ub :=
  C23_trsm_left_uint32_false _ _ _ _ _ _ _ _ _ rfl rfl rfl (by decide) (by decide) (by decide)

/-- **C23** (matrix, right): an empty system is a no-op for every index type. -/
theorem C23_trsm_right_empty [Sub α] [Mul α] [Div α] (fuel : Nat) (tA tB tX : IntTy)
    (A : MatV α) (t : Triangle) (d : Diag) (B : MatV α) (X : Mat) (h : Heap α)
    (hA : tA.Std) (hB : tB.Std) (hX : tX.Std) (hr : A.rows = 0) (hc : A.cols = 0) (hb : B.cols = 0)
    (hx : X.cols = 0) (hxr : X.rows = B.rows) (fB : tB.Fits B.rows) (fX : tX.Fits X.rows)
    (hfuel : B.rows < fuel) :
    Ends (trsmRightT fuel tA tB tX A t d B X) h fun _ h' => h' = h := by
  have f0 : ∀ {t : IntTy}, t.Std → t.Fits 0 := fun ht => le_trans (by decide) (one_le_max ht)
  have nop : ∀ n, Ends (forUp 0 n fun _ => (pure () : Prog α Unit)) h fun _ h' => h' = h := fun n =>
    ends_forEach_inv (fun _ h' => h' = h) (fun _ _ _ _ h' e => ends_pure.2 e) rfl
  rw [C51_trsm_right_partial fuel tA tB tX A t d B X hA hB hX (by omega) (by omega) (by omega) hxr
    (hc ▸ f0 hA) fB (hb ▸ f0 hB) fX (hx ▸ f0 hX)
    (fun _ => hc ▸ f0 (makeSigned_std (common3_std hA hB hX))) (by omega) hfuel]
  cases t with
  | lower =>
    unfold trsmRight trsmLowerRight
    rw [hc]
    exact nop _
  | upper =>
    unfold trsmRight trsmUpperRight
    rw [hc]
    exact nop _

example (t : Triangle) (d : Diag) : Ends (trsmRightT 6 uint32 uint32 uint32
    (⟨⟨0, 0, fun _ _ => 0⟩, id⟩ : MatV ℚ) t d ⟨⟨5, 0, fun _ _ => 0⟩, id⟩ ⟨5, 0, fun _ _ => 0⟩)
    (fun _ => none) fun _ h' => h' = fun _ => none :=
  C23_trsm_right_empty _ _ _ _ _ _ _ _ _ _ (by unfold Std; decide) (by unfold Std; decide)
    (by unfold Std; decide) rfl rfl rfl rfl rfl (by decide) (by decide) (by decide)

/-! ## C35 for every index type -/

/-- **C35** with the C++ integer types: `C = T B` (left) for every index type that represents the
extents. -/
theorem C35_trmm_left_index_types [NonAssocSemiring α] (fuel : Nat) (tA tB tC : IntTy) (A : MatV α)
    (t : Triangle) (d : Diag) (B : MatV α)
    (C : Mat) (h : Heap α) (a b : Nat → Nat → α) (hA : A.HoldsOn h (triRegion t d) a)
    (hB : B.Holds h b) (hC : C.Alloc h) (hsq : A.rows = A.cols)
    (hr : C.rows = A.rows) (hk : A.cols = B.rows) (hc : C.cols = B.cols) (hu : C.Unique)
    (hAC : Apart (A.toMat.CellOn (triRegion t d)) C.Cell) (hBC : Apart B.toMat.Cell C.Cell)
    (sA : tA.Std) (sB : tB.Std) (sC : tC.Std) (fA : tA.Fits A.rows) (fBr : tB.Fits B.rows)
    (fBc : tB.Fits B.cols) (fCr : tC.Fits C.rows) (fCc : tC.Fits C.cols) (fp : ptrdiff.Fits A.rows)
    (hfuel : C.rows < fuel) (hfuel' : C.cols < fuel) :
    Ends (trmmLeftT fuel tA tB tC A t d B C) h fun _ h' =>
      C.Becomes h h' (mulMat A.cols (triOf t d a) b) := by
  rw [trmmLeftT_eq sA sB sC hr.symm (by omega) hc.symm fA fBr fBc fCr fCc (hr ▸ fp) hfuel hfuel']
  exact C35_trmm_left A t d B C h a b hA hB hC hsq hr hk hc hu hAC hBC

/-- **C35** with the C++ integer types: `C = B T` (right). -/
theorem C35_trmm_right_index_types [NonAssocSemiring α] (fuel : Nat) (tA tB tC : IntTy) (B A : MatV α)
    (t : Triangle) (d : Diag)
    (C : Mat) (h : Heap α) (a b : Nat → Nat → α) (hA : A.HoldsOn h (triRegion t d) a)
    (hB : B.Holds h b) (hC : C.Alloc h) (hsq : A.rows = A.cols)
    (hr : C.rows = B.rows) (hk : B.cols = A.rows) (hc : C.cols = A.cols) (hu : C.Unique)
    (hAC : Apart (A.toMat.CellOn (triRegion t d)) C.Cell) (hBC : Apart B.toMat.Cell C.Cell)
    (sA : tA.Std) (sB : tB.Std) (sC : tC.Std) (fA : tA.Fits A.cols) (fBr : tB.Fits B.rows)
    (fBc : tB.Fits B.cols) (fCr : tC.Fits C.rows) (fCc : tC.Fits C.cols) (fp : ptrdiff.Fits A.cols)
    (hfuel : C.rows < fuel) (hfuel' : C.cols < fuel) :
    Ends (trmmRightT fuel tA tB tC B A t d C) h fun _ h' =>
      C.Becomes h h' (mulMat B.cols b (triOf t d a)) := by
  rw [trmmRightT_eq sA sB sC hc.symm hr.symm (by omega) fA fBr fBc fCr fCc (hc ▸ fp) hfuel hfuel']
  exact C35_trmm_right B A t d C h a b hA hB hC hsq hr hk hc hu hAC hBC

example (t : Triangle) (d : Diag) :
    Ends (trmmLeftT 1000 uint8 size int (A.view : MatV ℤ) t d B.view C) (heap ℤ)
    fun _ h' => C.Becomes (heap ℤ) h' (mulMat 3 (triOf t d (mvals ℤ A)) (mvals ℤ B)) :=
  C35_trmm_left_index_types _ _ _ _ _ _ _ _ _ _ _ _ (mholdsV bA) (mholdsV bB) (malloc bC) rfl rfl
    rfl rfl (by view_facts) (by view_facts) (by view_facts) (by unfold Std; decide)
    (by unfold Std; decide) (by unfold Std; decide) (by decide) (by decide) (by decide) (by decide)
    (by decide) (by decide) (by decide) (by decide)

example (t : Triangle) (d : Diag) :
    Ends (trmmRightT 1000 uint8 size int B.view (A.view : MatV ℤ) t d C) (heap ℤ)
    fun _ h' => C.Becomes (heap ℤ) h' (mulMat 3 (mvals ℤ B) (triOf t d (mvals ℤ A))) :=
  C35_trmm_right_index_types _ _ _ _ _ _ _ _ _ _ _ _ (mholdsV bA) (mholdsV bB) (malloc bC) rfl rfl
    rfl rfl (by view_facts) (by view_facts) (by view_facts) (by unfold Std; decide)
    (by unfold Std; decide) (by unfold Std; decide) (by decide) (by decide) (by decide) (by decide)
    (by decide) (by decide) (by decide) (by decide)

end StdBLAS

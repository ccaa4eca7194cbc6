import Verif.Lemmas.MixedTri
import Verif.Lemmas.Rank

/-! # Mixed element types: solves, in-place products, rank-2 updates -/

namespace StdBLAS.Mixed
open StdBLAS
variable {D T : Type} [MixedOps D T] {h : Heap D}

/-- `a = a - b` on a variable of type `t`. -/
@[reducible] def subAs (t : T) : Sub D := ⟨fun a b => MixedOps.conv t (a - b)⟩

theorem leftDiff_subAs (t : T) (s : D) (n : Nat) (f : Nat → D) :
    @leftDiff D (subAs t) s n f = leftDiffAs t s n f := by
  induction n with
  | zero => rfl
  | succ n ih => show MixedOps.conv t (@leftDiff D (subAs t) s n f - f n) = _; rw [ih]; rfl

theorem trsv_eq (divide : D → D → D) (tA tB : T) (A : MatV D) (t : Triangle) (d : Diag) (B : VecV D)
    (X : TVec T) :
    trsv divide tA tB A t d B X =
      @trsvF D (subAs (sumTy (D := D) tA tB X.elt)) _ (MixedOps.conv X.elt)
        (fun s a => MixedOps.conv X.elt (divide s a)) A t d
        (B.as (sumTy (D := D) tA tB X.elt)) X.toVec := by
  cases t <;> unfold trsv trsvF trsvBodyF <;> simp only [VecV.get_as] <;> rfl

theorem subRowF_eq (s x : T) (t : Triangle) (d : Diag) (n i : Nat) (a : Nat → Nat → D)
    (g v : Nat → D) :
    @subRowF D (subAs s) _ (MixedOps.conv x) (fun s a => MixedOps.conv x (s / a)) t d n a
        (fun i => MixedOps.conv s (g i)) v i =
      solveRowAs s x t d n i (fun k => a i k * v k) (g i) (a i i) := by
  unfold subRowF solveRowAs restOf
  cases t
  · simp only
    rw [@foldl_range'_leftDiff D (subAs s), leftDiff_subAs, show n - (i + 1) = n - 1 - i by omega]
    cases d <;> rfl
  · simp only
    rw [@foldl_range'_leftDiff D (subAs s), leftDiff_subAs]
    simp only [Nat.zero_add]
    cases d <;> rfl

/-- One vector solve that subtracts in type `s`. -/
theorem trsvF_ends (s : T) {A : MatV D} {t : Triangle} {d : Diag} {B : VecV D} (X : TVec T)
    {a : Nat → Nat → D} {b : Nat → D}
    (hA : A.HoldsOn h (triRegion t d) a) (hB : B.Holds h b) (hX : X.Alloc h)
    (hsq : A.rows = A.cols) (hext : A.rows = X.ext) (hBe : A.rows ≤ B.ext) (hu : X.Unique)
    (hAX : Apart (A.toMat.CellOn (triRegion t d)) X.Cell) (hBX : B.toVec.Aligned X.toVec) :
    Ends (@trsvF D (subAs s) _ (MixedOps.conv X.elt)
        (fun s a => MixedOps.conv X.elt (s / a)) A t d (B.as s) X.toVec) h fun _ h' =>
      ∃ v, X.Becomes h h' v ∧ ∀ i, i < A.rows →
        v i = solveRowAs s X.elt t d A.cols i (fun k => a i k * v k) (b i) (a i i) := by
  refine (@trsvF_fold D h (subAs s) _ _ _ A t d (B.as s) X.toVec a _ hA (hB.as s)
    hX hsq hext hBe hu hAX hBX).mono ?_
  rintro _ h' ⟨v, hb, hv⟩
  exact ⟨v, hb, fun i hi => (hv i hi).trans (subRowF_eq ..)⟩

/-- One matrix solve from the left that subtracts in type `s`. -/
theorem trsmLeft_ends {s : T} {A : MatV D} {t : Triangle} {d : Diag} {B : MatV D} {X : TMat T}
    {prog : Prog D Unit} {a b : Nat → Nat → D}
    (hp : prog = forUp 0 X.cols fun k => @trsvF D (subAs s) _ (MixedOps.conv X.elt)
      (fun s a => MixedOps.conv X.elt (s / a)) A t d ((B.col k).as s) (X.toMat.col k))
    (hA : A.HoldsOn h (triRegion t d) a) (hB : B.Holds h b) (hX : X.Alloc h)
    (hsq : A.rows = A.cols) (hr : A.rows = X.rows) (hBr : A.rows ≤ B.rows) (hc : X.cols = B.cols)
    (hu : X.Unique) (hAX : Apart (A.toMat.CellOn (triRegion t d)) X.Cell)
    (hBX : B.toMat.Aligned X.toMat) :
    Ends prog h fun _ h' => ∃ v, X.Becomes h h' v ∧ ∀ i j, i < A.rows → j < X.cols →
      v i j = solveRowAs s X.elt t d A.cols i (fun k => a i k * v k j) (b i j) (a i i) := by
  rw [hp]
  refine (ends_cols (fun j v => ∀ i, i < A.rows → v i =
    solveRowAs s X.elt t d A.cols i (fun k => a i k * v k) (b i j) (a i i)) h hu b ?_).mono ?_
  · intro j hj h1 hch he
    refine trsvF_ends s (⟨X.toMat.col j, X.elt⟩ : TVec T) (hA.of_onlyChanges hAX hch)
      (B := B.col j) (b := fun i => b i j) ?_ ?_ hsq hr hBr (hu.col hj)
      (fun p hp hp' => hAX p hp (Mat.col_cell hj hp')) ?_
    · intro i hi
      obtain ⟨v, hv, ev⟩ := hB i j hi (by omega) trivial
      exact ⟨v, (hBX.read hch (i := i) (j := j) hi (by omega) fun hi' _ => he i hi').trans hv, ev⟩
    · intro i hi
      obtain ⟨w, hw⟩ := hX i j hi hj trivial
      exact ⟨w, (he i hi).trans hw⟩
    · intro i k hi hk e
      exact (hBX i j k j hi (by rw [← hc]; exact hj) hk hj e).1
  · rintro _ h' ⟨v, hb, hv⟩
    exact ⟨v, hb, fun i j hi hj => hv j hj i hi⟩

theorem trsmUpperLeft_cols (tA tB : T) (A : MatV D) (d : Diag) (B : MatV D) (X : TMat T)
    (hsq : A.rows = A.cols) (hc : X.cols = B.cols) :
    trsmUpperLeft tA tB A d B X = forUp 0 X.cols fun k =>
      @trsvF D (subAs (sumTy (D := D) tA tB X.elt)) _ (MixedOps.conv X.elt)
        (fun s a => MixedOps.conv X.elt (s / a)) A .upper d
        ((B.col k).as (sumTy (D := D) tA tB X.elt)) (X.toMat.col k) := by
  rw [hc]
  unfold trsmUpperLeft trsvF trsvBodyF
  refine forUp_congr fun k _ hk => ?_
  have hk' : k < X.toMat.cols := hc ▸ hk
  unfold TMat.get TMat.set
  simp only [VecV.get_as, MatV.get_col hk, Mat.get_col hk', Mat.set_col hk', hsq]
  rfl

theorem trsmLowerLeft_cols (A : MatV D) (d : Diag) (B : MatV D) (X : TMat T)
    (hc : X.cols = B.cols) :
    trsmLowerLeft A d B X = forUp 0 X.cols fun k =>
      @trsvF D (subAs X.elt) _ (MixedOps.conv X.elt)
        (fun s a => MixedOps.conv X.elt (s / a)) A .lower d
        ((B.col k).as X.elt) (X.toMat.col k) := by
  rw [hc]
  unfold trsmLowerLeft trsvF trsvBodyF
  refine forUp_congr fun k _ hk => ?_
  have hk' : k < X.toMat.cols := hc ▸ hk
  unfold TMat.get TMat.set
  simp only [VecV.get_as, MatV.get_col hk, Mat.get_col hk', Mat.set_col hk']
  rfl

theorem trsmRight_rows (tA tB : T) (A : MatV D) (t : Triangle) (d : Diag) (B : MatV D) (X : TMat T)
    (hc : X.rows = B.rows) :
    trsmRight tA tB A t d B X = forUp 0 X.rows fun i =>
      @trsvF D (subAs (sumTy (D := D) tA tB X.elt)) mulFlip (MixedOps.conv X.elt)
        (fun s a => MixedOps.conv X.elt (s / a)) A.tr t.flip d
        ((B.tr.col i).as (sumTy (D := D) tA tB X.elt)) (X.toMat.tr.col i) := by
  unfold trsmRight Triangle.flip
  rw [hc]
  cases t with
  | lower =>
    unfold trsmLowerRight trsvF trsvBodyF
    refine forUp_congr fun i _ hi => ?_
    have h1 : i < B.tr.cols := hi
    have h2 : i < X.toMat.tr.cols := by rw [← hc] at hi; exact hi
    unfold TMat.get TMat.set
    simp only [VecV.get_as, MatV.get_tr (B := B), MatV.get_tr (B := A), Mat.get_tr (C := X.toMat),
      Mat.set_tr (C := X.toMat), MatV.get_col h1, Mat.get_col h2, Mat.set_col h2]
    rfl
  | upper =>
    unfold trsmUpperRight trsvF trsvBodyF
    refine forUp_congr fun i _ hi => ?_
    have h1 : i < B.tr.cols := hi
    have h2 : i < X.toMat.tr.cols := by rw [← hc] at hi; exact hi
    unfold TMat.get TMat.set
    simp only [VecV.get_as, MatV.get_tr (B := B), MatV.get_tr (B := A), Mat.get_tr (C := X.toMat),
      Mat.set_tr (C := X.toMat), MatV.get_col h1, Mat.get_col h2, Mat.set_col h2]
    rfl

theorem subRowF_flip_eq (s x : T) (t : Triangle) (d : Diag) (n i : Nat) (a : Nat → Nat → D)
    (g v : Nat → D) :
    @subRowF D (subAs s) mulFlip (MixedOps.conv x) (fun s a => MixedOps.conv x (s / a)) t d n a
        (fun i => MixedOps.conv s (g i)) v i =
      solveRowAs s x t d n i (fun k => v k * a i k) (g i) (a i i) := by
  unfold subRowF solveRowAs restOf
  cases t
  · simp only
    rw [@foldl_range'_leftDiff D (subAs s), leftDiff_subAs, show n - (i + 1) = n - 1 - i by omega]
    cases d <;> rfl
  · simp only
    rw [@foldl_range'_leftDiff D (subAs s), leftDiff_subAs]
    simp only [Nat.zero_add]
    cases d <;> rfl

theorem trsmRight_ends {tA tB : T} {A : MatV D} {t : Triangle} {d : Diag} {B : MatV D} {X : TMat T}
    {a b : Nat → Nat → D}
    (hA : A.HoldsOn h (triRegion t d) a) (hB : B.Holds h b) (hX : X.Alloc h)
    (hsq : A.rows = A.cols) (hr : A.cols = X.cols) (hBr : A.cols ≤ B.cols) (hc : X.rows = B.rows)
    (hu : X.Unique) (hAX : Apart (A.toMat.CellOn (triRegion t d)) X.Cell)
    (hBX : B.toMat.Aligned X.toMat) :
    Ends (trsmRight tA tB A t d B X) h fun _ h' => ∃ v, X.Becomes h h' v ∧
      ∀ i j, i < X.rows → j < A.cols → v i j =
        solveRowAs (sumTy (D := D) tA tB X.elt) X.elt t.other d A.cols j (fun k => v i k * a k j)
          (b i j) (a j j) := by
  rw [trsmRight_rows tA tB A t d B X hc]
  refine (ends_rows (fun i v => ∀ j, j < A.cols → v j =
    solveRowAs (sumTy (D := D) tA tB X.elt) X.elt t.flip d A.cols j (fun k => v k * a k j)
      (b i j) (a j j)) h hu b ?_).mono ?_
  · intro i hi h1 hch he
    refine (@trsvF_fold D h1 (subAs (sumTy (D := D) tA tB X.elt)) mulFlip _ _ A.tr t.flip d _
      (X.toMat.tr.col i) _ _
      (hA.of_onlyChanges hAX hch).tr (VecV.Holds.as (y := B.tr.col i) (f := b i) ?_ _) ?_ hsq.symm hr
      hBr (hu.tr.col (j := i) hi)
      (fun p hp hp' => hAX p (MatV.tr_cellOn hp)
        (Mat.tr_cell.1 (Mat.col_cell (C := X.toMat.tr) hi hp'))) ?_).mono ?_
    · intro j hj
      obtain ⟨v, hv, ev⟩ := hB i j (by omega) hj trivial
      exact ⟨v, (hBX.read hch (i := i) (j := j) (by omega) hj fun _ hj' => he j hj').trans hv, ev⟩
    · intro j hj
      obtain ⟨w, hw⟩ := hX i j hi hj trivial
      exact ⟨w, (he j hj).trans hw⟩
    · intro j k hj hk e
      exact (hBX i j i k (by rw [← hc]; exact hi) hj hi hk e).2
    · rintro _ h' ⟨v, hb, hv⟩
      refine ⟨v, hb, fun j hj => (hv j hj).trans ((subRowF_flip_eq ..).trans ?_)⟩
      rw [← hsq]; rfl
  · rintro _ h' ⟨v, hb, hv⟩
    refine ⟨v, hb, fun i j hi hj => (hv i hi j hj).trans ?_⟩
    cases t <;> rfl

/-! ## In-place products -/

theorem trmvInPlace_eq (A : MatV D) (t : Triangle) (d : Diag) (y : TVec T) :
    trmvInPlace A t d y = @trmvInPlaceF D (addAs y.elt) _
      (fun v a => MixedOps.conv y.elt (v * a)) A t d y.toVec := rfl

theorem trmmRightInPlace_eq (A : MatV D) (t : Triangle) (d : Diag) (C : TMat T) :
    trmmRightInPlace A t d C = @trmmRightInPlaceF D (addAs C.elt) _
      (fun v a => MixedOps.conv C.elt (v * a)) A t d C.toMat := by
  cases t <;> rfl

theorem trmmLeftInPlace_cols (A : MatV D) (t : Triangle) (d : Diag) (C : TMat T) :
    trmmLeftInPlace A t d C = forUp 0 C.cols fun j => @trmmColInPlaceF D (addAs C.elt) _
      (fun v a => MixedOps.conv C.elt (v * a)) A t d (C.toMat.col j) := by
  have hadd : ∀ i j v, j < C.cols →
      C.addTo i j v = @Vec.addTo D (addAs C.elt) (C.toMat.col j) i v := fun i j v hj =>
    @Mat.addTo_col D (addAs C.elt) C.toMat i j v hj
  unfold trmmLeftInPlace TMat.get TMat.set
  cases t with
  | upper =>
    refine forUp_congr fun j _ hj => ?_
    have hj' : j < C.toMat.cols := hj
    simp only [Mat.get_col hj', Mat.set_col hj', hadd _ j _ hj]
    rfl
  | lower =>
    refine forUp_congr fun j _ hj => ?_
    have hj' : j < C.toMat.cols := hj
    simp only [Mat.get_col hj', Mat.set_col hj', hadd _ j _ hj]
    rfl

end StdBLAS.Mixed

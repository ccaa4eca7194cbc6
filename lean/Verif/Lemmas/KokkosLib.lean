import Verif.Spec.KokkosLib
import Verif.Lemmas.KokkosNative
import Verif.Model.Views
import Verif.Props.Blas1Elementwise
import Verif.Props.Blas1Reductions
import Verif.Props.Blas2Products
import Verif.Props.Blas3Solve

/-!
# A library that meets the assumptions of `Spec/KokkosLib.lean`

It is put together from the native algorithms.  It shows that the assumptions do not
contradict each other.
-/

namespace StdBLAS
open Finset
variable {α : Type} {h : Heap α}

/-- The view of `A` or of its transpose. -/
def Op.view (t : Op) (A : Mat) : MatV α :=
  match t with
  | .N => A.view
  | .T => A.view.transposed

/-- A library made of native algorithms; `m` is the meaning of the flag of `trmm`, `mag`
the measure of `iamax`. -/
noncomputable def refLib [Field α] [ConjOps α] (m : Uplo → Triangle) (mag : α → ℝ) : KokkosLib α where
  deepCopy1 dst src := if dst.ext = src.ext then Sched.lift (copy1 src.view dst) else Sched.throw
  deepCopy2 dst src :=
    if dst.rows = src.rows ∧ dst.cols = src.cols then Sched.lift (copy2 src.view dst)
    else Sched.throw
  update1 alpha x beta y _ z := Sched.lift (add1 (x.view.scaled alpha) (y.view.scaled beta) z)
  update2 alpha x beta y _ z := Sched.lift (add2 (x.view.scaled alpha) (y.view.scaled beta) z)
  scal1 r alpha x := Sched.lift (copy1 (x.view.scaled alpha) r)
  scal2 r alpha x := Sched.lift (copy2 (x.view.scaled alpha) r)
  dot x y := Sched.lift (dotc x.view y.view 0)
  iamax x := fun h r =>
    ∃ f n, x.Holds h f ∧ IsIamax x.ext (fun i => mag (f i)) n ∧ r = .ok (n, h)
  gemv t alpha A x _ y := Sched.lift (gemv ((t.view A).scaled alpha) x.view y)
  gemm ta tb alpha A B _ C := Sched.lift (gemm ((ta.view A).scaled alpha) (tb.view B) C)
  trsm side uplo _ diag _ A X := Sched.lift (trsm A.view uplo.standard diag.diag side X.view X)
  trmm side uplo _ diag _ A B := Sched.lift (match side with
    | .left => trmmLeftInPlace A.view (m uplo) diag.diag B
    | .right => trmmRightInPlace A.view (m uplo) diag.diag B)

theorem Vec.Holds.scaled [Mul α] {x : Vec} {f : Nat → α} (s : α) (hx : x.Holds h f) :
    (x.view.scaled s).Holds h fun i => s * f i := fun i hi => ⟨_, hx i hi, rfl⟩

theorem Mat.HoldsOn.scaled [Mul α] {A : Mat} {R : Region} {f : Nat → Nat → α} (s : α)
    (hA : A.HoldsOn h R f) : (A.view.scaled s).HoldsOn h R fun i j => s * f i j :=
  fun i j hi hj hr => ⟨_, hA i j hi hj hr, rfl⟩

theorem Op.view_holds {A : Mat} {f : Nat → Nat → α} (t : Op) (hA : A.Holds h f) :
    (t.view A).Holds h (t.apply f) := by
  cases t with
  | N => exact Mat.HoldsOn.toView hA
  | T => exact fun i j hi hj _ => ⟨_, hA j i hj hi trivial, rfl⟩

theorem MatV.HoldsOn.scaled [Mul α] {A : MatV α} {R : Region} {f : Nat → Nat → α} (s : α)
    (hA : A.HoldsOn h R f) : (A.scaled s).HoldsOn h R fun i j => s * f i j := by
  intro i j hi hj hr
  obtain ⟨v, hv, e⟩ := hA i j hi hj hr
  exact ⟨v, hv, by simp only [MatV.scaled, e]⟩

theorem Op.view_rows (t : Op) (A : Mat) : (t.view A : MatV α).rows = t.rows A := by cases t <;> rfl
theorem Op.view_cols (t : Op) (A : Mat) : (t.view A : MatV α).cols = t.cols A := by cases t <;> rfl

theorem Op.view_apart {A : Mat} {P : Nat → Prop} (t : Op) (hA : Apart A.Cell P) :
    Apart (t.view A : MatV α).toMat.Cell P := by
  cases t with
  | N => exact hA
  | T =>
    rintro a ⟨i, j, hi, hj, -, e⟩
    exact hA a ⟨j, i, hj, hi, trivial, e⟩

theorem Vec.aligned_of_apart {x z : Vec} (hu : z.Unique) (hd : Apart x.Cell z.Cell ∨ z = x) :
    x.Aligned z := by
  intro i k hi hk e
  rcases hd with hd | rfl
  · exact absurd ⟨k, hk, e.symm⟩ (hd _ ⟨i, hi, rfl⟩)
  · exact hu i k hi hk e

theorem Mat.aligned_of_apart {x z : Mat} (hu : z.Unique) (hd : Apart x.Cell z.Cell ∨ z = x) :
    x.Aligned z := by
  intro i j k l hi hj hk hl e
  rcases hd with hd | rfl
  · exact absurd ⟨k, l, hk, hl, trivial, e.symm⟩ (hd _ ⟨i, j, hi, hj, trivial, rfl⟩)
  · exact hu i j k l hi hj trivial hk hl trivial e

theorem exists_isIamax (n : Nat) (m : Nat → ℝ) : ∃ r, IsIamax n m r := by
  rcases Nat.eq_zero_or_pos n with e | hn
  · exact ⟨0, Or.inl ⟨e, rfl⟩⟩
  · obtain ⟨i, hi, hmax⟩ := Finset.exists_max_image (range n) m ⟨0, by simpa using hn⟩
    have hex : ∃ i, i < n ∧ ∀ k, k < n → m k ≤ m i :=
      ⟨i, by simpa using hi, fun k hk => hmax k (by simpa using hk)⟩
    classical
    refine ⟨Nat.find hex + 1, Or.inr ⟨_, rfl, (Nat.find_spec hex).1, (Nat.find_spec hex).2, ?_⟩⟩
    intro k hk
    have hn := Nat.find_min hex hk
    have hk' : k < n := lt_trans hk (Nat.find_spec hex).1
    by_contra hle
    exact hn ⟨hk', fun l hl => le_trans ((Nat.find_spec hex).2 l hl) (not_lt.1 hle)⟩

theorem IsIamax.unique {n r s : Nat} {m : Nat → ℝ} (hr : IsIamax n m r) (hs : IsIamax n m s) :
    r = s := by
  rcases hr with ⟨e, er⟩ | ⟨i, er, hi, mi, fi⟩ <;> rcases hs with ⟨e', es⟩ | ⟨j, es, hj, mj, fj⟩
  · omega
  · omega
  · omega
  · rcases Nat.lt_trichotomy i j with q | q | q
    · exact absurd (fj i q) (not_lt.2 (mi j hj))
    · omega
    · exact absurd (fi j q) (not_lt.2 (mj i hi))

section
variable [Field α] [ConjOps α] (m : Uplo → Triangle) (mag : α → ℝ)

theorem refLib_deepCopy : (refLib m mag).DeepCopyOk where
  vec dst src h f hs hd he hu hal := by
    change Surely (if dst.ext = src.ext then _ else _) _ _
    rw [if_pos he, surely_lift]
    exact C09_copy_vector _ _ _ _ hs.toView hd he.le hu (Vec.aligned_of_apart hu hal)
  mat dst src h f hs hd hr hc hu hal := by
    change Surely (if dst.rows = src.rows ∧ dst.cols = src.cols then _ else _) _ _
    rw [if_pos ⟨hr, hc⟩, surely_lift]
    exact C09_copy_matrix _ _ _ _ (Mat.HoldsOn.toView hs) hd hr.le hc.le hu
      (Mat.aligned_of_apart hu hal)
  vec_ext dst src he h := by
    change SurelyFails (if dst.ext = src.ext then _ else _) _ _
    rw [if_neg he]
    exact surelyFails_throw
  mat_ext dst src he h := by
    change SurelyFails (if dst.rows = src.rows ∧ dst.cols = src.cols then _ else _) _ _
    rw [if_neg (by omega)]
    exact surelyFails_throw

theorem refLib_update : (refLib m mag).UpdateOk where
  vec alpha _ beta _ _ _ _ _ hx hy hz hex hey hu hxz hyz :=
    surely_lift.2 (C12_add_vector _ _ _ _ _ _ (hx.scaled alpha) (hy.scaled beta) hz hex.ge hey.ge hu
      hxz hyz)
  mat alpha _ beta _ _ _ _ _ hx hy hz hxr hyr hxc hyc hu hxz hyz :=
    surely_lift.2 (C12_add_matrix _ _ _ _ _ _ (Mat.HoldsOn.scaled alpha hx)
      (Mat.HoldsOn.scaled beta hy) hz hxr hxc hyr.ge hyc.ge hu hxz hyz)

theorem refLib_scal : (refLib m mag).ScalOk where
  vec alpha _ _ _ hx hu :=
    surely_lift.2 (C09_copy_vector _ _ _ _ (hx.scaled alpha) (fun i hi => ⟨_, hx i hi⟩) le_rfl hu
      (fun i k hi hk e => hu i k hi hk e))
  mat alpha _ _ _ hx hu :=
    surely_lift.2 (C09_copy_matrix _ _ _ _ (Mat.HoldsOn.scaled alpha hx)
      (fun i j hi hj hr => ⟨_, hx i j hi hj hr⟩) le_rfl le_rfl hu
      (fun i j k l hi hj hk hl e => hu i j k l hi hj trivial hk hl trivial e))

theorem refLib_dot : (refLib m mag).DotOk := fun _ _ _ _ _ hx hy he =>
  surely_lift.2 ((C02_dotc _ _ _ _ _ _ hx.toView hy.toView he.le).mono fun r h' e =>
    ⟨e.2, by rw [e.1, zero_add]; rfl⟩)

theorem refLib_iamax : (refLib m mag).IamaxOk mag := by
  intro x h f hx
  constructor
  · obtain ⟨n, hn⟩ := exists_isIamax x.ext fun i => mag (f i)
    exact ⟨_, f, n, hx, hn, rfl⟩
  · rintro r ⟨f', n, hf', hn, rfl⟩
    refine ⟨n, h, rfl, rfl, ?_⟩
    have e : ∀ i, i < x.ext → f' i = f i := fun i hi =>
      Option.some.inj ((hf' i hi).symm.trans (hx i hi))
    rcases hn with hn | ⟨i, er, hi, mi, fi⟩
    · exact Or.inl hn
    · refine Or.inr ⟨i, er, hi, fun k hk => ?_, fun k hk => ?_⟩
      · simpa only [e k hk, e i hi] using mi k hk
      · simpa only [e k (by omega), e i hi] using fi k hk

theorem refLib_gemv : (refLib m mag).GemvOk := by
  intro t alpha A x y h a f hA hx hy hc hr hu hAy hxy
  refine surely_lift.2 ((C16_gemv ((t.view A).scaled alpha) x.view y h _ f
    ((t.view_holds hA).scaled alpha) hx.toView hy (hr.symm.trans (t.view_rows A).symm) ?_ hu
    (t.view_apart hAy) hxy).mono ?_)
  · rw [show ((t.view A : MatV α).scaled alpha).cols = (t.view A : MatV α).cols from rfl,
      t.view_cols, hc]
    exact le_rfl
  · intro _ h' hb
    have e : ((t.view A : MatV α).scaled alpha).cols = t.cols A := t.view_cols A
    rw [e] at hb
    have e2 : (fun i => ∑ j ∈ range (t.cols A), alpha * t.apply a i j * f j) =
        fun i => alpha * mulVec (t.cols A) (t.apply a) f i := by
      funext i
      rw [mulVec, Finset.mul_sum]
      exact Finset.sum_congr rfl fun j _ => mul_assoc ..
    rw [← e2]
    exact hb

theorem refLib_gemm : (refLib m mag).GemmOk := by
  intro ta tb alpha A B C h a b hA hB hC hk hr hc hu hAC hBC
  have ec : ((ta.view A : MatV α).scaled alpha).cols = ta.cols A := ta.view_cols A
  have er : ((ta.view A : MatV α).scaled alpha).rows = ta.rows A := ta.view_rows A
  refine surely_lift.2 ((C31_gemm ((ta.view A).scaled alpha) (tb.view B) C h _ _
    ((ta.view_holds hA).scaled alpha) (tb.view_holds hB) hC (by rw [er, hr])
    (by rw [ec, tb.view_rows, hk]) (by rw [tb.view_cols, hc]) hu (ta.view_apart hAC)
    (tb.view_apart hBC)).mono ?_)
  intro _ h' hb
  rw [ec] at hb
  have e2 : mulMat (ta.cols A) (fun i j => alpha * ta.apply a i j) (tb.apply b) =
      fun i j => alpha * mulMat (ta.cols A) (ta.apply a) (tb.apply b) i j := by
    funext i j
    rw [mulMat, mulMat, Finset.mul_sum]
    exact Finset.sum_congr rfl fun j _ => mul_assoc ..
  rw [← e2]
  exact hb

theorem refLib_trsm : (refLib m mag).TrsmOk Uplo.standard := by
  intro side uplo diag A X h a b hA hX hsq he hu hAX hnz
  refine surely_lift.2 ((C37_trsm_field A.view uplo.standard diag.diag side X.view X h a b
    (Mat.HoldsOn.toView hA) (Mat.HoldsOn.toView hX) (fun i j hi hj hr => ⟨_, hX i j hi hj hr⟩) hsq he
    rfl rfl hu hAX (fun i j k l hi hj hk hl e => hu i j k l hi hj trivial hk hl trivial e)
    ?_).mono ?_)
  · intro hd
    exact hnz (by cases diag <;> first | rfl | cases hd)
  · rintro _ h' ⟨x, hx, e, -⟩
    exact ⟨x, hx, e⟩

theorem refLib_trmm : (refLib m mag).TrmmOk m := by
  intro side uplo diag A B h a b hA hB hsq he hu hAB
  cases side with
  | left =>
    exact surely_lift.2 (C36_trmm_left_in_place A.view (m uplo) diag.diag B h a b
      (Mat.HoldsOn.toView hA) hB hsq he hu hAB)
  | right =>
    have hc : B.cols = A.cols := he.trans hsq
    have := C36_trmm_right_in_place A.view (m uplo) diag.diag B h a b
      (Mat.HoldsOn.toView hA) hB hsq hc hu hAB
    rw [hc] at this
    exact surely_lift.2 this

end

/-! ## Views that change elsewhere -/

theorem Vec.Holds.elsewhere {h h' : Heap α} {x : Vec} {f : Nat → α} {P : Nat → Prop}
    (hx : x.Holds h f) (hc : OnlyChanges P h h') (ha : Apart x.Cell P) : x.Holds h' f :=
  fun i hi => (hc _ (ha _ ⟨i, hi, rfl⟩)).trans (hx i hi)

theorem Mat.HoldsOn.elsewhere {h h' : Heap α} {A : Mat} {R : Region} {f : Nat → Nat → α}
    {P : Nat → Prop} (hA : A.HoldsOn h R f) (hc : OnlyChanges P h h')
    (ha : Apart (A.CellOn R) P) : A.HoldsOn h' R f :=
  fun i j hi hj hr => (hc _ (ha _ ⟨i, j, hi, hj, hr, rfl⟩)).trans (hA i j hi hj hr)

theorem KVec.asColumn_holds {x : KVec} (hx : x.stride = 1) {f : Nat → α} :
    x.asColumn.Holds h (fun i _ => f i) ↔ x.mdspan.Holds h f := by
  simp only [KVec.asColumn, KVec.mdspan, hx, one_mul]
  exact ⟨fun H i hi => H i 0 hi Nat.one_pos trivial, fun H i j hi _ _ => H i hi⟩

theorem KVec.asColumn_cell {x : KVec} (hx : x.stride = 1) (a : Nat) :
    x.asColumn.Cell a ↔ x.mdspan.Cell a := by
  constructor
  · rintro ⟨i, j, hi, -, -, e⟩
    exact ⟨i, hi, by simpa [KVec.asColumn, KVec.mdspan, hx] using e⟩
  · rintro ⟨i, hi, e⟩
    exact ⟨i, 0, hi, Nat.one_pos, trivial, by simpa [KVec.asColumn, KVec.mdspan, hx] using e⟩

theorem KVec.asColumn_unique (x : KVec) : x.asColumn.Unique := by
  intro i j k l _ hj _ _ hl _ e
  simp only [KVec.asColumn] at *
  omega

theorem Mat.transposed_holds {A : Mat} {f : Nat → Nat → α} (hA : A.Holds h f) :
    A.transposed.Holds h fun i j => f j i :=
  fun i j hi hj _ => hA j i hj hi trivial

theorem Mat.transposed_apart {A : Mat} {P : Nat → Prop} (hA : Apart A.Cell P) :
    Apart A.transposed.Cell P := by
  rintro a ⟨i, j, hi, hj, -, e⟩
  exact hA a ⟨j, i, hj, hi, trivial, e⟩

end StdBLAS

import Verif.Props.KokkosAccurateDiffer
import Verif.Props.KokkosSameBits

/-!
# Property C67: calls for which the Kokkos backend gives other bits than the native implementation

All elements are of type `double`.  In each case the terms are added in another order, and one order
overflows where the other does not.
-/

namespace StdBLAS
open Witness FP

namespace Witness

/-- Vectors: `x = [2^1023, 2^1023, -2^1023]`, every element of `y` and `z` is `-2^1023`.  Matrices: every
element of `A` and `B` is 1, the columns of `C` and the rows of `E` are `x`. -/
noncomputable def bitsHeap : Heap D := fun n =>
  some (if n < 10 then hugeTerm n
    else if n < 30 then fin (-huge)
    else if 70 ≤ n ∧ n < 79 then hugeTerm ((n - 70) / 3)
    else if 90 ≤ n ∧ n < 99 then hugeTerm ((n - 90) / 3)
    else fin 1)

theorem bits_x : kx.mdspan.Holds bitsHeap hugeTerm := by
  intro i hi
  simp only [kx, KVec.mdspan] at hi ⊢
  simp only [bitsHeap]
  rw [if_pos (by omega)]; congr 2; omega

theorem bits_y : ky.mdspan.Holds bitsHeap fun _ => fin (-huge) := by
  intro i hi
  simp only [ky, KVec.mdspan] at hi ⊢
  simp only [bitsHeap]
  rw [if_neg (by omega), if_pos (by omega)]

theorem bits_A {R : Region} : kA.toMat.HoldsOn bitsHeap R fun _ _ => fin 1 := by
  intro i j hi hj _
  simp only [kA, A] at hi hj ⊢
  simp only [bitsHeap]
  rw [if_neg (by omega), if_neg (by omega), if_neg (by omega), if_neg (by omega)]

theorem bits_C : kC.toMat.Holds bitsHeap fun i _ => hugeTerm i := by
  intro i j hi hj _
  simp only [kC, C] at hi hj ⊢
  simp only [bitsHeap]
  rw [if_neg (by omega), if_neg (by omega), if_pos (by omega)]; congr 2; omega

theorem bits_E : kE.toMat.Holds bitsHeap fun _ j => hugeTerm j := by
  intro i j hi hj _
  simp only [kE, E] at hi hj ⊢
  simp only [bitsHeap]
  rw [if_neg (by omega), if_neg (by omega), if_neg (by omega), if_pos (by omega)]; congr 2; omega

theorem one_hugeTerm (i : ℕ) : (fin 1 : D) * hugeTerm i = hugeTerm i := by
  have v := hugeTerm_valid i
  unfold hugeTerm at v ⊢
  change ofReal binary64 (1 * _) = _
  rw [one_mul, ofReal_fin (by rw [v.1]; exact v.2), v.1]

theorem hugeTerm_one (i : ℕ) : hugeTerm i * (fin 1 : D) = hugeTerm i := by
  have v := hugeTerm_valid i
  unfold hugeTerm at v ⊢
  change ofReal binary64 (_ * 1) = _
  rw [mul_one, ofReal_fin (by rw [v.1]; exact v.2), v.1]

theorem neg_huge_add : (fin (-huge) : D) + fin huge = fin 0 := by
  change ofReal binary64 (-huge + huge) = _
  rw [neg_add_cancel, ofReal_nonneg le_rfl (by rw [binary64.zero]; linarith [binary64.one_le_big]),
    binary64.zero]

theorem zero_huge : (fin 0 : D) + fin huge = fin huge := valid_zero_add huge_valid
theorem zero_huge' : (0 : D) + fin huge = fin huge := valid_zero_add huge_valid
theorem zero_neg_huge : (0 : D) + fin (-huge) = fin (-huge) :=
  valid_zero_add (huge_valid.neg binary64_errors)
theorem inf_add_fin (s : Bool) (a : ℝ) : (inf s : D) + fin a = inf s := rfl
theorem fin_add_inf (s : Bool) (a : ℝ) : (fin a : D) + inf s = inf s := rfl
theorem one_huge : (fin 1 : D) * fin huge = fin huge := one_hugeTerm 0
theorem one_neg_huge : (fin 1 : D) * fin (-huge) = fin (-huge) := one_hugeTerm 2
theorem huge_one : (fin huge : D) * fin 1 = fin huge := hugeTerm_one 0
theorem neg_huge_one : (fin (-huge) : D) * fin 1 = fin (-huge) := hugeTerm_one 2
theorem h0 : hugeTerm 0 = fin huge := rfl
theorem h1 : hugeTerm 1 = fin huge := rfl
theorem h2 : hugeTerm 2 = fin (-huge) := rfl

/-- The two sums are different: evaluates both. -/
macro "bits" : tactic => `(tactic| (
  simp only [leftSum, kkSymSeq, kkTriSeq, triSeq, triSeqInPlace, triTerm, id_eq,
    h0, h1, h2, Nat.reduceAdd, Nat.reduceSub, Nat.add_zero, Nat.zero_add,
    reduceCtorEq, and_self, and_true, and_false, if_true, if_false, Nat.reduceEqDiff, OfNat.ofNat_ne_zero,
    one_huge, one_neg_huge, huge_one, neg_huge_one, huge_sum, huge_neg, neg_huge_add, zero_huge,
    zero_huge', zero_neg_huge, inf_add_fin, fin_add_inf, ne_eq, not_false_eq_true]))

theorem bits_Ay {R : Region} : Apart (kA.toMat.CellOn R) ky.mdspan.Cell := by kview_facts
theorem bits_xy : Apart kx.mdspan.Cell ky.mdspan.Cell := by kview_facts
theorem bits_AC {R : Region} : Apart (kA.toMat.CellOn R) kC.toMat.Cell := by kview_facts
theorem bits_AE {R : Region} : Apart (kA.toMat.CellOn R) kE.toMat.Cell := by kview_facts
theorem bits_yy : ky.mdspan.Aligned ky.mdspan := by kview_facts
theorem bits_y_alloc : ky.mdspan.Alloc bitsHeap := fun i hi => ⟨_, bits_y i hi⟩
theorem bits_uy : ky.mdspan.Unique := KVec.mdspan_unique rfl

end Witness

/-- **C67** (negative) `symmetric_matrix_vector_product(exec, A, upper_triangle, x, y)` with all elements
of `A` equal to 1 and `x = [2^1023, 2^1023, -2^1023]`: the last element of the native result is infinite,
that of the Kokkos result is `2^1023`. -/
theorem C67_symv_upper_false : DifferentOutcome (symv kA.toMat.view .upper kx.mdspan.view ky.mdspan)
    (kkSymv kA .upper kx ky) bitsHeap := by
  refine differ_vec (i := 2)
    (C54_symv _ _ _ _ _ _ _ (Mat.HoldsOn.toView bits_A) (Vec.Holds.toView bits_x)
      bits_y_alloc rfl rfl le_rfl bits_uy bits_Ay bits_xy)
    (C65_symv kA .upper kx ky _ _ _ bits_A bits_x bits_y_alloc rfl rfl rfl rfl rfl rfl
      bits_Ay bits_xy) (by decide) ?_
  change leftSum 0 3 (fun k => symOf .upper _ 2 k * _) ≠ kkSymSeq id .upper 3 _ _ 2
  simp only [symOf, ite_self]
  bits

/-- **C67** (negative) `hermitian_matrix_vector_product(exec, A, upper_triangle, x, y)`, likewise; the
elements are real. -/
theorem C67_hemv_upper_false : DifferentOutcome (hemv kA.toMat.view .upper kx.mdspan.view ky.mdspan)
    (kkHemv kA .upper kx ky) bitsHeap := by
  refine differ_vec (i := 2)
    (C54_hemv _ _ _ _ _ _ _ (Mat.HoldsOn.toView bits_A) (Vec.Holds.toView bits_x)
      bits_y_alloc rfl rfl le_rfl bits_uy bits_Ay bits_xy)
    (C65_hemv kA .upper kx ky _ _ _ bits_A bits_x bits_y_alloc rfl rfl rfl rfl rfl rfl
      bits_Ay bits_xy) (by decide) ?_
  change leftSum 0 3 (fun k => hermOf .upper _ 2 k * _) ≠ kkSymSeq ConjOps.conj .upper 3 _ _ 2
  have e (k : ℕ) : hermOf .upper (fun _ _ => (fin 1 : D)) 2 k = fin 1 := by
    unfold hermOf; split_ifs <;> rfl
  have c : (ConjOps.conj (fin 1) : D) = fin 1 := rfl
  simp only [e, kkSymSeq, c]
  bits

/-- **C67** (negative) `triangular_matrix_vector_product(exec, A, upper_triangle, implicit_unit_diagonal,
x, y)`, with the same `A` and `x`: the first element of the native result is infinite, that of the Kokkos
result is `2^1023`. -/
theorem C67_trmv_upper_unit_false :
    DifferentOutcome (trmv kA.toMat.view .upper .implicitUnit kx.mdspan.view ky.mdspan)
    (kkTrmv kA .upper .implicitUnit kx ky) bitsHeap := by
  refine differ_vec (i := 0)
    (C54_trmv _ _ _ _ _ _ _ _ (Mat.HoldsOn.toView bits_A) (Vec.Holds.toView bits_x)
      bits_y_alloc rfl rfl le_rfl bits_uy bits_Ay bits_xy)
    (C65_trmv kA .upper .implicitUnit kx ky _ _ _ bits_A bits_x bits_y_alloc rfl rfl rfl rfl rfl rfl
      bits_Ay bits_xy) (by decide) ?_
  change triSeq .upper .implicitUnit 3 _ _ 0 0 ≠ kkTriSeq .upper .implicitUnit 3 0 _ _
  bits

/-- **C67** (negative) `symmetric_matrix_vector_product(exec, A, t, x, y, y)` with the same `A` and `x`
and all elements of `y` equal to `-2^1023`: the native implementation starts from `y`, the Kokkos backend
adds `y` at the end, and only its result is infinite. -/
theorem C67_symv_update_false (t : Triangle) :
    DifferentOutcome (symvUpdate kA.toMat.view t kx.mdspan.view ky.mdspan.view ky.mdspan)
    (kkSymvUpdate kA t kx ky ky) bitsHeap := by
  refine differ_vec (i := if t = .lower then 2 else 0)
    (C54_symv_update _ _ _ _ _ _ _ _ _ (Mat.HoldsOn.toView bits_A) (Vec.Holds.toView bits_x)
      (Vec.Holds.toView bits_y) bits_y_alloc rfl rfl le_rfl le_rfl bits_uy bits_Ay bits_xy bits_yy)
    (C65_symv_update kA t kx ky ky _ _ _ _ bits_A bits_x bits_y bits_y_alloc rfl rfl rfl rfl rfl rfl
      rfl rfl bits_Ay bits_xy bits_yy) (by cases t <;> decide) ?_
  cases t
  · change leftSum _ 3 (fun k => symOf .upper _ 0 k * _) ≠ _ + kkSymSeq id .upper 3 _ _ 0
    simp only [symOf, ite_self]
    bits
  · change leftSum _ 3 (fun k => symOf .lower _ 2 k * _) ≠ _ + kkSymSeq id .lower 3 _ _ 2
    simp only [symOf, ite_self]
    bits

/-- **C67** (negative) `hermitian_matrix_vector_product(exec, A, t, x, y, y)`, likewise. -/
theorem C67_hemv_update_false (t : Triangle) :
    DifferentOutcome (hemvUpdate kA.toMat.view t kx.mdspan.view ky.mdspan.view ky.mdspan)
    (kkHemvUpdate kA t kx ky ky) bitsHeap := by
  refine differ_vec (i := if t = .lower then 2 else 0)
    (C54_hemv_update _ _ _ _ _ _ _ _ _ (Mat.HoldsOn.toView bits_A) (Vec.Holds.toView bits_x)
      (Vec.Holds.toView bits_y) bits_y_alloc rfl rfl le_rfl le_rfl bits_uy bits_Ay bits_xy bits_yy)
    (C65_hemv_update kA t kx ky ky _ _ _ _ bits_A bits_x bits_y bits_y_alloc rfl rfl rfl rfl rfl rfl
      rfl rfl bits_Ay bits_xy bits_yy) (by cases t <;> decide) ?_
  have e (t : Triangle) (i k : ℕ) : hermOf t (fun _ _ => (fin 1 : D)) i k = fin 1 := by
    unfold hermOf; split_ifs <;> rfl
  have c : (ConjOps.conj (fin 1) : D) = fin 1 := rfl
  cases t
  · change leftSum _ 3 (fun k => hermOf .upper _ 0 k * _) ≠ _ + kkSymSeq ConjOps.conj .upper 3 _ _ 0
    simp only [e, kkSymSeq, c]
    bits
  · change leftSum _ 3 (fun k => hermOf .lower _ 2 k * _) ≠ _ + kkSymSeq ConjOps.conj .lower 3 _ _ 2
    simp only [e, kkSymSeq, c]
    bits

/-- **C67** (negative) `triangular_matrix_vector_product(exec, A, t, explicit_diagonal, x, y, y)`,
likewise. -/
theorem C67_trmv_update_false (t : Triangle) :
    DifferentOutcome (trmvUpdate kA.toMat.view t .explicit kx.mdspan.view ky.mdspan.view ky.mdspan)
    (kkTrmvUpdate kA t .explicit kx ky ky) bitsHeap := by
  refine differ_vec (i := if t = .lower then 2 else 0)
    (C54_trmv_update _ _ _ _ _ _ _ _ _ _ (Mat.HoldsOn.toView bits_A) (Vec.Holds.toView bits_x)
      (Vec.Holds.toView bits_y) bits_y_alloc rfl rfl le_rfl le_rfl bits_uy bits_Ay bits_xy bits_yy)
    (C65_trmv_update kA t .explicit kx ky ky _ _ _ _ bits_A bits_x bits_y bits_y_alloc rfl rfl rfl rfl
      rfl rfl rfl rfl bits_Ay bits_xy bits_yy) (by cases t <;> decide) ?_
  cases t
  · change triSeq .upper .explicit 3 _ _ _ 0 ≠ _ + kkTriSeq .upper .explicit 3 0 _ _
    bits
  · change triSeq .lower .explicit 3 _ _ _ 2 ≠ _ + kkTriSeq .lower .explicit 3 2 _ _
    bits

/-- **C67** (negative) `triangular_matrix_left_product(exec, A, upper_triangle, implicit_unit_diagonal, C)`
where all elements of `A` are 1 and all columns of `C` are `[2^1023, 2^1023, -2^1023]`: the native
implementation starts from the diagonal, the Kokkos backend adds it at the end. -/
theorem C67_trmm_left_in_place_false :
    DifferentOutcome (trmmLeftInPlace kA.toMat.view .upper .implicitUnit kC.toMat)
    (kkTrmmLeftInPlace kA .upper kC) bitsHeap := by
  refine differ_mat (i := 0) (j := 0)
    (C54_trmm_left_in_place _ _ _ _ _ _ _ (Mat.HoldsOn.toView bits_A) bits_C rfl rfl
      (by kview_facts) bits_AC)
    (C65_trmm_left_in_place kA .upper kC _ _ _ bits_A bits_C rfl rfl rfl rfl (by kview_facts)
      bits_AC) (by decide) (by decide) trivial ?_
  change triSeqInPlace .upper 3 _ _ _ 0 ≠ kkTriSeq .upper .implicitUnit 3 0 _ _
  bits

/-- **C67** (negative) `triangular_matrix_right_product(exec, A, lower_triangle, implicit_unit_diagonal,
E)` where all elements of `A` are 1 and all rows of `E` are `[2^1023, 2^1023, -2^1023]`, likewise. -/
theorem C67_trmm_right_in_place_false :
    DifferentOutcome (trmmRightInPlace kA.toMat.view .lower .implicitUnit kE.toMat)
    (kkTrmmRightInPlace kA .lower kE) bitsHeap := by
  refine differ_mat (i := 0) (j := 0)
    (C54_trmm_right_in_place _ _ _ _ _ _ _ (Mat.HoldsOn.toView bits_A) bits_E rfl rfl
      (by kview_facts) bits_AE)
    (C65_trmm_right_in_place kA .lower kE _ _ _ bits_A bits_E rfl rfl rfl rfl (by kview_facts)
      bits_AE) (by decide) (by decide) trivial ?_
  change leftSum (if Diag.implicitUnit = .explicit then _ else _) (3 - 1 - 0) _ ≠
    kkTriSeq .upper .implicitUnit 3 0 _ _
  bits

/-- **C67** (negative) `dot(exec, x, y, 0.0)`: the bits depend on the schedule (`C65_dot_false`), so they
are not always those of the native call. -/
theorem C67_dot_false :
    ¬ SameOutcome (dot kx.mdspan.view ky.mdspan.view (0 : D)) (kkDot kx ky 0) hugeHeap := by
  rintro ⟨b, h', -, H⟩
  have e1 := (H _).1 C65_dot_false.1
  have e2 := (H _).1 C65_dot_false.2
  cases e1.trans e2.symm

end StdBLAS

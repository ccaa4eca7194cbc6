import Mathlib.Algebra.BigOperators.Intervals
import Mathlib.Algebra.Order.BigOperators.Group.LocallyFinite
import Verif.Lemmas.Blas2
import Verif.Model.Blas3

/-! # Lemmas for matrix-matrix products -/

namespace StdBLAS
open Finset
variable {α : Type} {h h0 h1 : Heap α}

/-! ## Accumulating into one element -/

/-- While element `(i,j)` of `C` is being accumulated: it holds `s`, the rest is as in `h`. -/
def Mat.At (C : Mat) (h : Heap α) (i j : Nat) (s : α) (h' : Heap α) : Prop :=
  h' (C.addr i j) = some s ∧ ∀ b, b ≠ C.addr i j → h' b = h b

theorem Mat.At.onlyChanges {C : Mat} {i j : Nat} {s : α} (hi : i < C.rows) (hj : j < C.cols)
    (hc : OnlyChanges C.Cell h0 h) (ha : C.At h i j s h1) : OnlyChanges C.Cell h0 h1 := by
  intro b hb
  rw [ha.2 b, hc b hb]
  rintro rfl
  exact hb ⟨i, j, hi, hj, trivial, rfl⟩

theorem Mat.at_set {C : Mat} {i j : Nat} {w : α} (hi : i < C.rows) (hj : j < C.cols)
    (hw : h (C.addr i j) = some w) (v : α) : Ends (C.set i j v) h fun _ h' => C.At h i j v h' := by
  rw [ends_mat_set]
  exact ⟨⟨hi, hj⟩, ⟨w, hw⟩, by simp, fun b hb => by simp [hb]⟩

theorem Mat.At.addTo [Add α] {C : Mat} {i j : Nat} {s : α} (hi : i < C.rows) (hj : j < C.cols)
    (ha : C.At h i j s h1) (v : α) : Ends (C.addTo i j v) h1 fun _ h' => C.At h i j (s + v) h' := by
  unfold Mat.addTo
  simp only [ends_bind, ends_mat_get, ends_mat_set]
  exact ⟨⟨hi, hj⟩, s, ha.1, ⟨hi, hj⟩, ⟨s, ha.1⟩, by simp,
    fun b hb => by rw [Function.update_of_ne hb]; exact ha.2 b hb⟩

/-- A loop whose iteration `k` does `C(i,j) += term k`. -/
theorem Mat.At.loop [Add α] {C : Mat} {i j : Nat} {s : α} {ι : Type} {l : List ι}
    {body : ι → Prog α Unit} (term : ι → α) (hi : i < C.rows) (hj : j < C.cols)
    (hc : OnlyChanges C.Cell h0 h) (ha : C.At h i j s h1)
    (hbody : ∀ k ∈ l, ∀ h', OnlyChanges C.Cell h0 h' → ∀ Q : Unit → Heap α → Prop,
      Ends (C.addTo i j (term k)) h' Q → Ends (body k) h' Q) :
    Ends (forEach l body) h1 fun _ h' => C.At h i j (l.foldl (fun s k => s + term k) s) h' := by
  refine ends_forEach_fold (fun s h' => C.At h i j s h') _ ?_ ha
  intro k hk s h' ha'
  exact hbody k hk h' (ha'.onlyChanges hi hj hc) _ (ha'.addTo hi hj _)

theorem foldl_range'_add [AddCommMonoid α] (f : Nat → α) (lo hi : Nat) (s : α) :
    (List.range' lo (hi - lo)).foldl (fun s k => s + f k) s = s + ∑ k ∈ Ico lo hi, f k := by
  rcases le_total lo hi with hle | hle
  · obtain ⟨n, rfl⟩ := Nat.exists_eq_add_of_le hle
    rw [Nat.add_sub_cancel_left]
    clear hle
    induction n with
    | zero => simp
    | succ n ih =>
      rw [List.range'_1_concat, List.foldl_append, ih, ← Nat.add_assoc,
        sum_Ico_succ_top (by omega), List.foldl_cons, List.foldl_nil, add_assoc]
  · rw [Nat.sub_eq_zero_of_le hle, Ico_eq_empty_of_le hle]; simp

/-! ## Overwriting algorithms: every element starts at zero -/

/-- Columns outside; each element is first set, then accumulated. -/
theorem elems_cols {C : Mat} {body : Nat → Nat → Prog α Unit} (first : Nat → Nat → α)
    (f : Nat → Nat → α) (h0 : Heap α) (hC : C.Alloc h0) (hu : C.Unique)
    (hbody : ∀ i j, i < C.rows → j < C.cols → ∀ h, OnlyChanges C.Cell h0 h → ∀ h1,
      C.At h i j (first i j) h1 → Ends (body j i) h1 (fun _ h' => C.At h i j (f i j) h')) :
    Ends (forUp 0 C.cols fun j => forUp 0 C.rows fun i => do
      C.set i j (first i j); body j i) h0 (fun _ h' => C.Becomes h0 h' f) := by
  refine ends_mat_full_cols f h0 hu rfl rfl ?_
  intro i j hi hj h hc he
  obtain ⟨w, hw⟩ := hC i j hi hj trivial
  rw [ends_bind]
  exact (Mat.at_set hi hj (he.trans hw) _).mono fun _ h1 ha => hbody i j hi hj h hc h1 ha

/-- Rows outside; each element is first set, then accumulated. -/
theorem elems_rows {C : Mat} {body : Nat → Nat → Prog α Unit} (first : Nat → Nat → α)
    (f : Nat → Nat → α) (h0 : Heap α) (hC : C.Alloc h0) (hu : C.Unique)
    (hbody : ∀ i j, i < C.rows → j < C.cols → ∀ h, OnlyChanges C.Cell h0 h → ∀ h1,
      C.At h i j (first i j) h1 → Ends (body i j) h1 (fun _ h' => C.At h i j (f i j) h')) :
    Ends (forUp 0 C.rows fun i => forUp 0 C.cols fun j => do
      C.set i j (first i j); body i j) h0 (fun _ h' => C.Becomes h0 h' f) := by
  refine ends_mat_full_rows f h0 hu rfl rfl ?_
  intro i j hi hj h hc he
  obtain ⟨w, hw⟩ := hC i j hi hj trivial
  rw [ends_bind]
  exact (Mat.at_set hi hj (he.trans hw) _).mono fun _ h1 ha => hbody i j hi hj h hc h1 ha

/-! ## General product -/

/-- `matrix_product` as left-to-right folds; no algebraic law is used. -/
theorem gemm_fold [Add α] [Mul α] [Zero α] {A B : MatV α} {C : Mat} {a b : Nat → Nat → α}
    (hA : A.Holds h a) (hB : B.Holds h b) (hC : C.Alloc h) (hr : C.rows ≤ A.rows)
    (hk : A.cols ≤ B.rows) (hc : C.cols ≤ B.cols) (hu : C.Unique)
    (hAC : Apart A.toMat.Cell C.Cell) (hBC : Apart B.toMat.Cell C.Cell) :
    Ends (gemm A B C) h fun _ h' => C.Becomes h h' fun i j =>
      (List.range' 0 A.cols).foldl (fun s k => s + a i k * b k j) 0 := by
  unfold gemm
  refine elems_rows (fun _ _ => 0) _ h hC hu ?_
  intro i j hi hj h2 hc2 h1 ha
  refine ha.loop (fun k => a i k * b k j) hi hj hc2 ?_
  intro k hkl h' hc' Q q
  have hk' := (mem_up.1 hkl).2
  rw [ends_bind, (hA.of_onlyChanges hAC hc').get_iff (by omega) hk' trivial, ends_bind,
    (hB.of_onlyChanges hBC hc').get_iff (by omega) (by omega) trivial]
  exact q

/-- Updating `matrix_product` as left-to-right folds; no algebraic law is used. -/
theorem gemmUpdate_fold [Add α] [Mul α] {A B E : MatV α} {C : Mat} {a b e : Nat → Nat → α}
    (hA : A.Holds h a) (hB : B.Holds h b) (hE : E.Holds h e) (hC : C.Alloc h)
    (hr : C.rows ≤ A.rows) (hk : A.cols ≤ B.rows) (hc : C.cols ≤ B.cols)
    (her : C.rows ≤ E.rows) (hec : C.cols ≤ E.cols) (hu : C.Unique)
    (hAC : Apart A.toMat.Cell C.Cell) (hBC : Apart B.toMat.Cell C.Cell)
    (hEC : E.toMat.Aligned C) :
    Ends (gemmUpdate A B E C) h fun _ h' => C.Becomes h h' fun i j =>
      (List.range' 0 A.cols).foldl (fun s k => s + a i k * b k j) (e i j) := by
  unfold gemmUpdate
  refine ends_mat_full_rows _ h hu rfl rfl ?_
  intro i j hi hj h2 hc2 he
  obtain ⟨w, hw⟩ := hC i j hi hj trivial
  obtain ⟨v, hv, ev⟩ := hE i j (by omega) (by omega) trivial
  rw [ends_bind, ends_matV_get]
  refine ⟨⟨by omega, by omega⟩, v, ?_, ?_⟩
  · rw [← hv]; exact hEC.read hc2 (by omega) (by omega) fun _ _ => he
  rw [ev, ends_bind]
  refine (Mat.at_set hi hj (he.trans hw) _).mono fun _ h1 ha => ?_
  refine ha.loop (fun k => a i k * b k j) hi hj hc2 ?_
  intro k hkl h' hc' Q q
  have hk' := (mem_up.1 hkl).2
  rw [ends_bind, (hA.of_onlyChanges hAC hc').get_iff (by omega) hk' trivial, ends_bind,
    (hB.of_onlyChanges hBC hc').get_iff (by omega) (by omega) trivial]
  exact q

/-! ## Symmetric products -/

theorem symOf_in {t : Triangle} {a : Nat → Nat → α} {i j : Nat} (hr : t.region i j) :
    symOf t a i j = a i j := by unfold symOf; rw [if_pos hr]

theorem symOf_out {t : Triangle} {a : Nat → Nat → α} {i j : Nat} (hr : ¬ t.region i j) :
    symOf t a i j = a j i := by unfold symOf; rw [if_neg hr]

theorem region_flip_of_not {t : Triangle} {i j : Nat} (hr : ¬ t.region i j) : t.region j i := by
  cases t <;> simp only [Triangle.region] at * <;> omega

theorem region_antisymm {t : Triangle} {i j : Nat} (h1 : t.region i j) (h2 : t.region j i) :
    i = j := by
  cases t <;> simp only [Triangle.region] at * <;> omega

theorem symOf_comm (t : Triangle) (a : Nat → Nat → α) (i k : Nat) :
    symOf t a i k = symOf t a k i := by
  by_cases e : t.region i k
  · by_cases e' : t.region k i
    · rw [region_antisymm e e']
    · rw [symOf_in e, symOf_out e']
  · rw [symOf_out e, symOf_in (region_flip_of_not e)]

/-- Reading `S(i,k)` of the symmetric matrix, lower triangle. -/
theorem sym_read_lower {A : MatV α} {a : Nat → Nat → α}
    (hA : A.HoldsOn h Triangle.lower.region a) {i k : Nat} (hi : i < A.rows) (hk : k < A.rows)
    (hsq : A.rows = A.cols) {Q : α → Heap α → Prop} (q : Q (symOf .lower a i k) h) :
    Ends (if i ≤ k then A.get k i else A.get i k) h Q := by
  by_cases e : i ≤ k
  · rw [if_pos e, hA.get_iff hk (by omega) e]
    rwa [symOf_comm, symOf_in (t := .lower) e] at q
  · have e' : Triangle.lower.region i k := by simp only [Triangle.region]; omega
    rw [if_neg e, hA.get_iff hi (by omega) e']
    rwa [symOf_in e'] at q

/-- Reading `S(i,k)` of the symmetric matrix, upper triangle. -/
theorem sym_read_upper {A : MatV α} {a : Nat → Nat → α}
    (hA : A.HoldsOn h Triangle.upper.region a) {i k : Nat} (hi : i < A.rows) (hk : k < A.rows)
    (hsq : A.rows = A.cols) {Q : α → Heap α → Prop} (q : Q (symOf .upper a i k) h) :
    Ends (if i ≥ k then A.get k i else A.get i k) h Q := by
  by_cases e : i ≥ k
  · rw [if_pos e, hA.get_iff hk (by omega) e]
    rwa [symOf_comm, symOf_in (t := .upper) e] at q
  · have e' : Triangle.upper.region i k := by simp only [Triangle.region]; omega
    rw [if_neg e, hA.get_iff hi (by omega) e']
    rwa [symOf_in e'] at q

/-- `symmetric_matrix_product`, left, as folds; no algebraic law is used. -/
theorem symmLeft_fold [Add α] [Mul α] [Zero α] {A B : MatV α} {t : Triangle} {C : Mat}
    {a b : Nat → Nat → α}
    (hA : A.HoldsOn h t.region a) (hB : B.Holds h b) (hC : C.Alloc h) (hsq : A.rows = A.cols)
    (hr : C.rows ≤ A.rows) (hk : A.cols ≤ B.rows) (hc : C.cols ≤ B.cols) (hu : C.Unique)
    (hAC : Apart (A.toMat.CellOn t.region) C.Cell) (hBC : Apart B.toMat.Cell C.Cell) :
    Ends (symmLeft A t B C) h fun _ h' => C.Becomes h h' fun i j =>
      (List.range' 0 A.cols).foldl (fun s k => s + symOf t a i k * b k j) 0 := by
  unfold symmLeft
  cases t <;>
  · refine elems_cols (fun _ _ => 0) _ h hC hu ?_
    intro i j hi hj h2 hc2 h1 ha
    refine ha.loop (fun k => symOf _ a i k * b k j) hi hj hc2 ?_
    intro k hkl h' hc' Q q
    have hk' := (mem_up.1 hkl).2
    rw [ends_bind]
    first
    | refine sym_read_lower (hA.of_onlyChanges hAC hc') (i := i) (k := k) (by omega) (by omega) hsq ?_
    | refine sym_read_upper (hA.of_onlyChanges hAC hc') (i := i) (k := k) (by omega) (by omega) hsq ?_
    rw [ends_bind, (hB.of_onlyChanges hBC hc').get_iff (by omega) (by omega) trivial]
    exact q

/-- `symmetric_matrix_product`, right, as folds; no algebraic law is used. -/
theorem symmRight_fold [Add α] [Mul α] [Zero α] {A B : MatV α} {t : Triangle} {C : Mat}
    {a b : Nat → Nat → α}
    (hA : A.HoldsOn h t.region a) (hB : B.Holds h b) (hC : C.Alloc h) (hsq : A.rows = A.cols)
    (hr : C.rows ≤ B.rows) (hk : A.cols ≤ B.cols) (hc : C.cols ≤ A.cols) (hu : C.Unique)
    (hAC : Apart (A.toMat.CellOn t.region) C.Cell) (hBC : Apart B.toMat.Cell C.Cell) :
    Ends (symmRight B A t C) h fun _ h' => C.Becomes h h' fun i j =>
      (List.range' 0 A.cols).foldl (fun s k => s + b i k * symOf t a k j) 0 := by
  unfold symmRight
  cases t <;>
  · refine elems_cols (fun _ _ => 0) _ h hC hu ?_
    intro i j hi hj h2 hc2 h1 ha
    refine ha.loop (fun k => b i k * symOf _ a k j) hi hj hc2 ?_
    intro k hkl h' hc' Q q
    have hk' := (mem_up.1 hkl).2
    rw [ends_bind]
    first
    | refine sym_read_lower (hA.of_onlyChanges hAC hc') (i := j) (k := k) (by omega) (by omega) hsq ?_
    | refine sym_read_upper (hA.of_onlyChanges hAC hc') (i := j) (k := k) (by omega) (by omega) hsq ?_
    rw [symOf_comm, ends_bind, (hB.of_onlyChanges hBC hc').get_iff (by omega) (by omega) trivial]
    exact q

/-! ## Hermitian products -/

/-- `hermitian_matrix_product`, left, as folds; no algebraic law is used. -/
theorem hemmLeft_fold [Add α] [Mul α] [Zero α] [ConjOps α] {A B : MatV α} {t : Triangle} {C : Mat}
    {a b : Nat → Nat → α}
    (hA : A.HoldsOn h t.region a) (hB : B.Holds h b) (hC : C.Alloc h) (hsq : A.rows = A.cols)
    (hr : C.rows ≤ A.rows) (hk : A.cols ≤ B.rows) (hc : C.cols ≤ B.cols) (hu : C.Unique)
    (hAC : Apart (A.toMat.CellOn t.region) C.Cell) (hBC : Apart B.toMat.Cell C.Cell) :
    Ends (hemmLeft A t B C) h fun _ h' => C.Becomes h h' fun i j =>
      (List.range' (i + 1) (A.cols - (i + 1))).foldl (fun s k => s + hermOf t a i k * b k j)
        ((List.range' 0 (i - 0)).foldl (fun s k => s + hermOf t a i k * b k j) 0 +
          hermOf t a i i * b i j) := by
  have hd : ∀ i, hermOf t a i i = ConjOps.re (a i i) := by
    intro i; unfold hermOf; rw [if_pos rfl]
  unfold hemmLeft
  cases t with
  | lower =>
    have hlo : ∀ i k, k < i → hermOf .lower a i k = a i k := by
      intro i k hik; unfold hermOf
      rw [if_neg (by omega), if_pos (by simp only [Triangle.region]; omega)]
    have hup : ∀ i k, i < k → hermOf .lower a i k = ConjOps.conj (a k i) := by
      intro i k hik; unfold hermOf
      rw [if_neg (by omega), if_neg (by simp only [Triangle.region]; omega)]
    refine elems_cols (fun _ _ => 0) _ h hC hu ?_
    intro i j hi hj h2 hc2 h1 ha
    rw [ends_bind]
    refine (ha.loop (fun k => hermOf .lower a i k * b k j) hi hj hc2 ?_).mono fun _ h3 ha3 => ?_
    · intro k hkl h' hc' Q q
      have hk' := (mem_up.1 hkl).2
      rw [ends_bind, (hA.of_onlyChanges hAC hc').get_iff (by omega) (by omega)
        (by simp only [Triangle.region]; omega), ends_bind,
        (hB.of_onlyChanges hBC hc').get_iff (by omega) (by omega) trivial]
      rwa [hlo i k hk'] at q
    have hc3 := ha3.onlyChanges hi hj hc2
    rw [ends_bind, (hA.of_onlyChanges hAC hc3).get_iff (by omega) (by omega)
      (by simp only [Triangle.region]; omega), ends_bind,
      (hB.of_onlyChanges hBC hc3).get_iff (by omega) (by omega) trivial, ends_bind, ← hd]
    refine (ha3.addTo hi hj _).mono fun _ h4 ha4 => ?_
    rw [hsq]
    refine ha4.loop (fun k => hermOf .lower a i k * b k j) hi hj hc2 ?_
    intro k hkl h' hc' Q q
    have hk' := mem_up.1 hkl
    rw [ends_bind, (hA.of_onlyChanges hAC hc').get_iff (by omega) (by omega)
      (by simp only [Triangle.region]; omega), ends_bind,
      (hB.of_onlyChanges hBC hc').get_iff (by omega) (by omega) trivial]
    rwa [hup i k (by omega)] at q
  | upper =>
    have hlo : ∀ i k, k < i → hermOf .upper a i k = ConjOps.conj (a k i) := by
      intro i k hik; unfold hermOf
      rw [if_neg (by omega), if_neg (by simp only [Triangle.region]; omega)]
    have hup : ∀ i k, i < k → hermOf .upper a i k = a i k := by
      intro i k hik; unfold hermOf
      rw [if_neg (by omega), if_pos (by simp only [Triangle.region]; omega)]
    refine elems_cols (fun _ _ => 0) _ h hC hu ?_
    intro i j hi hj h2 hc2 h1 ha
    rw [ends_bind]
    refine (ha.loop (fun k => hermOf .upper a i k * b k j) hi hj hc2 ?_).mono fun _ h3 ha3 => ?_
    · intro k hkl h' hc' Q q
      have hk' := (mem_up.1 hkl).2
      rw [ends_bind, (hA.of_onlyChanges hAC hc').get_iff (by omega) (by omega)
        (by simp only [Triangle.region]; omega), ends_bind,
        (hB.of_onlyChanges hBC hc').get_iff (by omega) (by omega) trivial]
      rwa [hlo i k hk'] at q
    have hc3 := ha3.onlyChanges hi hj hc2
    rw [ends_bind, (hA.of_onlyChanges hAC hc3).get_iff (by omega) (by omega)
      (by simp only [Triangle.region]; omega), ends_bind,
      (hB.of_onlyChanges hBC hc3).get_iff (by omega) (by omega) trivial, ends_bind, ← hd]
    refine (ha3.addTo hi hj _).mono fun _ h4 ha4 => ?_
    refine ha4.loop (fun k => hermOf .upper a i k * b k j) hi hj hc2 ?_
    intro k hkl h' hc' Q q
    have hk' := mem_up.1 hkl
    rw [ends_bind, (hA.of_onlyChanges hAC hc').get_iff (by omega) (by omega)
      (by simp only [Triangle.region]; omega), ends_bind,
      (hB.of_onlyChanges hBC hc').get_iff (by omega) (by omega) trivial]
    rwa [hup i k (by omega)] at q

open Classical in
/-- The matrix that the right Hermitian product uses: as `hermOf`, but the diagonal is
used as stored. -/
noncomputable def hermStored [ConjOps α] (t : Triangle) (a : Nat → Nat → α) (i j : Nat) : α :=
  if t.region i j then a i j else ConjOps.conj (a j i)

theorem hermStored_in [ConjOps α] {t : Triangle} {a : Nat → Nat → α} {i j : Nat}
    (hr : t.region i j) : hermStored t a i j = a i j := by unfold hermStored; rw [if_pos hr]

theorem hermStored_out [ConjOps α] {t : Triangle} {a : Nat → Nat → α} {i j : Nat}
    (hr : ¬ t.region i j) : hermStored t a i j = ConjOps.conj (a j i) := by
  unfold hermStored; rw [if_neg hr]

theorem hermStored_eq [ConjOps α] {t : Triangle} {a : Nat → Nat → α} {i j : Nat}
    (hreal : i = j → ConjOps.re (a i i) = a i i) : hermStored t a i j = hermOf t a i j := by
  classical
  unfold hermStored hermOf
  by_cases e : i = j
  · subst e
    rw [if_pos rfl, hreal rfl, if_pos (by cases t <;> exact le_refl i)]
  · rw [if_neg e]

/-- `hermitian_matrix_product`, right, as folds; no algebraic law is used. -/
theorem hemmRight_fold [Add α] [Mul α] [Zero α] [ConjOps α] {A B : MatV α} {t : Triangle} {C : Mat}
    {a b : Nat → Nat → α}
    (hA : A.HoldsOn h t.region a) (hB : B.Holds h b) (hC : C.Alloc h) (hsq : A.rows = A.cols)
    (hr : C.rows ≤ B.rows) (hk : A.cols ≤ B.cols) (hc : C.cols ≤ A.cols) (hu : C.Unique)
    (hAC : Apart (A.toMat.CellOn t.region) C.Cell) (hBC : Apart B.toMat.Cell C.Cell) :
    Ends (hemmRight B A t C) h fun _ h' => C.Becomes h h' fun i j =>
      (List.range' 0 A.cols).foldl (fun s k => s + b i k * hermStored t a k j) 0 := by
  classical
  unfold hemmRight
  cases t with
  | lower =>
    refine elems_cols (fun _ _ => 0) _ h hC hu ?_
    intro i j hi hj h2 hc2 h1 ha
    refine ha.loop (fun k => b i k * hermStored .lower a k j) hi hj hc2 ?_
    intro k hkl h' hc' Q q
    have hk' := (mem_up.1 hkl).2
    have hA' := hA.of_onlyChanges hAC hc'
    have hB' := hB.of_onlyChanges hBC hc'
    by_cases e : j ≤ k
    · rw [if_pos e, ends_bind, hA'.get_iff (by omega) (by omega) e, ends_bind,
        hB'.get_iff (by omega) (by omega) trivial]
      rwa [hermStored_in (t := .lower) e] at q
    · rw [if_neg e, ends_bind, ends_bind,
        hA'.get_iff (by omega) (by omega) (by simp only [Triangle.region]; omega), ends_pure,
        ends_bind, hB'.get_iff (by omega) (by omega) trivial]
      rwa [hermStored_out (t := .lower) e] at q
  | upper =>
    refine elems_cols (fun _ _ => 0) _ h hC hu ?_
    intro i j hi hj h2 hc2 h1 ha
    refine ha.loop (fun k => b i k * hermStored .upper a k j) hi hj hc2 ?_
    intro k hkl h' hc' Q q
    have hk' := (mem_up.1 hkl).2
    have hA' := hA.of_onlyChanges hAC hc'
    have hB' := hB.of_onlyChanges hBC hc'
    by_cases e : k ≤ j
    · rw [if_pos e, ends_bind, hA'.get_iff (by omega) (by omega) e, ends_bind,
        hB'.get_iff (by omega) (by omega) trivial]
      rwa [hermStored_in (t := .upper) e] at q
    · rw [if_neg e, ends_bind, ends_bind,
        hA'.get_iff (by omega) (by omega) (by simp only [Triangle.region]; omega), ends_pure,
        ends_bind, hB'.get_iff (by omega) (by omega) trivial]
      rwa [hermStored_out (t := .upper) e] at q

/-! ## Triangular products -/

/-- Inner range of the triangular products, left side. -/
def triRow (t : Triangle) (d : Diag) (n i : Nat) : List Nat :=
  match t with
  | .lower => List.range' 0 ((if d = .explicit then i + 1 else i) - 0)
  | .upper => List.range' (if d = .explicit then i else i + 1)
      (n - (if d = .explicit then i else i + 1))

theorem mem_triRow {t : Triangle} {d : Diag} {n i k : Nat} (hi : i < n) :
    k ∈ triRow t d n i ↔ k < n ∧ triRegion t d i k := by
  unfold triRow triRegion
  cases t <;> cases d <;>
    simp only [Triangle.region, if_true, reduceCtorEq, if_false, List.mem_range'_1, ne_eq,
      forall_true_left, false_imp_iff, and_true] <;> omega

theorem triRow_nodup {t : Triangle} {d : Diag} {n i : Nat} : (triRow t d n i).Nodup := by
  cases t <;> exact List.nodup_range' (step := 1)

/-- The other triangle: the transpose of the triangle `t`. -/
def Triangle.flip : Triangle → Triangle
  | .upper => .lower
  | .lower => .upper

theorem triRegion_flip {t : Triangle} {d : Diag} {i j : Nat} :
    triRegion t.flip d i j ↔ triRegion t d j i := by
  unfold triRegion Triangle.flip
  cases t <;> simp only [Triangle.region, ne_eq, and_congr_right_iff] <;> intro _ <;>
    exact ⟨fun h e e' => h e e'.symm, fun h e e' => h e e'.symm⟩

/-- One element of a triangular product as the code computes it. -/
def triElem [Add α] [Zero α] (t : Triangle) (d : Diag) (n i : Nat) (term : Nat → α) (one : α) : α :=
  let s := (triRow t d n i).foldl (fun s k => s + term k) 0
  if d = .explicit then s else s + one

/-- `triangular_matrix_product`, left, as folds; no algebraic law is used. -/
theorem trmmLeft_fold [Add α] [Mul α] [Zero α] {A B : MatV α} {t : Triangle} {d : Diag} {C : Mat}
    {a b : Nat → Nat → α}
    (hA : A.HoldsOn h (triRegion t d) a) (hB : B.Holds h b) (hC : C.Alloc h) (hsq : A.rows = A.cols)
    (hr : C.rows = A.rows) (hk : C.rows ≤ B.rows) (hc : C.cols ≤ B.cols) (hu : C.Unique)
    (hAC : Apart (A.toMat.CellOn (triRegion t d)) C.Cell) (hBC : Apart B.toMat.Cell C.Cell) :
    Ends (trmmLeft A t d B C) h fun _ h' => C.Becomes h h' fun i j =>
      triElem t d C.rows i (fun k => a i k * b k j) (b i j) := by
  have key : ∀ i j, i < C.rows → j < C.cols → ∀ h2, OnlyChanges C.Cell h h2 → ∀ h1,
      C.At h2 i j 0 h1 → Ends (do
        forEach (triRow t d C.rows i) fun k => do
          let a ← A.get i k
          let b ← B.get k j
          C.addTo i j (a * b)
        if d = .explicit then pure () else do
          let b ← B.get i j
          C.addTo i j b) h1 (fun _ h' => C.At h2 i j
            (triElem t d C.rows i (fun k => a i k * b k j) (b i j)) h') := by
    intro i j hi hj h2 hc2 h1 ha
    rw [ends_bind]
    refine (ha.loop (fun k => a i k * b k j) hi hj hc2 ?_).mono fun _ h3 ha3 => ?_
    · intro k hkl h' hc' Q q
      obtain ⟨hk', hreg⟩ := (mem_triRow hi).1 hkl
      rw [ends_bind, (hA.of_onlyChanges hAC hc').get_iff (by omega) (by omega) hreg, ends_bind,
        (hB.of_onlyChanges hBC hc').get_iff (by omega) (by omega) trivial]
      exact q
    · unfold triElem
      by_cases e : d = .explicit
      · simp only [if_pos e]
        exact ends_pure.2 ha3
      · simp only [if_neg e]
        rw [ends_bind, (hB.of_onlyChanges hBC (ha3.onlyChanges hi hj hc2)).get_iff
          (by omega) (by omega) trivial]
        exact ha3.addTo hi hj _
  unfold trmmLeft
  cases t with
  | lower => exact elems_cols (fun _ _ => 0) _ h hC hu key
  | upper => exact elems_cols (fun _ _ => 0) _ h hC hu key

/-- `triangular_matrix_product`, right, as folds; no algebraic law is used. -/
theorem trmmRight_fold [Add α] [Mul α] [Zero α] {A B : MatV α} {t : Triangle} {d : Diag} {C : Mat}
    {a b : Nat → Nat → α}
    (hA : A.HoldsOn h (triRegion t d) a) (hB : B.Holds h b) (hC : C.Alloc h) (hsq : A.rows = A.cols)
    (hr : C.cols = A.cols) (hk : C.cols ≤ B.cols) (hc : C.rows ≤ B.rows) (hu : C.Unique)
    (hAC : Apart (A.toMat.CellOn (triRegion t d)) C.Cell) (hBC : Apart B.toMat.Cell C.Cell) :
    Ends (trmmRight B A t d C) h fun _ h' => C.Becomes h h' fun i j =>
      triElem t.flip d C.cols j (fun k => b i k * a k j) (b i j) := by
  have key : ∀ i j, i < C.rows → j < C.cols → ∀ h2, OnlyChanges C.Cell h h2 → ∀ h1,
      C.At h2 i j 0 h1 → Ends (do
        forEach (triRow t.flip d C.cols j) fun k => do
          let b ← B.get i k
          let a ← A.get k j
          C.addTo i j (b * a)
        if d = .explicit then pure () else do
          let b ← B.get i j
          C.addTo i j b) h1 (fun _ h' => C.At h2 i j
            (triElem t.flip d C.cols j (fun k => b i k * a k j) (b i j)) h') := by
    intro i j hi hj h2 hc2 h1 ha
    rw [ends_bind]
    refine (ha.loop (fun k => b i k * a k j) hi hj hc2 ?_).mono fun _ h3 ha3 => ?_
    · intro k hkl h' hc' Q q
      obtain ⟨hk', hreg⟩ := (mem_triRow hj).1 hkl
      rw [ends_bind, (hB.of_onlyChanges hBC hc').get_iff (by omega) (by omega) trivial, ends_bind,
        (hA.of_onlyChanges hAC hc').get_iff (by omega) (by omega) (triRegion_flip.1 hreg)]
      exact q
    · unfold triElem
      by_cases e : d = .explicit
      · simp only [if_pos e]
        exact ends_pure.2 ha3
      · simp only [if_neg e]
        rw [ends_bind, (hB.of_onlyChanges hBC (ha3.onlyChanges hi hj hc2)).get_iff
          (by omega) (by omega) trivial]
        exact ha3.addTo hi hj _
  unfold trmmRight
  cases t with
  | lower => exact elems_cols (fun _ _ => 0) _ h hC hu key
  | upper => exact elems_cols (fun _ _ => 0) _ h hC hu key

/-! ## What the folds are, in a ring -/

theorem foldl_add_finset [AddCommMonoid α] {ι : Type} [DecidableEq ι] (t : ι → α) (l : List ι)
    (hl : l.Nodup) : ∀ s, l.foldl (fun s j => s + t j) s = s + ∑ j ∈ l.toFinset, t j := by
  induction l with
  | nil => intro s; simp
  | cons i l ih =>
    intro s
    rw [List.nodup_cons] at hl
    rw [List.foldl_cons, ih hl.2, List.toFinset_cons, sum_insert (by simpa using hl.1), add_assoc]

/-- The terms of row `i` of the triangular matrix `(t, d)`. -/
theorem triElem_sum [AddCommMonoid α] {t : Triangle} {d : Diag} {n i : Nat} {term : Nat → α}
    {one : α} {w : Nat → α} (hi : i < n) (hin : ∀ k, k < n → triRegion t d i k → w k = term k)
    (hone : d = .implicitUnit → w i = one)
    (hout : ∀ k, k < n → i ≠ k → ¬ triRegion t d i k → w k = 0) :
    triElem t d n i term one = ∑ k ∈ range n, w k := by
  classical
  unfold triElem
  rw [foldl_add_finset _ _ triRow_nodup, zero_add]
  have e1 : ∑ k ∈ (triRow t d n i).toFinset, term k = ∑ k ∈ (triRow t d n i).toFinset, w k := by
    refine sum_congr rfl fun k hk => ?_
    obtain ⟨h1, h2⟩ := (mem_triRow hi).1 (List.mem_toFinset.1 hk)
    exact (hin k h1 h2).symm
  cases d with
  | explicit =>
    simp only [if_true]
    rw [e1]
    refine sum_subset ?_ ?_
    · intro k hk
      exact mem_range.2 ((mem_triRow hi).1 (List.mem_toFinset.1 hk)).1
    · intro k hk hn
      rw [List.mem_toFinset, mem_triRow hi] at hn
      have hk' := mem_range.1 hk
      have hnr : ¬ triRegion t .explicit i k := fun hr => hn ⟨hk', hr⟩
      refine hout k hk' ?_ hnr
      rintro rfl
      exact hnr ⟨by cases t <;> exact le_refl i, by simp⟩
  | implicitUnit =>
    simp only [reduceCtorEq, if_false]
    rw [e1, ← hone rfl, add_comm, ← sum_insert (s := (triRow t .implicitUnit n i).toFinset)]
    · refine sum_subset ?_ ?_
      · intro k hk
        rcases mem_insert.1 hk with rfl | hk
        · exact mem_range.2 hi
        · exact mem_range.2 ((mem_triRow hi).1 (List.mem_toFinset.1 hk)).1
      · intro k hk hn
        rw [mem_insert, List.mem_toFinset, mem_triRow hi] at hn
        have hk' := mem_range.1 hk
        exact hout k hk' (fun e => hn (Or.inl e.symm)) fun hr => hn (Or.inr ⟨hk', hr⟩)
    · rw [List.mem_toFinset, mem_triRow hi]
      rintro ⟨_, _, hne⟩
      exact hne rfl rfl

theorem triOf_mem [Zero α] [One α] {t : Triangle} {d : Diag} {a : Nat → Nat → α} {i j : Nat}
    (hr : triRegion t d i j) : triOf t d a i j = a i j := by
  unfold triOf
  by_cases e : i = j
  · subst e
    cases d with
    | explicit => rw [if_pos rfl]
    | implicitUnit => exact absurd rfl (hr.2 rfl)
  · rw [if_neg e, if_pos hr.1]

theorem triOf_not_mem [Zero α] [One α] {t : Triangle} {d : Diag} {a : Nat → Nat → α} {i j : Nat}
    (hne : i ≠ j) (hr : ¬ triRegion t d i j) : triOf t d a i j = 0 := by
  unfold triOf
  rw [if_neg hne, if_neg fun h => hr ⟨h, fun _ => hne⟩]

end StdBLAS

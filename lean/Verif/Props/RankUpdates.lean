import Verif.Lemmas.Rank
import Verif.Props.Witness
import Mathlib.Tactic.Ring

/-!
# Properties C25 - C30: rank updates
-/

namespace StdBLAS
open Finset Witness
variable {α : Type}

/-! ## C25 general rank-1 update -/

/-- **C25** `matrix_rank_1_update(x, y, A)`: `A(i,j) := A(i,j) + x(i) * y(j)`. -/
theorem C25_ger [Add α] [Mul α] (x y : VecV α) (A : Mat) (h : Heap α) (f g : Nat → α)
    (a : Nat → Nat → α) (hx : x.Holds h f) (hy : y.Holds h g) (hA : A.Holds h a)
    (hxe : A.rows ≤ x.ext) (hye : A.cols ≤ y.ext) (hu : A.Unique)
    (hxA : Apart x.toVec.Cell A.Cell) (hyA : Apart y.toVec.Cell A.Cell) :
    Ends (ger x y A) h fun _ h' => A.Becomes h h' fun i j => a i j + f i * g j := by
  unfold ger
  refine ends_mat_full_rows _ h hu rfl rfl fun i j hi hj h1 hc hold => ?_
  rw [ends_bind, (hx.of_onlyChanges hxA hc).get_iff (by omega), ends_bind,
    (hy.of_onlyChanges hyA hc).get_iff (by omega)]
  unfold Mat.addTo
  simp only [ends_bind, ends_mat_get, ends_mat_set]
  refine ⟨⟨hi, hj⟩, a i j, by rw [hold]; exact hA i j hi hj trivial, ⟨hi, hj⟩,
    ⟨a i j, by rw [hold]; exact hA i j hi hj trivial⟩, by simp, fun b hb => ?_⟩
  rw [Function.update_of_ne hb]

/-- 2×3 matrix -/
example : Ends (ger (⟨2, x.addr⟩ : Vec).view y.view W) (heap ℤ) fun _ h' =>
    W.Becomes (heap ℤ) h' fun i j => mvals ℤ W i j + vals ℤ x i * vals ℤ y j :=
  C25_ger _ _ _ _ _ _ _ (holdsV fun i hi => bx i (by simp only [x] at *; omega)) (holdsV by_)
    (mholds bW) le_rfl le_rfl (by view_facts) (by view_facts) (by view_facts)

/-- **C25** `matrix_rank_1_update_c(x, y, A)`: `A(i,j) := A(i,j) + x(i) * conj(y(j))`. -/
theorem C25_gerc [Add α] [Mul α] [ConjOps α] (x y : VecV α) (A : Mat) (h : Heap α)
    (f g : Nat → α) (a : Nat → Nat → α) (hx : x.Holds h f) (hy : y.Holds h g) (hA : A.Holds h a)
    (hxe : A.rows ≤ x.ext) (hye : A.cols ≤ y.ext) (hu : A.Unique)
    (hxA : Apart x.toVec.Cell A.Cell) (hyA : Apart y.toVec.Cell A.Cell) :
    Ends (gerc x y A) h fun _ h' =>
      A.Becomes h h' fun i j => a i j + f i * ConjOps.conj (g j) := by
  unfold gerc
  refine C25_ger x y.conjugated A h f _ a hx (fun i hi => ?_) hA hxe hye hu hxA hyA
  obtain ⟨v, hv, e⟩ := hy i hi
  exact ⟨v, hv, congrArg ConjOps.conj e⟩

example : Ends (gerc x.view y.view A) (heap ℂ) fun _ h' =>
    A.Becomes (heap ℂ) h' fun i j =>
      mvals ℂ A i j + vals ℂ x i * (starRingEnd ℂ) (vals ℂ y j) :=
  C25_gerc _ _ _ _ _ _ _ (holdsV bx) (holdsV by_) (mholds bA) le_rfl le_rfl
    (by view_facts) (by view_facts) (by view_facts)

/-! ## C26 symmetric and Hermitian rank-1 updates

Only the named triangle need be accessible; `BecomesOn h h' t.region` says that no cell
outside the triangle changes. -/

/-- **C26** `symmetric_matrix_rank_1_update(x, A, t)` -/
theorem C26_syr [Add α] [Mul α] (x : VecV α) (A : Mat) (t : Triangle) (h : Heap α)
    (f : Nat → α) (a : Nat → Nat → α) (hx : x.Holds h f) (hA : A.HoldsOn h t.region a)
    (hsq : A.rows = A.cols) (hxe : A.rows ≤ x.ext) (hu : A.UniqueOn t.region)
    (hxA : Apart x.toVec.Cell (A.CellOn t.region)) :
    Ends (syr x A t) h fun _ h' =>
      A.BecomesOn h h' t.region fun i j => a i j + f i * f j := by
  unfold syr
  refine (triangleLoop_ends (p := id) (q := fun i j s => s + f i * f j) hA hsq
    (fun j hj h1 w hb => pre_none hb) ?_).mono ?_
  · intro i j hi hj hr h1 w hb
    have hx1 := hx.of_onlyChanges hxA hb.2
    rw [ends_bind, hx1.get_iff (by omega), ends_bind, hx1.get_iff (by omega)]
    exact hb.addTo hu hi hj hr _
  · intro _ h' hb
    refine hb.congr fun i j _ _ _ => ?_
    simp only [id, ite_self]

/-- only the upper triangle of the matrix is accessible memory here -/
example : Ends (syr (x.view : VecV ℤ)
    ⟨3, 3, fun i j => if i ≤ j then 30 + i + 3 * j else 1000⟩ .upper) (heap ℤ) fun _ h' =>
    Mat.BecomesOn ⟨3, 3, fun i j => if i ≤ j then 30 + i + 3 * j else 1000⟩ (heap ℤ) h'
      Triangle.upper.region fun i j => mvals ℤ A i j + vals ℤ x i * vals ℤ x j :=
  C26_syr _ _ _ _ _ _ (holdsV bx)
    (fun i j hi hj hr => by
      have hr' : i ≤ j := hr
      simp only [hr', if_true] at *
      exact heap_lt (by omega)) rfl le_rfl
    (by intro i j k l hi hj hr hk hl hr' e
        have h1 : i ≤ j := hr
        have h2 : k ≤ l := hr'
        simp only [h1, h2, if_true] at *; omega)
    (by rintro b ⟨k, hk, e⟩ ⟨i, j, hi, hj, hr, e'⟩
        have hr' : i ≤ j := hr
        simp only [x, Vec.view, hr', if_true] at *; omega)

/-- **C26** `symmetric_matrix_rank_1_update(alpha, x, A, t)` -/
theorem C26_syrAlpha [Add α] [Mul α] (alpha : α) (x : VecV α) (A : Mat) (t : Triangle) (h : Heap α)
    (f : Nat → α) (a : Nat → Nat → α) (hx : x.Holds h f) (hA : A.HoldsOn h t.region a)
    (hsq : A.rows = A.cols) (hxe : A.rows ≤ x.ext) (hu : A.UniqueOn t.region)
    (hxA : Apart x.toVec.Cell (A.CellOn t.region)) :
    Ends (syrAlpha alpha x A t) h fun _ h' =>
      A.BecomesOn h h' t.region fun i j => a i j + alpha * f i * f j := by
  unfold syrAlpha
  refine (triangleLoop_ends (p := id) (q := fun i j s => s + alpha * f i * f j) hA hsq
    (fun j hj h1 w hb => pre_none hb) ?_).mono ?_
  · intro i j hi hj hr h1 w hb
    have hx1 := hx.of_onlyChanges hxA hb.2
    rw [ends_bind, hx1.get_iff (by omega), ends_bind, hx1.get_iff (by omega)]
    exact hb.addTo hu hi hj hr _
  · intro _ h' hb
    refine hb.congr fun i j _ _ _ => ?_
    simp only [id, ite_self]

example : Ends (syrAlpha 5 (x.view : VecV ℤ) B .lower) (heap ℤ) fun _ h' =>
    B.BecomesOn (heap ℤ) h' Triangle.lower.region fun i j =>
      mvals ℤ B i j + 5 * vals ℤ x i * vals ℤ x j :=
  C26_syrAlpha _ _ _ _ _ _ _ (holdsV bx) (mholds bB) rfl le_rfl (by view_facts) (by view_facts)

/-- **C26** `hermitian_matrix_rank_1_update(x, A, t)` -/
theorem C26_her [Add α] [Mul α] [ConjOps α] (x : VecV α) (A : Mat) (t : Triangle) (h : Heap α)
    (f : Nat → α) (a : Nat → Nat → α) (hx : x.Holds h f) (hA : A.HoldsOn h t.region a)
    (hsq : A.rows = A.cols) (hxe : A.rows ≤ x.ext) (hu : A.UniqueOn t.region)
    (hxA : Apart x.toVec.Cell (A.CellOn t.region)) :
    Ends (her x A t) h fun _ h' =>
      A.BecomesOn h h' t.region fun i j => (if i = j then ConjOps.re (a i i) else a i j) + f i * ConjOps.conj (f j) := by
  unfold her
  refine (triangleLoop_ends (p := ConjOps.re) (q := fun i j s => s + f i * ConjOps.conj (f j)) hA hsq
    (fun j hj h1 w hb => pre_real hu (by omega) hj hb) ?_).mono ?_
  · intro i j hi hj hr h1 w hb
    have hx1 := hx.of_onlyChanges hxA hb.2
    rw [ends_bind, hx1.get_iff (by omega), ends_bind, hx1.get_iff (by omega)]
    exact hb.addTo hu hi hj hr _
  · intro _ h' hb
    refine hb.congr fun i j _ _ _ => ?_
    by_cases e : i = j
    · subst e; simp only [if_true]
    · simp only [if_neg e]

example : Ends (her (x.view : VecV ℂ) B .lower) (heap ℂ) fun _ h' =>
    B.BecomesOn (heap ℂ) h' Triangle.lower.region fun i j =>
      (if i = j then ConjOps.re (mvals ℂ B i i) else mvals ℂ B i j) +
        vals ℂ x i * ConjOps.conj (vals ℂ x j) :=
  C26_her _ _ _ _ _ _ (holdsV bx) (mholds bB) rfl le_rfl (by view_facts) (by view_facts)

/-- **C26** `hermitian_matrix_rank_1_update(alpha, x, A, t)` -/
theorem C26_herAlpha [Add α] [Mul α] [ConjOps α] (alpha : α) (x : VecV α) (A : Mat) (t : Triangle) (h : Heap α)
    (f : Nat → α) (a : Nat → Nat → α) (hx : x.Holds h f) (hA : A.HoldsOn h t.region a)
    (hsq : A.rows = A.cols) (hxe : A.rows ≤ x.ext) (hu : A.UniqueOn t.region)
    (hxA : Apart x.toVec.Cell (A.CellOn t.region)) :
    Ends (herAlpha alpha x A t) h fun _ h' =>
      A.BecomesOn h h' t.region fun i j => (if i = j then ConjOps.re (a i i) else a i j) + alpha * f i * ConjOps.conj (f j) := by
  unfold herAlpha
  refine (triangleLoop_ends (p := ConjOps.re) (q := fun i j s => s + alpha * f i * ConjOps.conj (f j)) hA hsq
    (fun j hj h1 w hb => pre_real hu (by omega) hj hb) ?_).mono ?_
  · intro i j hi hj hr h1 w hb
    have hx1 := hx.of_onlyChanges hxA hb.2
    rw [ends_bind, hx1.get_iff (by omega), ends_bind, hx1.get_iff (by omega)]
    exact hb.addTo hu hi hj hr _
  · intro _ h' hb
    refine hb.congr fun i j _ _ _ => ?_
    by_cases e : i = j
    · subst e; simp only [if_true]
    · simp only [if_neg e]

example : Ends (herAlpha 5 (x.view : VecV ℂ) A .upper) (heap ℂ) fun _ h' =>
    A.BecomesOn (heap ℂ) h' Triangle.upper.region fun i j =>
      (if i = j then ConjOps.re (mvals ℂ A i i) else mvals ℂ A i j) +
        5 * vals ℂ x i * ConjOps.conj (vals ℂ x j) :=
  C26_herAlpha _ _ _ _ _ _ _ (holdsV bx) (mholds bA) rfl le_rfl (by view_facts) (by view_facts)

/-! ## C27 rank-2 updates -/

/-- **C27** `symmetric_matrix_rank_2_update(x, y, A, t)` -/
theorem C27_syr2 [Add α] [Mul α] (x y : VecV α) (A : Mat) (t : Triangle) (h : Heap α)
    (f g : Nat → α) (a : Nat → Nat → α) (hx : x.Holds h f) (hy : y.Holds h g)
    (hA : A.HoldsOn h t.region a) (hsq : A.rows = A.cols) (hxe : A.rows ≤ x.ext)
    (hye : A.rows ≤ y.ext) (hu : A.UniqueOn t.region)
    (hxA : Apart x.toVec.Cell (A.CellOn t.region))
    (hyA : Apart y.toVec.Cell (A.CellOn t.region)) :
    Ends (syr2 x y A t) h fun _ h' =>
      A.BecomesOn h h' t.region fun i j =>
        a i j + (f i * g j + g i * f j) := by
  unfold syr2
  refine (triangleLoop_ends (p := id)
    (q := fun i j s => s + (f i * g j + g i * f j)) hA hsq
    (fun j hj h1 w hb => pre_none hb) ?_).mono ?_
  · intro i j hi hj hr h1 w hb
    have hx1 := hx.of_onlyChanges hxA hb.2
    have hy1 := hy.of_onlyChanges hyA hb.2
    rw [ends_bind, hx1.get_iff (by omega), ends_bind, hy1.get_iff (by omega), ends_bind,
      hy1.get_iff (by omega), ends_bind, hx1.get_iff (by omega)]
    exact hb.addTo hu hi hj hr _
  · intro _ h' hb
    refine hb.congr fun i j _ _ _ => ?_
    simp only [id, ite_self]

example : Ends (syr2 (x.view : VecV ℤ) y.view B .lower) (heap ℤ) fun _ h' =>
    B.BecomesOn (heap ℤ) h' Triangle.lower.region fun i j =>
      mvals ℤ B i j + (vals ℤ x i * vals ℤ y j + vals ℤ y i * vals ℤ x j) :=
  C27_syr2 _ _ _ _ _ _ _ _ (holdsV bx) (holdsV by_) (mholds bB) rfl le_rfl le_rfl
    (by view_facts) (by view_facts) (by view_facts)

/-- **C27** `hermitian_matrix_rank_2_update(x, y, A, t)` -/
theorem C27_her2 [Add α] [Mul α] [ConjOps α] (x y : VecV α) (A : Mat) (t : Triangle) (h : Heap α)
    (f g : Nat → α) (a : Nat → Nat → α) (hx : x.Holds h f) (hy : y.Holds h g)
    (hA : A.HoldsOn h t.region a) (hsq : A.rows = A.cols) (hxe : A.rows ≤ x.ext)
    (hye : A.rows ≤ y.ext) (hu : A.UniqueOn t.region)
    (hxA : Apart x.toVec.Cell (A.CellOn t.region))
    (hyA : Apart y.toVec.Cell (A.CellOn t.region)) :
    Ends (her2 x y A t) h fun _ h' =>
      A.BecomesOn h h' t.region fun i j =>
        (if i = j then ConjOps.re (a i i) else a i j) + (f i * ConjOps.conj (g j) + g i * ConjOps.conj (f j)) := by
  unfold her2
  refine (triangleLoop_ends (p := ConjOps.re)
    (q := fun i j s => s + (f i * ConjOps.conj (g j) + g i * ConjOps.conj (f j))) hA hsq
    (fun j hj h1 w hb => pre_real hu (by omega) hj hb) ?_).mono ?_
  · intro i j hi hj hr h1 w hb
    have hx1 := hx.of_onlyChanges hxA hb.2
    have hy1 := hy.of_onlyChanges hyA hb.2
    rw [ends_bind, hx1.get_iff (by omega), ends_bind, hy1.get_iff (by omega), ends_bind,
      hy1.get_iff (by omega), ends_bind, hx1.get_iff (by omega)]
    exact hb.addTo hu hi hj hr _
  · intro _ h' hb
    refine hb.congr fun i j _ _ _ => ?_
    by_cases e : i = j
    · subst e; simp only [if_true]
    · simp only [if_neg e]

example : Ends (her2 (x.view : VecV ℂ) y.view A .upper) (heap ℂ) fun _ h' =>
    A.BecomesOn (heap ℂ) h' Triangle.upper.region fun i j =>
      (if i = j then ConjOps.re (mvals ℂ A i i) else mvals ℂ A i j) +
        (vals ℂ x i * ConjOps.conj (vals ℂ y j) + vals ℂ y i * ConjOps.conj (vals ℂ x j)) :=
  C27_her2 _ _ _ _ _ _ _ _ (holdsV bx) (holdsV by_) (mholds bA) rfl le_rfl le_rfl
    (by view_facts) (by view_facts) (by view_facts)

/-! ## C28 rank-k updates

The `_fold` lemmas give the exact order of additions, for arbitrary element operations. -/

theorem syrk_fold [Add α] [Mul α] (A : MatV α) (C : Mat) (t : Triangle) (h : Heap α)
    (a c : Nat → Nat → α) (hA : A.Holds h a) (hC : C.HoldsOn h t.region c)
    (hsq : C.rows = C.cols) (hAe : C.rows ≤ A.rows) (hu : C.UniqueOn t.region)
    (hAC : Apart A.toMat.Cell (C.CellOn t.region)) :
    Ends (syrk A C t) h fun _ h' => C.BecomesOn h h' t.region fun i j =>
      (List.range' 0 A.cols).foldl (fun s k => s + a i k * a j k)
        (c i j) := by
  unfold syrk
  refine (triangleLoop_ends (p := id) (q := fun i j s =>
      (List.range' 0 A.cols).foldl (fun s k => s + a i k * a j k) s) hC hsq
    (fun j hj h1 w hb => pre_none hb) ?_).mono ?_
  · intro i j hi hj hr h1 w hb
    refine addTo_loop hb fun k hk h1 w hb => ?_
    have hA1 := hA.of_onlyChanges hAC hb.2
    rw [ends_bind, hA1.get_iff (by omega) hk trivial, ends_bind,
      hA1.get_iff (by omega) hk trivial]
    exact hb.addTo hu hi hj hr _
  · intro _ h' hb
    refine hb.congr fun i j _ _ _ => ?_
    simp only [id, ite_self]

/-- **C28** `symmetric_matrix_rank_k_update(A, C, t)` -/
theorem C28_syrk [AddCommMonoid α] [Mul α] (A : MatV α) (C : Mat) (t : Triangle)
    (h : Heap α) (a c : Nat → Nat → α) (hA : A.Holds h a) (hC : C.HoldsOn h t.region c)
    (hsq : C.rows = C.cols) (hAe : C.rows ≤ A.rows) (hu : C.UniqueOn t.region)
    (hAC : Apart A.toMat.Cell (C.CellOn t.region)) :
    Ends (syrk A C t) h fun _ h' => C.BecomesOn h h' t.region fun i j =>
      c i j + ∑ k ∈ range A.cols, a i k * a j k := by
  refine (syrk_fold A C t h a c hA hC hsq hAe hu hAC).mono fun _ h' hb => ?_
  refine hb.congr fun i j _ _ _ => ?_
  exact foldl_add_eq_sum _ (fun k => a i k * a j k) _

example : Ends (syrk (T.view : MatV ℤ) C .lower) (heap ℤ) fun _ h' =>
    C.BecomesOn (heap ℤ) h' Triangle.lower.region fun i j =>
      mvals ℤ C i j +
        ∑ k ∈ range 2, mvals ℤ T i k * mvals ℤ T j k :=
  C28_syrk _ _ _ _ _ _ (mholdsV bT) (mholds bC) rfl le_rfl (by view_facts) (by view_facts)

theorem syrkAlpha_fold [Add α] [Mul α] (alpha : α) (A : MatV α) (C : Mat) (t : Triangle) (h : Heap α)
    (a c : Nat → Nat → α) (hA : A.Holds h a) (hC : C.HoldsOn h t.region c)
    (hsq : C.rows = C.cols) (hAe : C.rows ≤ A.rows) (hu : C.UniqueOn t.region)
    (hAC : Apart A.toMat.Cell (C.CellOn t.region)) :
    Ends (syrkAlpha alpha A C t) h fun _ h' => C.BecomesOn h h' t.region fun i j =>
      (List.range' 0 A.cols).foldl (fun s k => s + alpha * a i k * a j k)
        (c i j) := by
  unfold syrkAlpha
  refine (triangleLoop_ends (p := id) (q := fun i j s =>
      (List.range' 0 A.cols).foldl (fun s k => s + alpha * a i k * a j k) s) hC hsq
    (fun j hj h1 w hb => pre_none hb) ?_).mono ?_
  · intro i j hi hj hr h1 w hb
    refine addTo_loop hb fun k hk h1 w hb => ?_
    have hA1 := hA.of_onlyChanges hAC hb.2
    rw [ends_bind, hA1.get_iff (by omega) hk trivial, ends_bind,
      hA1.get_iff (by omega) hk trivial]
    exact hb.addTo hu hi hj hr _
  · intro _ h' hb
    refine hb.congr fun i j _ _ _ => ?_
    simp only [id, ite_self]

/-- **C28** `symmetric_matrix_rank_k_update(alpha, A, C, t)` -/
theorem C28_syrkAlpha [AddCommMonoid α] [Mul α] (alpha : α) (A : MatV α) (C : Mat) (t : Triangle)
    (h : Heap α) (a c : Nat → Nat → α) (hA : A.Holds h a) (hC : C.HoldsOn h t.region c)
    (hsq : C.rows = C.cols) (hAe : C.rows ≤ A.rows) (hu : C.UniqueOn t.region)
    (hAC : Apart A.toMat.Cell (C.CellOn t.region)) :
    Ends (syrkAlpha alpha A C t) h fun _ h' => C.BecomesOn h h' t.region fun i j =>
      c i j + ∑ k ∈ range A.cols, alpha * a i k * a j k := by
  refine (syrkAlpha_fold alpha A C t h a c hA hC hsq hAe hu hAC).mono fun _ h' hb => ?_
  refine hb.congr fun i j _ _ _ => ?_
  exact foldl_add_eq_sum _ (fun k => alpha * a i k * a j k) _

example : Ends (syrkAlpha 5 (T.view : MatV ℤ) B .upper) (heap ℤ) fun _ h' =>
    B.BecomesOn (heap ℤ) h' Triangle.upper.region fun i j =>
      mvals ℤ B i j +
        ∑ k ∈ range 2, 5 * mvals ℤ T i k * mvals ℤ T j k :=
  C28_syrkAlpha _ _ _ _ _ _ _ (mholdsV bT) (mholds bB) rfl le_rfl (by view_facts) (by view_facts)

theorem herk_fold [Add α] [Mul α] [ConjOps α] (A : MatV α) (C : Mat) (t : Triangle) (h : Heap α)
    (a c : Nat → Nat → α) (hA : A.Holds h a) (hC : C.HoldsOn h t.region c)
    (hsq : C.rows = C.cols) (hAe : C.rows ≤ A.rows) (hu : C.UniqueOn t.region)
    (hAC : Apart A.toMat.Cell (C.CellOn t.region)) :
    Ends (herk A C t) h fun _ h' => C.BecomesOn h h' t.region fun i j =>
      (List.range' 0 A.cols).foldl (fun s k => s + a i k * ConjOps.conj (a j k))
        (if i = j then ConjOps.re (c i i) else c i j) := by
  unfold herk
  refine (triangleLoop_ends (p := ConjOps.re) (q := fun i j s =>
      (List.range' 0 A.cols).foldl (fun s k => s + a i k * ConjOps.conj (a j k)) s) hC hsq
    (fun j hj h1 w hb => pre_real hu (by omega) hj hb) ?_).mono ?_
  · intro i j hi hj hr h1 w hb
    refine addTo_loop hb fun k hk h1 w hb => ?_
    have hA1 := hA.of_onlyChanges hAC hb.2
    rw [ends_bind, hA1.get_iff (by omega) hk trivial, ends_bind,
      hA1.get_iff (by omega) hk trivial]
    exact hb.addTo hu hi hj hr _
  · intro _ h' hb
    refine hb.congr fun i j _ _ _ => ?_
    by_cases e : i = j
    · subst e; simp only [if_true]
    · simp only [if_neg e]

/-- **C28** `hermitian_matrix_rank_k_update(A, C, t)` -/
theorem C28_herk [AddCommMonoid α] [Mul α] [ConjOps α] (A : MatV α) (C : Mat) (t : Triangle)
    (h : Heap α) (a c : Nat → Nat → α) (hA : A.Holds h a) (hC : C.HoldsOn h t.region c)
    (hsq : C.rows = C.cols) (hAe : C.rows ≤ A.rows) (hu : C.UniqueOn t.region)
    (hAC : Apart A.toMat.Cell (C.CellOn t.region)) :
    Ends (herk A C t) h fun _ h' => C.BecomesOn h h' t.region fun i j =>
      (if i = j then ConjOps.re (c i i) else c i j) + ∑ k ∈ range A.cols, a i k * ConjOps.conj (a j k) := by
  refine (herk_fold A C t h a c hA hC hsq hAe hu hAC).mono fun _ h' hb => ?_
  refine hb.congr fun i j _ _ _ => ?_
  exact foldl_add_eq_sum _ (fun k => a i k * ConjOps.conj (a j k)) _

example : Ends (herk (T.view : MatV ℂ) B .lower) (heap ℂ) fun _ h' =>
    B.BecomesOn (heap ℂ) h' Triangle.lower.region fun i j =>
      (if i = j then ConjOps.re (mvals ℂ B i i) else mvals ℂ B i j) +
        ∑ k ∈ range 2, mvals ℂ T i k * ConjOps.conj (mvals ℂ T j k) :=
  C28_herk _ _ _ _ _ _ (mholdsV bT) (mholds bB) rfl le_rfl (by view_facts) (by view_facts)

theorem herkAlpha_fold [Add α] [Mul α] [ConjOps α] (alpha : α) (A : MatV α) (C : Mat) (t : Triangle) (h : Heap α)
    (a c : Nat → Nat → α) (hA : A.Holds h a) (hC : C.HoldsOn h t.region c)
    (hsq : C.rows = C.cols) (hAe : C.rows ≤ A.rows) (hu : C.UniqueOn t.region)
    (hAC : Apart A.toMat.Cell (C.CellOn t.region)) :
    Ends (herkAlpha alpha A C t) h fun _ h' => C.BecomesOn h h' t.region fun i j =>
      (List.range' 0 A.cols).foldl (fun s k => s + alpha * a i k * ConjOps.conj (a j k))
        (if i = j then ConjOps.re (c i i) else c i j) := by
  unfold herkAlpha
  refine (triangleLoop_ends (p := ConjOps.re) (q := fun i j s =>
      (List.range' 0 A.cols).foldl (fun s k => s + alpha * a i k * ConjOps.conj (a j k)) s) hC hsq
    (fun j hj h1 w hb => pre_real hu (by omega) hj hb) ?_).mono ?_
  · intro i j hi hj hr h1 w hb
    refine addTo_loop hb fun k hk h1 w hb => ?_
    have hA1 := hA.of_onlyChanges hAC hb.2
    rw [ends_bind, hA1.get_iff (by omega) hk trivial, ends_bind,
      hA1.get_iff (by omega) hk trivial]
    exact hb.addTo hu hi hj hr _
  · intro _ h' hb
    refine hb.congr fun i j _ _ _ => ?_
    by_cases e : i = j
    · subst e; simp only [if_true]
    · simp only [if_neg e]

/-- **C28** `hermitian_matrix_rank_k_update(alpha, A, C, t)` -/
theorem C28_herkAlpha [AddCommMonoid α] [Mul α] [ConjOps α] (alpha : α) (A : MatV α) (C : Mat) (t : Triangle)
    (h : Heap α) (a c : Nat → Nat → α) (hA : A.Holds h a) (hC : C.HoldsOn h t.region c)
    (hsq : C.rows = C.cols) (hAe : C.rows ≤ A.rows) (hu : C.UniqueOn t.region)
    (hAC : Apart A.toMat.Cell (C.CellOn t.region)) :
    Ends (herkAlpha alpha A C t) h fun _ h' => C.BecomesOn h h' t.region fun i j =>
      (if i = j then ConjOps.re (c i i) else c i j) + ∑ k ∈ range A.cols, alpha * a i k * ConjOps.conj (a j k) := by
  refine (herkAlpha_fold alpha A C t h a c hA hC hsq hAe hu hAC).mono fun _ h' hb => ?_
  refine hb.congr fun i j _ _ _ => ?_
  exact foldl_add_eq_sum _ (fun k => alpha * a i k * ConjOps.conj (a j k)) _

example : Ends (herkAlpha 5 (T.view : MatV ℂ) C .upper) (heap ℂ) fun _ h' =>
    C.BecomesOn (heap ℂ) h' Triangle.upper.region fun i j =>
      (if i = j then ConjOps.re (mvals ℂ C i i) else mvals ℂ C i j) +
        ∑ k ∈ range 2, 5 * mvals ℂ T i k * ConjOps.conj (mvals ℂ T j k) :=
  C28_herkAlpha _ _ _ _ _ _ _ (mholdsV bT) (mholds bC) rfl le_rfl (by view_facts) (by view_facts)

/-! ## C29 rank-2k updates -/

theorem syr2k_fold [Add α] [Mul α] (A B : MatV α) (C : Mat) (t : Triangle) (h : Heap α)
    (a b c : Nat → Nat → α) (hA : A.Holds h a)
    (hB : B.Holds h b) (hC : C.HoldsOn h t.region c)
    (hsq : C.rows = C.cols) (hAe : C.rows ≤ A.rows) (hBe : C.rows ≤ B.rows) (hAB : A.cols ≤ B.cols) (hu : C.UniqueOn t.region)
    (hAC : Apart A.toMat.Cell (C.CellOn t.region))
    (hBC : Apart B.toMat.Cell (C.CellOn t.region)) :
    Ends (syr2k A B C t) h fun _ h' => C.BecomesOn h h' t.region fun i j =>
      (List.range' 0 A.cols).foldl (fun s k => s + (a i k * b j k + b i k * a j k))
        (c i j) := by
  unfold syr2k
  refine (triangleLoop_ends (p := id) (q := fun i j s =>
      (List.range' 0 A.cols).foldl (fun s k => s + (a i k * b j k + b i k * a j k)) s) hC hsq
    (fun j hj h1 w hb => pre_none hb) ?_).mono ?_
  · intro i j hi hj hr h1 w hb
    refine addTo_loop hb fun k hk h1 w hb => ?_
    have hA1 := hA.of_onlyChanges hAC hb.2
    have hB1 := hB.of_onlyChanges hBC hb.2
    rw [ends_bind, hA1.get_iff (by omega) hk trivial, ends_bind,
      hB1.get_iff (by omega) (by omega) trivial, ends_bind,
      hB1.get_iff (by omega) (by omega) trivial, ends_bind,
      hA1.get_iff (by omega) hk trivial]
    exact hb.addTo hu hi hj hr _
  · intro _ h' hb
    refine hb.congr fun i j _ _ _ => ?_
    simp only [id, ite_self]

/-- **C29** `symmetric_matrix_rank_2k_update(A, B, C, t)` -/
theorem C29_syr2k [AddCommMonoid α] [Mul α] (A B : MatV α) (C : Mat) (t : Triangle)
    (h : Heap α) (a b c : Nat → Nat → α) (hA : A.Holds h a)
    (hB : B.Holds h b) (hC : C.HoldsOn h t.region c)
    (hsq : C.rows = C.cols) (hAe : C.rows ≤ A.rows) (hBe : C.rows ≤ B.rows) (hAB : A.cols ≤ B.cols) (hu : C.UniqueOn t.region)
    (hAC : Apart A.toMat.Cell (C.CellOn t.region))
    (hBC : Apart B.toMat.Cell (C.CellOn t.region)) :
    Ends (syr2k A B C t) h fun _ h' => C.BecomesOn h h' t.region fun i j =>
      c i j + ∑ k ∈ range A.cols, (a i k * b j k + b i k * a j k) := by
  refine (syr2k_fold A B C t h a b c hA hB hC hsq hAe hBe hAB hu hAC hBC).mono fun _ h' hb => ?_
  refine hb.congr fun i j _ _ _ => ?_
  exact foldl_add_eq_sum _ (fun k => (a i k * b j k + b i k * a j k)) _

example : Ends (syr2k (T.view : MatV ℤ) E.view C .upper) (heap ℤ) fun _ h' =>
    C.BecomesOn (heap ℤ) h' Triangle.upper.region fun i j =>
      mvals ℤ C i j +
        ∑ k ∈ range 2, (mvals ℤ T i k * mvals ℤ E j k + mvals ℤ E i k * mvals ℤ T j k) :=
  C29_syr2k _ _ _ _ _ _ _ _ (mholdsV bT) (mholdsV bE) (mholds bC) rfl le_rfl le_rfl (by decide)
    (by view_facts) (by view_facts) (by view_facts)

theorem her2k_fold [Add α] [Mul α] [ConjOps α] (A B : MatV α) (C : Mat) (t : Triangle) (h : Heap α)
    (a b c : Nat → Nat → α) (hA : A.Holds h a)
    (hB : B.Holds h b) (hC : C.HoldsOn h t.region c)
    (hsq : C.rows = C.cols) (hAe : C.rows ≤ A.rows) (hBe : C.rows ≤ B.rows) (hAB : A.cols ≤ B.cols) (hu : C.UniqueOn t.region)
    (hAC : Apart A.toMat.Cell (C.CellOn t.region))
    (hBC : Apart B.toMat.Cell (C.CellOn t.region)) :
    Ends (her2k A B C t) h fun _ h' => C.BecomesOn h h' t.region fun i j =>
      (List.range' 0 A.cols).foldl (fun s k => s + (a i k * ConjOps.conj (b j k) + b i k * ConjOps.conj (a j k)))
        (if i = j then ConjOps.re (c i i) else c i j) := by
  unfold her2k
  refine (triangleLoop_ends (p := ConjOps.re) (q := fun i j s =>
      (List.range' 0 A.cols).foldl (fun s k => s + (a i k * ConjOps.conj (b j k) + b i k * ConjOps.conj (a j k))) s) hC hsq
    (fun j hj h1 w hb => pre_real hu (by omega) hj hb) ?_).mono ?_
  · intro i j hi hj hr h1 w hb
    refine addTo_loop hb fun k hk h1 w hb => ?_
    have hA1 := hA.of_onlyChanges hAC hb.2
    have hB1 := hB.of_onlyChanges hBC hb.2
    rw [ends_bind, hA1.get_iff (by omega) hk trivial, ends_bind,
      hB1.get_iff (by omega) (by omega) trivial, ends_bind,
      hB1.get_iff (by omega) (by omega) trivial, ends_bind,
      hA1.get_iff (by omega) hk trivial]
    exact hb.addTo hu hi hj hr _
  · intro _ h' hb
    refine hb.congr fun i j _ _ _ => ?_
    by_cases e : i = j
    · subst e; simp only [if_true]
    · simp only [if_neg e]

/-- **C29** `hermitian_matrix_rank_2k_update(A, B, C, t)` -/
theorem C29_her2k [AddCommMonoid α] [Mul α] [ConjOps α] (A B : MatV α) (C : Mat) (t : Triangle)
    (h : Heap α) (a b c : Nat → Nat → α) (hA : A.Holds h a)
    (hB : B.Holds h b) (hC : C.HoldsOn h t.region c)
    (hsq : C.rows = C.cols) (hAe : C.rows ≤ A.rows) (hBe : C.rows ≤ B.rows) (hAB : A.cols ≤ B.cols) (hu : C.UniqueOn t.region)
    (hAC : Apart A.toMat.Cell (C.CellOn t.region))
    (hBC : Apart B.toMat.Cell (C.CellOn t.region)) :
    Ends (her2k A B C t) h fun _ h' => C.BecomesOn h h' t.region fun i j =>
      (if i = j then ConjOps.re (c i i) else c i j) + ∑ k ∈ range A.cols, (a i k * ConjOps.conj (b j k) + b i k * ConjOps.conj (a j k)) := by
  refine (her2k_fold A B C t h a b c hA hB hC hsq hAe hBe hAB hu hAC hBC).mono fun _ h' hb => ?_
  refine hb.congr fun i j _ _ _ => ?_
  exact foldl_add_eq_sum _ (fun k => (a i k * ConjOps.conj (b j k) + b i k * ConjOps.conj (a j k))) _

example : Ends (her2k (T.view : MatV ℂ) E.view C .lower) (heap ℂ) fun _ h' =>
    C.BecomesOn (heap ℂ) h' Triangle.lower.region fun i j =>
      (if i = j then ConjOps.re (mvals ℂ C i i) else mvals ℂ C i j) +
        ∑ k ∈ range 2, (mvals ℂ T i k * ConjOps.conj (mvals ℂ E j k) + mvals ℂ E i k * ConjOps.conj (mvals ℂ T j k)) :=
  C29_her2k _ _ _ _ _ _ _ _ (mholdsV bT) (mholdsV bE) (mholds bC) rfl le_rfl le_rfl (by decide)
    (by view_facts) (by view_facts) (by view_facts)

end StdBLAS

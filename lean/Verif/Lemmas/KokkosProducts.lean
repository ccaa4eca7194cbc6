import Mathlib.Algebra.BigOperators.Intervals
import Verif.Lemmas.Kokkos
import Verif.Lemmas.Blas2
import Verif.Lemmas.Ordered
import Verif.Spec.KokkosOrder

/-! # Lemmas about the matrix products of the Kokkos backend -/

namespace StdBLAS
open Finset
variable {α : Type} {h g : Heap α} {P : Nat → Prop}

theorem Vec.Holds.safe_rd_aligned {y z : Vec} {f : Nat → α} (hy : y.Holds h f)
    (hal : y.Aligned z) {i : Nat} (hi : i < y.ext) {Q : α → Heap α → Prop} :
    (y.rd i).Safe (fun a => a = z.addr i ∨ ¬ z.Cell a) (fun a => a = z.addr i) h Q ↔
      Q (f i) h := by
  refine Vec.safe_rd hi ?_ (hy i hi)
  by_cases hc : z.Cell (y.addr i)
  · obtain ⟨k, hk, e⟩ := hc
    have : i = k := hal i k hi hk e.symm
    subst this
    exact Or.inl e.symm
  · exact Or.inr hc

theorem Mat.Holds.safe_rd_aligned {E C : Mat} {f : Nat → Nat → α} (hE : E.Holds h f)
    (hal : E.Aligned C) {i j : Nat} (hi : i < E.rows) (hj : j < E.cols)
    {Q : α → Heap α → Prop} :
    (E.rd i j).Safe (fun a => a = C.addr i j ∨ ¬ C.Cell a) (fun a => a = C.addr i j) h Q ↔
      Q (f i j) h := by
  refine Mat.safe_rd hi hj ?_ (hE i j hi hj trivial)
  by_cases hc : C.Cell (E.addr i j)
  · obtain ⟨k, l, hk, hl, -, e⟩ := hc
    obtain ⟨rfl, rfl⟩ := hal i j k l hi hj hk hl e.symm
    exact Or.inl e.symm
  · exact Or.inr hc

/-! ## Rows of symmetric and Hermitian matrices -/

open Classical in
/-- The matrix named by triangle `t`, the other triangle being its transpose under `c`. -/
noncomputable def mirror (c : α → α) (t : Triangle) (a : Nat → Nat → α) (i j : Nat) : α :=
  if t.region i j then a i j else c (a j i)

theorem mirror_id (t : Triangle) (a : Nat → Nat → α) : mirror id t a = symOf t a := rfl

theorem mirror_conj [ConjOps α] (t : Triangle) (a : Nat → Nat → α) (i j : Nat) :
    mirror ConjOps.conj t a i j = if i = j then a i i else hermOf t a i j := by
  unfold mirror hermOf
  by_cases e : i = j
  · subst e
    rw [if_pos (by cases t <;> exact le_refl i), if_pos rfl]
  · rw [if_neg e, if_neg e]

theorem kkSymSeq_sum [AddCommMonoid α] [Mul α] (c : α → α) (t : Triangle) (n : Nat)
    (a : Nat → Nat → α) (f : Nat → α) {i : Nat} (hi : i < n) :
    kkSymSeq c t n a f i = mulVec n (mirror c t a) f i := by
  unfold mulVec
  cases t with
  | upper =>
    simp only [kkSymSeq]
    rw [← foldl_range'_leftSum 0 i (n - i) fun j => a i j * f j,
      ← foldl_up_leftSum, foldl_range'_sum, foldl_range'_sum, zero_add,
      range_eq_Ico, ← sum_Ico_consecutive _ (Nat.zero_le i) (by omega : i ≤ n), add_comm]
    congr 1
    · refine sum_congr (by congr 1; omega) fun j hj => ?_
      rw [mem_Ico] at hj
      unfold mirror
      rw [if_neg (by simp only [Triangle.region]; omega)]
    · refine sum_congr (by congr 1; omega) fun j hj => ?_
      rw [mem_Ico] at hj
      unfold mirror
      rw [if_pos (by simp only [Triangle.region]; omega)]
  | lower =>
    simp only [kkSymSeq]
    rw [← foldl_range'_leftSum _ (i + 1) (n - (i + 1)) fun j => c (a j i) * f j,
      ← foldl_up_leftSum, foldl_range'_sum, foldl_range'_sum, zero_add,
      range_eq_Ico, ← sum_Ico_consecutive _ (Nat.zero_le (i + 1)) (by omega : i + 1 ≤ n)]
    congr 1
    · refine sum_congr (by congr 1; omega) fun j hj => ?_
      rw [mem_Ico] at hj
      unfold mirror
      rw [if_pos (by simp only [Triangle.region]; omega)]
    · refine sum_congr (by congr 1; omega) fun j hj => ?_
      rw [mem_Ico] at hj
      unfold mirror
      rw [if_neg (by simp only [Triangle.region]; omega)]

theorem kkSymRow_seq [Add α] [Zero α] [Mul α] {A : Mat} {t : Triangle} {x : Vec}
    {a : Nat → Nat → α} {f : Nat → α} (c : α → α) (hA : A.HoldsOn h t.region a)
    (hx : x.Holds h f) (hsq : A.rows = A.cols) (hxe : A.cols = x.ext)
    (hAP : Apart (A.CellOn t.region) P) (hxP : Apart x.Cell P) {i c0 : Nat} (hi : i < A.rows) :
    (kkSymRow c A t x i).Safe (fun a => a = c0 ∨ ¬ P a) (fun a => a = c0) h
      (fun s g => s = kkSymSeq c t A.cols a f i ∧ g = h) := by
  have nc : OnlyChanges P h h := fun _ _ => rfl
  unfold kkSymRow
  cases t with
  | upper =>
    refine Task.safe_bind.2 ((Task.safe_foldUp (fun s j => s + a i j * f j) ?_).post ?_)
    · intro j h1 h2 s
      rw [Task.safe_bind, hA.safe_rd hAP nc hi h2 h1, Task.safe_bind,
        hx.safe_rd hxP nc (by omega), Task.safe_pure]
      exact ⟨rfl, rfl⟩
    · rintro s g ⟨rfl, rfl⟩
      refine (Task.safe_foldUp (fun s j => s + c (a j i) * f j) ?_).post ?_
      · intro j h1 h2 s
        rw [Task.safe_bind, hA.safe_rd hAP nc (by omega) (by omega) h2.le, Task.safe_bind,
          hx.safe_rd hxP nc (by omega), Task.safe_pure]
        exact ⟨rfl, rfl⟩
      · rintro s g ⟨rfl, rfl⟩
        refine ⟨?_, rfl⟩
        rw [Nat.sub_zero, foldl_up_leftSum, foldl_range'_leftSum]
        rfl
  | lower =>
    refine Task.safe_bind.2 ((Task.safe_foldUp (fun s j => s + a i j * f j) ?_).post ?_)
    · intro j h1 h2 s
      rw [Task.safe_bind, hA.safe_rd hAP nc hi (by omega) (Nat.le_of_lt_succ h2), Task.safe_bind,
        hx.safe_rd hxP nc (by omega), Task.safe_pure]
      exact ⟨rfl, rfl⟩
    · rintro s g ⟨rfl, rfl⟩
      refine (Task.safe_foldUp (fun s j => s + c (a j i) * f j) ?_).post ?_
      · intro j h1 h2 s
        rw [Task.safe_bind, hA.safe_rd hAP nc (by omega) (by omega)
          (by simp only [Triangle.region]; omega), Task.safe_bind,
          hx.safe_rd hxP nc (by omega), Task.safe_pure]
        exact ⟨rfl, rfl⟩
      · rintro s g ⟨rfl, rfl⟩
        refine ⟨?_, rfl⟩
        rw [foldl_range'_leftSum, Nat.sub_zero, foldl_up_leftSum]
        rfl

theorem kkSymRow_safe [AddCommMonoid α] [Mul α] {A : Mat} {t : Triangle} {x : Vec}
    {a : Nat → Nat → α} {f : Nat → α} (c : α → α) (hA : A.HoldsOn h t.region a)
    (hx : x.Holds h f) (hsq : A.rows = A.cols) (hxe : A.cols = x.ext)
    (hAP : Apart (A.CellOn t.region) P) (hxP : Apart x.Cell P) {i c0 : Nat} (hi : i < A.rows) :
    (kkSymRow c A t x i).Safe (fun a => a = c0 ∨ ¬ P a) (fun a => a = c0) h
      (fun s g => s = mulVec A.cols (mirror c t a) f i ∧ g = h) := by
  rw [← kkSymSeq_sum c t A.cols a f (hsq ▸ hi)]
  exact kkSymRow_seq c hA hx hsq hxe hAP hxP hi

/-! ## Triangular sums -/

/-- first index of row `i` of the triangle, without an implicit diagonal -/
def triLo (t : Triangle) (d : Diag) (i : Nat) : Nat :=
  if t = .lower then 0 else (if d = .explicit then i else i + 1)

/-- end of row `i` of the triangle, without an implicit diagonal -/
def triHi (t : Triangle) (d : Diag) (i n : Nat) : Nat :=
  if t = .lower then (if d = .explicit then i + 1 else i) else n

theorem tri_row_sum [NonAssocSemiring α] (t : Triangle) (d : Diag) (a : Nat → Nat → α)
    (f : Nat → α) {i n : Nat} (hi : i < n) :
    (List.range' (triLo t d i) (triHi t d i n - triLo t d i)).foldl
        (fun s k => s + a i k * f k) 0 + (if d = .implicitUnit then f i else 0) =
      ∑ k ∈ range n, triOf t d a i k * f k := by
  rw [foldl_range'_sum, zero_add]
  have e1 : (if d = .implicitUnit then f i else 0) =
      ∑ k ∈ range n, if k = i then (if d = .implicitUnit then f k else 0) else 0 := by
    rw [sum_ite_eq' (range n) i, if_pos (mem_range.2 hi)]
  have e2 : Ico (triLo t d i) (triLo t d i + (triHi t d i n - triLo t d i)) =
      Ico (triLo t d i) (triHi t d i n) := by
    ext k; simp only [mem_Ico]; omega
  rw [e1, e2, sum_Ico_ite (n := n) (by
    unfold triHi; cases t <;> cases d <;> simp <;> omega), ← sum_add_distrib]
  refine sum_congr rfl fun k hk => ?_
  rw [mem_range] at hk
  by_cases e : k = i
  · subst e
    unfold triOf triLo triHi
    cases t <;> cases d <;> simp [hk]
  · have e' : i ≠ k := fun h => e h.symm
    rw [if_neg e, add_zero]
    unfold triLo triHi
    by_cases q : t.region i k
    · rw [triOf_off e' q, if_pos]
      cases t <;> cases d <;> simp only [Triangle.region] at q <;> simp <;> omega
    · rw [triOf_out q, if_neg, zero_mul]
      cases t <;> cases d <;> simp only [Triangle.region] at q <;> simp <;> omega

theorem tri_col_sum [NonAssocSemiring α] (t : Triangle) (d : Diag) (a : Nat → Nat → α)
    (f : Nat → α) {j n lo hi : Nat} (hj : j < n)
    (hlo : lo = if t = .lower then (if d = .explicit then j else j + 1) else 0)
    (hhi : hi = if t = .lower then n else (if d = .explicit then j + 1 else j)) :
    (List.range' lo (hi - lo)).foldl
        (fun s k => s + f k * a k j) 0 + (if d = .implicitUnit then f j else 0) =
      ∑ k ∈ range n, f k * triOf t d a k j := by
  rw [foldl_range'_sum, zero_add]
  have e1 : (if d = .implicitUnit then f j else 0) =
      ∑ k ∈ range n, if k = j then (if d = .implicitUnit then f k else 0) else 0 := by
    rw [sum_ite_eq' (range n) j, if_pos (mem_range.2 hj)]
  have e2 : Ico lo (lo + (hi - lo)) = Ico lo hi := by
    ext k; simp only [mem_Ico]; omega
  rw [e1, e2, sum_Ico_ite (n := n) (by
    rw [hhi]; cases t <;> cases d <;> simp <;> omega), ← sum_add_distrib]
  refine sum_congr rfl fun k hk => ?_
  rw [mem_range] at hk
  rw [hlo, hhi]
  by_cases e : k = j
  · subst e
    unfold triOf
    cases t <;> cases d <;> simp [hk]
  · rw [if_neg e, add_zero]
    by_cases q : t.region k j
    · rw [triOf_off e q, if_pos]
      cases t <;> cases d <;> simp only [Triangle.region] at q <;> simp <;> omega
    · rw [triOf_out q, if_neg, mul_zero]
      cases t <;> cases d <;> simp only [Triangle.region] at q <;> simp <;> omega

theorem kkTriSeq_fold [Add α] [Zero α] (t : Triangle) (d : Diag) (n i : Nat) (term : Nat → α)
    (unit : α) : kkTriSeq t d n i term unit =
      if d = .implicitUnit then
        (List.range' (triLo t d i) (triHi t d i n - triLo t d i)).foldl
          (fun s k => s + term k) 0 + unit
      else (List.range' (triLo t d i) (triHi t d i n - triLo t d i)).foldl
          (fun s k => s + term k) 0 := by
  cases t <;> cases d <;> simp [kkTriSeq, triLo, triHi, foldl_range'_leftSum]

theorem kkTriSeq_sum [NonAssocSemiring α] (t : Triangle) (d : Diag) (a : Nat → Nat → α)
    (f : Nat → α) {i n : Nat} (hi : i < n) :
    kkTriSeq t d n i (fun k => a i k * f k) (f i) = ∑ k ∈ range n, triOf t d a i k * f k := by
  rw [kkTriSeq_fold, ← tri_row_sum t d a f hi]
  split
  · rfl
  · rw [add_zero]

theorem kkTriSeq_sum_col [NonAssocSemiring α] (t : Triangle) (d : Diag) (a : Nat → Nat → α)
    (f : Nat → α) {j n : Nat} (hj : j < n) :
    kkTriSeq t.other d n j (fun k => f k * a k j) (f j) =
      ∑ k ∈ range n, f k * triOf t d a k j := by
  rw [kkTriSeq_fold, ← tri_col_sum t d a f hj (lo := triLo t.other d j)
    (hi := triHi t.other d j n) (by cases t <;> rfl) (by cases t <;> rfl)]
  split
  · rfl
  · rw [add_zero]

theorem kkTriRow_seq [Add α] [Zero α] [Mul α] {A : Mat} {t : Triangle} {d : Diag} {x : Vec}
    {a : Nat → Nat → α} {f : Nat → α} (hA : A.HoldsOn h (triRegion t d) a)
    (hx : x.Holds h f) (hsq : A.rows = A.cols) (hxe : A.cols = x.ext)
    (hAP : Apart (A.CellOn (triRegion t d)) P) (hxP : Apart x.Cell P) {i c0 : Nat}
    (hi : i < A.rows) :
    (kkTriRow A t d x i).Safe (fun a => a = c0 ∨ ¬ P a) (fun a => a = c0) h
      (fun s g => s = kkTriSeq t d A.cols i (fun k => a i k * f k) (f i) ∧ g = h) := by
  have nc : OnlyChanges P h h := fun _ _ => rfl
  have fin : ∀ s, s = (List.range' (triLo t d i) (triHi t d i A.cols - triLo t d i)).foldl
        (fun s k => s + a i k * f k) 0 →
      Task.Safe (fun a => a = c0 ∨ ¬ P a) (fun a => a = c0)
        (if d = .implicitUnit then do
            let xi ← x.rd i
            pure (s + xi)
          else pure s) h
        (fun s g => s = kkTriSeq t d A.cols i (fun k => a i k * f k) (f i) ∧ g = h) := by
    rintro s rfl
    rw [kkTriSeq_fold]
    split
    · next e =>
      rw [Task.safe_bind, hx.safe_rd hxP nc (by omega), Task.safe_pure]
      exact ⟨rfl, rfl⟩
    · next e =>
      rw [Task.safe_pure]
      exact ⟨rfl, rfl⟩
  unfold kkTriRow
  cases t with
  | upper =>
    refine Task.safe_bind.2 ((Task.safe_foldUp (fun s j => s + a i j * f j) ?_).post ?_)
    · intro j h1 h2 s
      have hr : triRegion .upper d i j := by
        constructor
        · simp only [Triangle.region]
          split_ifs at h1 <;> omega
        · intro e
          rw [if_pos e] at h1
          omega
      rw [Task.safe_bind, hA.safe_rd hAP nc hi h2 hr, Task.safe_bind,
        hx.safe_rd hxP nc (by omega), Task.safe_pure]
      exact ⟨rfl, rfl⟩
    · rintro s g ⟨hs, rfl⟩
      refine fin s ?_
      rw [hs]
      cases d <;> rfl
  | lower =>
    refine Task.safe_bind.2 ((Task.safe_foldUp (fun s j => s + a i j * f j) ?_).post ?_)
    · intro j h1 h2 s
      have hr : triRegion .lower d i j := by
        constructor
        · simp only [Triangle.region]
          split_ifs at h2 <;> omega
        · intro e
          rw [if_pos e] at h2
          omega
      have hj : j < A.cols := by have := hr.1; simp only [Triangle.region] at this; omega
      rw [Task.safe_bind, hA.safe_rd hAP nc hi hj hr, Task.safe_bind,
        hx.safe_rd hxP nc (by omega), Task.safe_pure]
      exact ⟨rfl, rfl⟩
    · rintro s g ⟨hs, rfl⟩
      refine fin s ?_
      rw [hs]
      cases d <;> rfl

theorem kkTriRow_safe [NonAssocSemiring α] {A : Mat} {t : Triangle} {d : Diag} {x : Vec}
    {a : Nat → Nat → α} {f : Nat → α} (hA : A.HoldsOn h (triRegion t d) a)
    (hx : x.Holds h f) (hsq : A.rows = A.cols) (hxe : A.cols = x.ext)
    (hAP : Apart (A.CellOn (triRegion t d)) P) (hxP : Apart x.Cell P) {i c0 : Nat}
    (hi : i < A.rows) :
    (kkTriRow A t d x i).Safe (fun a => a = c0 ∨ ¬ P a) (fun a => a = c0) h
      (fun s g => s = mulVec A.cols (triOf t d a) f i ∧ g = h) := by
  unfold mulVec
  rw [← kkTriSeq_sum t d a f (hsq ▸ hi)]
  exact kkTriRow_seq hA hx hsq hxe hAP hxP hi

/-! ## product_impl -/

theorem kkProduct_seq [Add α] {A C : KMat} {init : Nat → Nat → Task α α}
    {term : Nat → Nat → Nat → Task α α} (e : Nat → Nat → α) (w : Nat → Nat → Nat → α)
    (hAt : A.transposed = false) (hCt : C.transposed = false) (hC : C.toMat.Alloc h)
    (hu : C.toMat.Unique)
    (hinit : ∀ i j, i < C.rows → j < C.cols → (init i j).Safe
      (fun a => a = C.addr i j ∨ ¬ C.toMat.Cell a) (fun a => a = C.addr i j) h
      (fun v g => v = e i j ∧ g = h))
    (hterm : ∀ i j k, i < C.rows → j < C.cols → k < A.cols → ∀ g,
      OnlyChanges C.toMat.Cell h g → (term i j k).Safe
        (fun a => a = C.addr i j ∨ ¬ C.toMat.Cell a) (fun a => a = C.addr i j) g
        (fun v g' => v = w i j k ∧ g' = g)) :
    Surely (kkProduct A C init term) h fun _ h' =>
      C.toMat.Becomes h h' fun i j => leftSum (e i j) A.cols (w i j) := by
  unfold kkProduct
  rw [KMat.view_eq hAt, KMat.view_eq hCt]
  refine visit_full _ hu fun i j hi hj => ?_
  refine Task.safe_bind.2 ((hinit i j hi hj).post ?_)
  rintro v g ⟨rfl, rfl⟩
  obtain ⟨c0, hc0⟩ := hC i j hi hj trivial
  rw [Task.safe_bind, Mat.safe_wr_own hi hj hc0]
  refine (Task.safe_forEach_acc (C.addr i j) (fun s k => s + w i j k) fun k hk s => ?_).post ?_
  · have hk := (mem_up.1 hk).2
    refine Task.safe_bind.2 ((hterm i j k hi hj hk _ (onlyChanges_update ⟨i, j, hi, hj, trivial, rfl⟩)).post ?_)
    rintro v g' ⟨rfl, rfl⟩
    rw [Mat.safe_incr hi hj (Function.update_self ..)]
    simp
  · rintro _ g' rfl
    rw [Function.update_self, Nat.sub_zero, foldl_up_leftSum]

theorem kkProduct_surely [AddCommMonoid α] {A C : KMat} {init : Nat → Nat → Task α α}
    {term : Nat → Nat → Nat → Task α α} (e : Nat → Nat → α) (w : Nat → Nat → Nat → α)
    (hAt : A.transposed = false) (hCt : C.transposed = false) (hC : C.toMat.Alloc h)
    (hu : C.toMat.Unique)
    (hinit : ∀ i j, i < C.rows → j < C.cols → (init i j).Safe
      (fun a => a = C.addr i j ∨ ¬ C.toMat.Cell a) (fun a => a = C.addr i j) h
      (fun v g => v = e i j ∧ g = h))
    (hterm : ∀ i j k, i < C.rows → j < C.cols → k < A.cols → ∀ g,
      OnlyChanges C.toMat.Cell h g → (term i j k).Safe
        (fun a => a = C.addr i j ∨ ¬ C.toMat.Cell a) (fun a => a = C.addr i j) g
        (fun v g' => v = w i j k ∧ g' = g)) :
    Surely (kkProduct A C init term) h fun _ h' =>
      C.toMat.Becomes h h' fun i j => e i j + ∑ k ∈ range A.cols, w i j k := by
  refine (kkProduct_seq e w hAt hCt hC hu hinit hterm).mono fun _ h' hb => ?_
  refine hb.congr fun i j _ _ _ => ?_
  rw [← foldl_up_leftSum, foldl_range'_sum, Nat.zero_add, ← range_eq_Ico]

open Classical in
/-- The matrix that the products read: the other triangle and the diagonal through `c`. -/
noncomputable def flipped (c : α → α) (t : Triangle) (a : Nat → Nat → α) (i j : Nat) : α :=
  if t.region j i then c (a j i) else a i j

theorem flipped_id (t : Triangle) (a : Nat → Nat → α) (i j : Nat) :
    flipped id t a i j = symOf t a i j := by
  unfold flipped symOf
  by_cases e : i = j
  · subst e; simp
  · have : t.region j i ↔ ¬ t.region i j := by
      cases t <;> simp only [Triangle.region] <;> omega
    by_cases q : t.region i j
    · rw [if_neg (by rw [this]; exact not_not.2 q), if_pos q]
    · rw [if_pos (this.2 q), if_neg q, id]

theorem flipped_conj [ConjOps α] (t : Triangle) (a : Nat → Nat → α) (i j : Nat) :
    flipped ConjOps.conj t a i j = if i = j then ConjOps.conj (a i i) else hermOf t a i j := by
  unfold flipped hermOf
  by_cases e : i = j
  · subst e
    rw [if_pos (by cases t <;> exact le_refl i), if_pos rfl]
  · rw [if_neg e, if_neg e]
    have : t.region j i ↔ ¬ t.region i j := by
      cases t <;> simp only [Triangle.region] <;> omega
    by_cases q : t.region i j
    · rw [if_neg (by rw [this]; exact not_not.2 q), if_pos q]
    · rw [if_pos (this.2 q), if_neg q]

theorem kkLeftTerm_safe [Mul α] {A B : KMat} {t : Triangle} {a b : Nat → Nat → α} (c : α → α)
    (hA : A.toMat.HoldsOn h t.region a) (hB : B.toMat.Holds h b)
    (hAt : A.transposed = false) (hBt : B.transposed = false)
    (hAP : Apart (A.toMat.CellOn t.region) P) (hBP : Apart B.toMat.Cell P)
    (hsq : A.rows = A.cols) (hk : A.cols = B.rows) {i j k c0 : Nat}
    (hi : i < A.rows) (hj : j < B.cols) (hk' : k < A.cols) (hg : OnlyChanges P h g) :
    (kkLeftTerm c t A B i j k).Safe (fun a => a = c0 ∨ ¬ P a) (fun a => a = c0) g
      (fun v g' => v = flipped c t a i k * b k j ∧ g' = g) := by
  unfold kkLeftTerm
  rw [KMat.view_eq hAt, KMat.view_eq hBt]
  have hkr : k < A.rows := by omega
  have hic : i < A.cols := by omega
  have hkb : k < B.rows := by omega
  unfold flipped
  by_cases q : t.region k i
  · simp only [if_pos q]
    rw [if_pos (by cases t <;> simpa [Triangle.region] using q), Task.safe_bind, hA.safe_rd hAP hg hkr hic q, Task.safe_bind, Task.safe_pure,
      Task.safe_bind, hB.safe_rd hBP hg hkb hj trivial, Task.safe_pure]
    exact ⟨rfl, rfl⟩
  · have q' : t.region i k := by
      revert q; cases t <;> simp only [Triangle.region] <;> omega
    simp only [if_neg q]
    rw [if_neg (by cases t <;> simpa [Triangle.region] using q), Task.safe_bind, hA.safe_rd hAP hg hi hk' q', Task.safe_bind,
      hB.safe_rd hBP hg hkb hj trivial, Task.safe_pure]
    exact ⟨rfl, rfl⟩

theorem kkRightTerm_safe [Mul α] {A B : KMat} {t : Triangle} {a b : Nat → Nat → α} (c : α → α)
    (hA : A.toMat.HoldsOn h t.region a) (hB : B.toMat.Holds h b)
    (hAt : A.transposed = false)
    (hAP : Apart (A.toMat.CellOn t.region) P) (hBP : Apart B.toMat.Cell P)
    (hsq : A.rows = A.cols) (hk : B.cols = A.rows) {i j k c0 : Nat}
    (hi : i < B.rows) (hj : j < A.cols) (hk' : k < A.cols) (hg : OnlyChanges P h g) :
    (kkRightTerm c t A B i j k).Safe (fun a => a = c0 ∨ ¬ P a) (fun a => a = c0) g
      (fun v g' => v = b i k * flipped c t a k j ∧ g' = g) := by
  unfold kkRightTerm
  rw [KMat.view_eq hAt]
  have hkr : k < A.rows := by omega
  have hjr : j < A.rows := by omega
  have hkb : k < B.cols := by omega
  unfold flipped
  by_cases q : t.region j k
  · simp only [if_pos q]
    rw [if_pos (by cases t <;> simpa [Triangle.region] using q), Task.safe_bind, hA.safe_rd hAP hg hjr hk' q, Task.safe_bind, Task.safe_pure,
      Task.safe_bind, hB.safe_rd hBP hg hi hkb trivial, Task.safe_pure]
    exact ⟨rfl, rfl⟩
  · have q' : t.region k j := by
      revert q; cases t <;> simp only [Triangle.region] <;> omega
    simp only [if_neg q]
    rw [if_neg (by cases t <;> simpa [Triangle.region] using q), Task.safe_bind, hA.safe_rd hAP hg hkr hj q', Task.safe_bind,
      hB.safe_rd hBP hg hi hkb trivial, Task.safe_pure]
    exact ⟨rfl, rfl⟩

/-! ## Triangular products -/

theorem surely_forEach_range {n : Nat} {body : Nat → Sched α Unit} (I : Nat → Heap α → Prop)
    (hbody : ∀ k, k < n → ∀ h, I k h → Surely (body k) h (fun _ h' => I (k + 1) h'))
    (h0 : I 0 h) : Surely (Sched.forEach (List.range n) body) h (fun _ h' => I n h') := by
  rw [List.range_eq_range']
  suffices H : ∀ m lo h, lo + m = n → I lo h →
      Surely (Sched.forEach (List.range' lo m) body) h (fun _ h' => I n h') from
    H n 0 h (by omega) h0
  intro m
  induction m with
  | zero => intro lo h e hi; subst e; exact surely_pure.2 hi
  | succ m ih =>
    intro lo h e hi
    rw [List.range'_succ]
    exact surely_bind ((hbody lo (by omega) h hi).mono fun _ h' r => ih (lo + 1) h' (by omega) r)

theorem kkTrmmLeft_seq [Add α] [Zero α] [Mul α] {t : Triangle} {d : Diag} {A B C : Mat}
    {a b c : Nat → Nat → α} (hA : A.HoldsOn h (triRegion t d) a)
    (hAP : Apart (A.CellOn (triRegion t d)) C.Cell) (hC : C.Holds h c) (hu : C.Unique)
    (hAr : A.rows = C.rows) (hAc : A.cols = C.rows)
    (hB : ∀ i, i < C.rows → ∀ g, OnlyChanges C.Cell h g →
      (∀ k j, k < C.rows → j < C.cols → t.region i k → g (C.addr k j) = some (c k j)) →
      ∀ k j, k < C.rows → j < C.cols → t.region i k → ∀ Q,
        (B.rd k j).Safe (fun a => a = C.addr i j ∨ ¬ (⟨C.cols, C.addr i⟩ : Vec).Cell a)
          (fun a => a = C.addr i j) g Q ↔ Q (b k j) g) :
    Surely (kkTrmmLeftViews t d A B C) h fun _ h' =>
      C.Becomes h h' fun i j => kkTriSeq t d C.rows i (fun k => a i k * b k j) (b i j) := by
  unfold kkTrmmLeftViews
  let don : Nat → Nat → Prop := fun s i => if t = .lower then C.rows ≤ i + s else i < s
  have dd : ∀ s i, Decidable (don s i) := fun s i => by unfold don; infer_instance
  let res : Nat → Nat → α := fun i j => kkTriSeq t d C.rows i (fun k => a i k * b k j) (b i j)
  refine (surely_forEach_range (fun s g => C.Becomes h g fun i j =>
    if don s i then res i j else c i j) ?_ ?_).mono ?_
  · intro s hs g hb
    set i := if t = .lower then C.rows - 1 - s else s with hi
    have hin : i < C.rows := by rw [hi]; split <;> omega
    have later : ∀ k, k < C.rows → t.region i k → ¬ don s k := by
      intro k hk hr
      revert hr
      simp only [hi, don]
      cases t <;> simp only [Triangle.region] <;> simp
      omega
    have hun : ∀ k j, k < C.rows → j < C.cols → t.region i k → g (C.addr k j) = some (c k j) := by
      intro k j hk hj hr
      rw [hb.1 k j hk hj trivial]
      beta_reduce
      rw [if_neg (later k hk hr)]
    have rdB := hB i hin g hb.2 hun
    have rdA : ∀ k j, k < C.rows → triRegion t d i k → ∀ Q,
        (A.rd i k).Safe (fun a => a = C.addr i j ∨ ¬ (⟨C.cols, C.addr i⟩ : Vec).Cell a)
          (fun a => a = C.addr i j) g Q ↔ Q (a i k) g := by
      intro k j hk hr Q
      have hnc : ¬ C.Cell (A.addr i k) := hAP _ ⟨i, k, by omega, by omega, hr, rfl⟩
      refine Mat.safe_rd (by omega) (by omega) (Or.inr ?_) ?_
      · rintro ⟨l, hl, e⟩
        exact hnc ⟨i, l, hin, hl, trivial, e⟩
      · rw [hb.2 _ hnc]; exact hA i k (by omega) (by omega) hr
    refine (parFor_vec (y := ⟨C.cols, C.addr i⟩) (res i) rfl
      (fun j l hj hl e => (hu i j i l hin hj trivial hin hl trivial e).2) fun j hj => ?_).mono ?_
    · have e0 : (if t = .lower then 0 else if d = .explicit then i else i + 1) = triLo t d i := rfl
      have e1 : (if t = .lower then if d = .explicit then i + 1 else i else C.rows) =
          triHi t d i C.rows := rfl
      simp only [e0, e1]
      refine Task.safe_bind.2 ((Task.safe_foldUp (fun s k => s + a i k * b k j) ?_).post ?_)
      · intro k h1 h2 s'
        have hr : triRegion t d i k := by
          unfold triLo at h1
          unfold triHi at h2
          constructor
          · cases t <;> cases d <;> simp [Triangle.region] at * <;> omega
          · rintro rfl
            cases t <;> simp at * <;> omega
        have hk : k < C.rows := by
          unfold triHi at h2
          cases t <;> cases d <;> simp at h2 <;> omega
        rw [Task.safe_bind, rdA k j hk hr, Task.safe_bind, rdB k j hk hj hr.1, Task.safe_pure]
        exact ⟨rfl, rfl⟩
      · rintro s' g' ⟨hs', rfl⟩
        have hres : res i j = if d = .implicitUnit then s' + b i j else s' := by
          rw [hs']
          exact kkTriSeq_fold t d C.rows i (fun k => a i k * b k j) (b i j)
        have fin : ∀ v, v = res i j → (C.wr i j v).Safe
            (fun a => a = C.addr i j ∨ ¬ (⟨C.cols, C.addr i⟩ : Vec).Cell a) (fun a => a = C.addr i j) g'
            (fun _ g => g (C.addr i j) = some (res i j)) := by
          rintro v rfl
          rw [Mat.safe_wr_own hin hj (hun i j hin hj (by cases t <;> exact le_refl i))]
          simp
        split
        · next e =>
          rw [Task.safe_bind, rdB i j hin hj (by cases t <;> exact le_refl i), Task.safe_bind,
            Task.safe_pure]
          exact fin _ (by rw [hres, if_pos e])
        · next e =>
          rw [Task.safe_bind, Task.safe_pure]
          exact fin _ (by rw [hres, if_neg e])
    · rintro _ g' ⟨r1, r2⟩
      have hdon : ∀ k, k < C.rows → (don (s + 1) k ↔ (don s k ∨ k = i)) := by
        intro k hk
        simp only [hi, don]
        split <;> omega
      refine ⟨fun k j hk hj _ => ?_, fun x hx => ?_⟩
      · by_cases e : k = i
        · subst e
          rw [r1 j hj]
          beta_reduce
          rw [if_pos ((hdon i hin).2 (Or.inr rfl))]
        · rw [r2, hb.1 k j hk hj trivial]
          · beta_reduce
            by_cases q : don s k
            · rw [if_pos q, if_pos ((hdon k hk).2 (Or.inl q))]
            · rw [if_neg q, if_neg]
              rw [hdon k hk]
              rintro (q' | q')
              · exact q q'
              · exact e q'
          · rintro ⟨l, hl, e'⟩
            exact e (hu i l k j hin hl trivial hk hj trivial e').1.symm
      · rw [r2, hb.2 x hx]
        rintro ⟨l, hl, e'⟩
        exact hx ⟨i, l, hin, hl, trivial, e'⟩
  · refine ⟨fun i j hi hj _ => ?_, fun _ _ => rfl⟩
    beta_reduce
    rw [if_neg (by simp only [don]; split <;> omega)]
    exact hC i j hi hj trivial
  · intro _ h' hb
    refine hb.congr fun i j hi _ _ => ?_
    rw [if_pos (by simp only [don]; split <;> omega)]

theorem kkTrmmLeft_loop [NonAssocSemiring α] {t : Triangle} {d : Diag} {A B C : Mat}
    {a b c : Nat → Nat → α} (hA : A.HoldsOn h (triRegion t d) a)
    (hAP : Apart (A.CellOn (triRegion t d)) C.Cell) (hC : C.Holds h c) (hu : C.Unique)
    (hAr : A.rows = C.rows) (hAc : A.cols = C.rows)
    (hB : ∀ i, i < C.rows → ∀ g, OnlyChanges C.Cell h g →
      (∀ k j, k < C.rows → j < C.cols → t.region i k → g (C.addr k j) = some (c k j)) →
      ∀ k j, k < C.rows → j < C.cols → t.region i k → ∀ Q,
        (B.rd k j).Safe (fun a => a = C.addr i j ∨ ¬ (⟨C.cols, C.addr i⟩ : Vec).Cell a)
          (fun a => a = C.addr i j) g Q ↔ Q (b k j) g) :
    Surely (kkTrmmLeftViews t d A B C) h fun _ h' =>
      C.Becomes h h' (mulMat C.rows (triOf t d a) b) := by
  refine (kkTrmmLeft_seq hA hAP hC hu hAr hAc hB).mono fun _ h' hb => hb.congr fun i j hi hj _ => ?_
  exact kkTriSeq_sum t d a (fun k => b k j) hi

theorem kkTrmmRight_seq [Add α] [Zero α] [Mul α] {t : Triangle} {d : Diag} {A B C : Mat}
    {a b c : Nat → Nat → α} (hA : A.HoldsOn h (triRegion t d) a)
    (hAP : Apart (A.CellOn (triRegion t d)) C.Cell) (hC : C.Holds h c) (hu : C.Unique)
    (hAr : A.rows = C.cols) (hAc : A.cols = C.cols)
    (hB : ∀ j, j < C.cols → ∀ g, OnlyChanges C.Cell h g →
      (∀ i k, i < C.rows → k < C.cols → t.region k j → g (C.addr i k) = some (c i k)) →
      ∀ i k, i < C.rows → k < C.cols → t.region k j → ∀ Q,
        (B.rd i k).Safe (fun a => a = C.addr i j ∨
            ¬ (⟨C.rows, fun i => C.addr i j⟩ : Vec).Cell a)
          (fun a => a = C.addr i j) g Q ↔ Q (b i k) g) :
    Surely (kkTrmmRightViews t d A B C) h fun _ h' =>
      C.Becomes h h' fun i j => kkTriSeq t.other d C.cols j (fun k => b i k * a k j) (b i j) := by
  unfold kkTrmmRightViews
  let don : Nat → Nat → Prop := fun s j => if t = .lower then j < s else C.cols ≤ j + s
  have dd : ∀ s i, Decidable (don s i) := fun s i => by unfold don; infer_instance
  let res : Nat → Nat → α := fun i j => kkTriSeq t.other d C.cols j (fun k => b i k * a k j) (b i j)
  refine (surely_forEach_range (fun s g => C.Becomes h g fun i j =>
    if don s j then res i j else c i j) ?_ ?_).mono ?_
  · intro s hs g hb
    set j := if t = .lower then s else C.cols - 1 - s with hj
    have hjn : j < C.cols := by rw [hj]; split <;> omega
    have later : ∀ k, k < C.cols → t.region k j → ¬ don s k := by
      intro k hk hr
      revert hr
      simp only [hj, don]
      cases t <;> simp only [Triangle.region] <;> simp
      omega
    have hun : ∀ i k, i < C.rows → k < C.cols → t.region k j → g (C.addr i k) = some (c i k) := by
      intro i k hi hk hr
      rw [hb.1 i k hi hk trivial]
      beta_reduce
      rw [if_neg (later k hk hr)]
    have rdB := hB j hjn g hb.2 hun
    have rdA : ∀ i k, k < C.cols → triRegion t d k j → ∀ Q,
        (A.rd k j).Safe (fun a => a = C.addr i j ∨
            ¬ (⟨C.rows, fun i => C.addr i j⟩ : Vec).Cell a)
          (fun a => a = C.addr i j) g Q ↔ Q (a k j) g := by
      intro i k hk hr Q
      have hnc : ¬ C.Cell (A.addr k j) := hAP _ ⟨k, j, by omega, by omega, hr, rfl⟩
      refine Mat.safe_rd (by omega) (by omega) (Or.inr ?_) ?_
      · rintro ⟨l, hl, e⟩
        exact hnc ⟨l, j, hl, hjn, trivial, e⟩
      · rw [hb.2 _ hnc]; exact hA k j (by omega) (by omega) hr
    refine (parFor_vec (y := ⟨C.rows, fun i => C.addr i j⟩) (fun i => res i j) rfl
      (fun i l hi hl e => (hu i j l j hi hjn trivial hl hjn trivial e).1) fun i hi => ?_).mono ?_
    · refine Task.safe_bind.2 ((Task.safe_foldUp (fun s k => s + b i k * a k j) ?_).post ?_)
      · intro k h1 h2 s'
        have hr : triRegion t d k j := by
          constructor
          · cases t <;> cases d <;> simp [Triangle.region] at * <;> omega
          · rintro rfl
            cases t <;> simp at * <;> omega
        have hk : k < C.cols := by
          cases t <;> cases d <;> simp at h2 <;> omega
        rw [Task.safe_bind, rdB i k hi hk hr.1, Task.safe_bind, rdA i k hk hr, Task.safe_pure]
        exact ⟨rfl, rfl⟩
      · rintro s' g' ⟨hs', rfl⟩
        have hres : res i j = if d = .implicitUnit then s' + b i j else s' := by
          rw [hs']
          simp only [res]
          rw [kkTriSeq_fold]
          cases t <;> rfl
        have fin : ∀ v, v = res i j → (C.wr i j v).Safe
            (fun a => a = C.addr i j ∨ ¬ (⟨C.rows, fun i => C.addr i j⟩ : Vec).Cell a) (fun a => a = C.addr i j) g'
            (fun _ g => g (C.addr i j) = some (res i j)) := by
          rintro v rfl
          rw [Mat.safe_wr_own hi hjn (hun i j hi hjn (by cases t <;> exact le_refl j))]
          simp
        split
        · next e =>
          rw [Task.safe_bind, rdB i j hi hjn (by cases t <;> exact le_refl j), Task.safe_bind,
            Task.safe_pure]
          exact fin _ (by rw [hres, if_pos e])
        · next e =>
          rw [Task.safe_bind, Task.safe_pure]
          exact fin _ (by rw [hres, if_neg e])
    · rintro _ g' ⟨r1, r2⟩
      have hdon : ∀ k, k < C.cols → (don (s + 1) k ↔ (don s k ∨ k = j)) := by
        intro k hk
        simp only [hj, don]
        split <;> omega
      refine ⟨fun i k hi hk _ => ?_, fun x hx => ?_⟩
      · by_cases e : k = j
        · subst e
          rw [r1 i hi]
          beta_reduce
          rw [if_pos ((hdon j hjn).2 (Or.inr rfl))]
        · rw [r2, hb.1 i k hi hk trivial]
          · beta_reduce
            by_cases q : don s k
            · rw [if_pos q, if_pos ((hdon k hk).2 (Or.inl q))]
            · rw [if_neg q, if_neg]
              rw [hdon k hk]
              rintro (q' | q')
              · exact q q'
              · exact e q'
          · rintro ⟨l, hl, e'⟩
            exact e (hu l j i k hl hjn trivial hi hk trivial e').2.symm
      · rw [r2, hb.2 x hx]
        rintro ⟨l, hl, e'⟩
        exact hx ⟨l, j, hl, hjn, trivial, e'⟩
  · refine ⟨fun i j hi hj _ => ?_, fun _ _ => rfl⟩
    beta_reduce
    rw [if_neg (by simp only [don]; split <;> omega)]
    exact hC i j hi hj trivial
  · intro _ h' hb
    refine hb.congr fun i j _ hj _ => ?_
    rw [if_pos (by simp only [don]; split <;> omega)]

theorem kkTrmmRight_loop [NonAssocSemiring α] {t : Triangle} {d : Diag} {A B C : Mat}
    {a b c : Nat → Nat → α} (hA : A.HoldsOn h (triRegion t d) a)
    (hAP : Apart (A.CellOn (triRegion t d)) C.Cell) (hC : C.Holds h c) (hu : C.Unique)
    (hAr : A.rows = C.cols) (hAc : A.cols = C.cols)
    (hB : ∀ j, j < C.cols → ∀ g, OnlyChanges C.Cell h g →
      (∀ i k, i < C.rows → k < C.cols → t.region k j → g (C.addr i k) = some (c i k)) →
      ∀ i k, i < C.rows → k < C.cols → t.region k j → ∀ Q,
        (B.rd i k).Safe (fun a => a = C.addr i j ∨
            ¬ (⟨C.rows, fun i => C.addr i j⟩ : Vec).Cell a)
          (fun a => a = C.addr i j) g Q ↔ Q (b i k) g) :
    Surely (kkTrmmRightViews t d A B C) h fun _ h' =>
      C.Becomes h h' (mulMat C.cols b (triOf t d a)) := by
  refine (kkTrmmRight_seq hA hAP hC hu hAr hAc hB).mono fun _ h' hb => hb.congr fun i j hi hj _ => ?_
  exact kkTriSeq_sum_col t d a (fun k => b i k) hj

end StdBLAS

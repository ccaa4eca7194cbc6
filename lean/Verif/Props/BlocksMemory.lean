import Verif.Props.Blocks
import Verif.Props.Compositions
import Verif.Props.Consistency

/-!
# Property C73, second part: cuts along the other loops

Here the calls on the parts access memory in another order than the one call, so the arguments must
not overlap.  The memory afterwards is the same, bit for bit, for all element types: no law of
arithmetic is used, except where a subtraction becomes the addition of a product with minus one.
-/

namespace StdBLAS
open Finset Witness
variable {α : Type}

/-! ## Cutting the sums -/

/-- **C73** `matrix_vector_product(A, x, y)` by blocks of columns: a product, then an update. -/
theorem C73_gemv_columns [Add α] [Mul α] [Zero α] (A : MatV α) (x : VecV α) (y : Vec) (h : Heap α)
    (a : Nat → Nat → α) (f : Nat → α) (k : Nat) (hA : A.Holds h a) (hx : x.Holds h f)
    (hy : y.Alloc h) (hrows : y.ext = A.rows) (hcols : A.cols ≤ x.ext) (hu : y.Unique)
    (hAy : Apart A.toMat.Cell y.Cell) (hxy : Apart x.toVec.Cell y.Cell) (hk : k ≤ A.cols) :
    Ends (gemv A x y) h fun _ h1 => Ends (do
        gemv (A.block 0 0 A.rows k) (x.slice 0 k) y
        gemvUpdate (A.block 0 k A.rows (A.cols - k)) (x.slice k (A.cols - k)) y.view y) h
      fun _ h2 => h1 = h2 := by
  refine (C54_gemv A x y h a f hA hx hy hrows hcols hu hAy hxy).mono fun _ h1 hb1 => ?_
  rw [ends_bind]
  refine (C54_gemv (A.block 0 0 A.rows k) (x.slice 0 k) y h _ _ (hA.block (by omega) (by omega))
    (hx.slice (by omega)) hy hrows le_rfl hu
    (fun p hp => hAy p (MatV.block_cell (by omega) (by omega) hp))
    (fun p hp => hxy p (VecV.slice_cell (by omega) hp))).mono fun _ h2 hb2 => ?_
  have hA2 : A.Holds h2 a := hA.of_onlyChanges hAy hb2.2
  have hx2 : x.Holds h2 f := hx.of_onlyChanges hxy hb2.2
  refine (C54_gemv_update (A.block 0 k A.rows (A.cols - k)) (x.slice k (A.cols - k)) y.view y h2
    _ _ _ (hA2.block (by omega) (by omega)) (hx2.slice (by omega)) hb2.1.asView hb2.1.alloc hrows
    le_rfl hrows.ge hu (fun p hp => hAy p (MatV.block_cell (by omega) (by omega) hp))
    (fun p hp => hxy p (VecV.slice_cell (by omega) hp)) fun i j hi hj e => hu i j hi hj e).mono
    fun _ h3 hb3 => ?_
  refine hb1.unique (hb2.trans hb3) fun i _ => ?_
  conv_lhs => rw [show A.cols = k + (A.cols - k) by omega]
  rw [leftSum_add]
  simp only [MatV.block, Nat.zero_add]

example : Ends (gemv (A.view : MatV Term) x.view y) (heap Term) fun _ h1 => Ends (do
      gemv ((A.view : MatV Term).block 0 0 3 2) ((x.view : VecV Term).slice 0 2) y
      gemvUpdate ((A.view : MatV Term).block 0 2 3 1) ((x.view : VecV Term).slice 2 1) y.view y)
    (heap Term) fun _ h2 => h1 = h2 :=
  C73_gemv_columns _ _ _ _ _ _ 2 (mholdsV bA) (holdsV bx) (alloc by_) rfl le_rfl (by view_facts)
    (by view_facts) (by view_facts) (by decide)

/-- **C73** `matrix_vector_product(A, x, y, z)` by blocks of columns -/
theorem C73_gemv_update_columns [Add α] [Mul α] (A : MatV α) (x y : VecV α) (z : Vec) (h : Heap α)
    (a : Nat → Nat → α) (f g : Nat → α) (k : Nat) (hA : A.Holds h a) (hx : x.Holds h f)
    (hy : y.Holds h g) (hz : z.Alloc h) (hrows : z.ext = A.rows) (hcols : A.cols ≤ x.ext)
    (hye : A.rows ≤ y.ext) (hu : z.Unique) (hAz : Apart A.toMat.Cell z.Cell)
    (hxz : Apart x.toVec.Cell z.Cell) (hyz : y.toVec.Aligned z) (hk : k ≤ A.cols) :
    Ends (gemvUpdate A x y z) h fun _ h1 => Ends (do
        gemvUpdate (A.block 0 0 A.rows k) (x.slice 0 k) y z
        gemvUpdate (A.block 0 k A.rows (A.cols - k)) (x.slice k (A.cols - k)) z.view z) h
      fun _ h2 => h1 = h2 := by
  refine (C54_gemv_update A x y z h a f g hA hx hy hz hrows hcols hye hu hAz hxz hyz).mono
    fun _ h1 hb1 => ?_
  rw [ends_bind]
  refine (C54_gemv_update (A.block 0 0 A.rows k) (x.slice 0 k) y z h _ _ g
    (hA.block (by omega) (by omega)) (hx.slice (by omega)) hy hz hrows le_rfl hye hu
    (fun p hp => hAz p (MatV.block_cell (by omega) (by omega) hp))
    (fun p hp => hxz p (VecV.slice_cell (by omega) hp)) hyz).mono fun _ h2 hb2 => ?_
  have hA2 : A.Holds h2 a := hA.of_onlyChanges hAz hb2.2
  have hx2 : x.Holds h2 f := hx.of_onlyChanges hxz hb2.2
  refine (C54_gemv_update (A.block 0 k A.rows (A.cols - k)) (x.slice k (A.cols - k)) z.view z h2
    _ _ _ (hA2.block (by omega) (by omega)) (hx2.slice (by omega)) hb2.1.asView hb2.1.alloc hrows
    le_rfl hrows.ge hu (fun p hp => hAz p (MatV.block_cell (by omega) (by omega) hp))
    (fun p hp => hxz p (VecV.slice_cell (by omega) hp)) fun i j hi hj e => hu i j hi hj e).mono
    fun _ h3 hb3 => ?_
  refine hb1.unique (hb2.trans hb3) fun i _ => ?_
  conv_lhs => rw [show A.cols = k + (A.cols - k) by omega]
  rw [leftSum_add]
  simp only [MatV.block, Nat.zero_add]

example : Ends (gemvUpdate (A.view : MatV Term) x.view y.view y) (heap Term) fun _ h1 => Ends (do
      gemvUpdate ((A.view : MatV Term).block 0 0 3 2) ((x.view : VecV Term).slice 0 2) y.view y
      gemvUpdate ((A.view : MatV Term).block 0 2 3 1) ((x.view : VecV Term).slice 2 1) y.view y)
    (heap Term) fun _ h2 => h1 = h2 :=
  C73_gemv_update_columns _ _ _ _ _ _ _ _ 2 (mholdsV bA) (holdsV bx) (holdsV by_) (alloc by_) rfl
    le_rfl le_rfl (by view_facts) (by view_facts) (by view_facts) (by view_facts) (by decide)

/-- **C73** `matrix_product(A, B, C)` with the sums cut: a product, then an update. -/
theorem C73_gemm_inner [Add α] [Mul α] [Zero α] (A B : MatV α) (C : Mat) (h : Heap α)
    (a b : Nat → Nat → α) (k : Nat) (hA : A.Holds h a) (hB : B.Holds h b) (hC : C.Alloc h)
    (hr : C.rows = A.rows) (hi : A.cols = B.rows) (hc : C.cols = B.cols) (hu : C.Unique)
    (hAC : Apart A.toMat.Cell C.Cell) (hBC : Apart B.toMat.Cell C.Cell) (hk : k ≤ A.cols) :
    Ends (gemm A B C) h fun _ h1 => Ends (do
        gemm (A.block 0 0 A.rows k) (B.block 0 0 k B.cols) C
        gemmUpdate (A.block 0 k A.rows (A.cols - k)) (B.block k 0 (A.cols - k) B.cols) C.view C) h
      fun _ h2 => h1 = h2 := by
  refine (C54_gemm A B C h a b hA hB hC hr hi hc hu hAC hBC).mono fun _ h1 hb1 => ?_
  rw [ends_bind]
  refine (C54_gemm (A.block 0 0 A.rows k) (B.block 0 0 k B.cols) C h _ _
    (hA.block (by omega) (by omega)) (hB.block (by omega) (by omega)) hC hr rfl hc hu
    (fun p hp => hAC p (MatV.block_cell (by omega) (by omega) hp))
    (fun p hp => hBC p (MatV.block_cell (by omega) (by omega) hp))).mono fun _ h2 hb2 => ?_
  have hA2 : A.Holds h2 a := hA.of_onlyChanges hAC hb2.2
  have hB2 : B.Holds h2 b := hB.of_onlyChanges hBC hb2.2
  refine (C54_gemm_update (A.block 0 k A.rows (A.cols - k)) (B.block k 0 (A.cols - k) B.cols)
    C.view C h2 _ _ _ (hA2.block (by omega) (by omega)) (hB2.block (by omega) (by omega))
    hb2.1.asView (fun i j hi hj _ => ⟨_, hb2.1 i j hi hj trivial⟩) hr rfl hc le_rfl le_rfl hu
    (fun p hp => hAC p (MatV.block_cell (by omega) (by omega) hp))
    (fun p hp => hBC p (MatV.block_cell (by omega) (by omega) hp))
    fun i j i' j' hi hj hi' hj' e => hu i j i' j' hi hj trivial hi' hj' trivial e).mono
    fun _ h3 hb3 => ?_
  refine hb1.unique ⟨hb3.1, fun p hp => (hb3.2 p hp).trans (hb2.2 p hp)⟩ fun i j _ _ => ?_
  conv_lhs => rw [show A.cols = k + (A.cols - k) by omega]
  rw [leftSum_add]
  simp only [MatV.block, Nat.zero_add]

example : Ends (gemm (A.view : MatV Term) B.view C) (heap Term) fun _ h1 => Ends (do
      gemm ((A.view : MatV Term).block 0 0 3 1) ((B.view : MatV Term).block 0 0 1 3) C
      gemmUpdate ((A.view : MatV Term).block 0 1 3 2) ((B.view : MatV Term).block 1 0 2 3) C.view C)
    (heap Term) fun _ h2 => h1 = h2 :=
  C73_gemm_inner _ _ _ _ _ _ 1 (mholdsV bA) (mholdsV bB) (malloc bC) rfl rfl rfl (by view_facts)
    (by view_facts) (by view_facts) (by decide)

/-- **C73** `matrix_product(A, B, C)` by blocks of columns -/
theorem C73_gemm_columns [Add α] [Mul α] [Zero α] (A B : MatV α) (C : Mat) (h : Heap α)
    (a b : Nat → Nat → α) (k : Nat) (hA : A.Holds h a) (hB : B.Holds h b) (hC : C.Alloc h)
    (hr : C.rows = A.rows) (hi : A.cols = B.rows) (hc : C.cols = B.cols) (hu : C.Unique)
    (hAC : Apart A.toMat.Cell C.Cell) (hBC : Apart B.toMat.Cell C.Cell) (hk : k ≤ C.cols) :
    Ends (gemm A B C) h fun _ h1 => Ends (do
        gemm A (B.block 0 0 B.rows k) (C.block 0 0 C.rows k)
        gemm A (B.block 0 k B.rows (C.cols - k)) (C.block 0 k C.rows (C.cols - k))) h
      fun _ h2 => h1 = h2 := by
  refine (C54_gemm A B C h a b hA hB hC hr hi hc hu hAC hBC).mono fun _ h1 hb1 => ?_
  rw [ends_bind]
  refine (C54_gemm A (B.block 0 0 B.rows k) (C.block 0 0 C.rows k) h a _ hA
    (hB.block (by omega) (by omega)) (hC.block (by omega) (by omega)) hr hi rfl
    (hu.block (by omega) (by omega))
    (fun p hp hq => hAC p hp (Mat.block_cell (by omega) (by omega) hq))
    (fun p hp hq => hBC p (MatV.block_cell (by omega) (by omega) hp)
      (Mat.block_cell (by omega) (by omega) hq))).mono fun _ h2 hb2 => ?_
  have o2 : OnlyChanges C.Cell h h2 := fun p hp => hb2.2 p fun hq =>
    hp (Mat.block_cell (by omega) (by omega) hq)
  have hA2 : A.Holds h2 a := hA.of_onlyChanges hAC o2
  have hB2 : B.Holds h2 b := hB.of_onlyChanges hBC o2
  have hd : Apart (C.block 0 k C.rows (C.cols - k)).Cell (C.block 0 0 C.rows k).Cell := by
    rintro p ⟨i, j, hi, hj, _, e⟩ ⟨i', j', hi', hj', _, e'⟩
    simp only [Mat.block] at hi hj hi' hj' e e'
    have := hu _ _ _ _ (by omega) (by omega) trivial (by omega) (by omega) trivial
      (e.trans e'.symm)
    omega
  have hC2 : (C.block 0 k C.rows (C.cols - k)).Alloc h2 := by
    intro i j hi hj _
    obtain ⟨v, hv⟩ := hC.block (i0 := 0) (j0 := k) (r := C.rows) (c := C.cols - k) (by omega)
      (by omega) i j hi hj trivial
    exact ⟨v, by rw [hb2.2 _ (hd _ ⟨i, j, hi, hj, trivial, rfl⟩), hv]⟩
  refine (C54_gemm A (B.block 0 k B.rows (C.cols - k)) (C.block 0 k C.rows (C.cols - k)) h2 a _ hA2
    (hB2.block (by omega) (by omega)) hC2 hr hi rfl (hu.block (by omega) (by omega))
    (fun p hp hq => hAC p hp (Mat.block_cell (by omega) (by omega) hq))
    (fun p hp hq => hBC p (MatV.block_cell (by omega) (by omega) hp)
      (Mat.block_cell (by omega) (by omega) hq))).mono fun _ h3 hb3 => ?_
  refine hb1.unique (g := fun i j => leftSum 0 A.cols fun l => a i l * b l j) ⟨?_, fun p hp =>
    (hb3.2 p fun hq => hp (Mat.block_cell (by omega) (by omega) hq)).trans (o2 p hp)⟩
    fun _ _ _ _ => rfl
  intro i j hi hj _
  by_cases hjk : j < k
  · have e := hb2.1 i j hi hjk trivial
    simp only [Mat.block, Nat.zero_add] at e
    rw [hb3.2 _ fun hq => hd _ hq ⟨i, j, hi, hjk, trivial, by simp only [Mat.block, Nat.zero_add]⟩,
      e]
  · have e := hb3.1 i (j - k) hi (by simp only [Mat.block]; omega) trivial
    simp only [Mat.block, Nat.zero_add, show k + (j - k) = j by omega] at e
    exact e

example : Ends (gemm (A.view : MatV Term) B.view C) (heap Term) fun _ h1 => Ends (do
      gemm (A.view : MatV Term) ((B.view : MatV Term).block 0 0 3 1) (C.block 0 0 3 1)
      gemm (A.view : MatV Term) ((B.view : MatV Term).block 0 1 3 2) (C.block 0 1 3 2))
    (heap Term) fun _ h2 => h1 = h2 :=
  C73_gemm_columns _ _ _ _ _ _ 1 (mholdsV bA) (mholdsV bB) (malloc bC) rfl rfl rfl (by view_facts)
    (by view_facts) (by view_facts) (by decide)

/-! ## Tiled products

`matrix_product(A, B, C, C)` written by a user as three loops over tiles of given sizes, each step
one call on a tile. -/

/-- Loop over the inner tiles from index `k`. -/
def innerTiles [Add α] [Mul α] (A B : MatV α) (C : Mat) : Nat → List Nat → Prog α Unit
  | _, [] => pure ()
  | k, l :: ls => do
    gemmUpdate (A.block 0 k A.rows l) (B.block k 0 l B.cols) C.view C
    innerTiles A B C (k + l) ls

/-- Loop over the tiles of columns from column `j`. -/
def columnTiles [Add α] [Mul α] (A B : MatV α) (C : Mat) (ls : List Nat) :
    Nat → List Nat → Prog α Unit
  | _, [] => pure ()
  | j, n :: ns => do
    innerTiles A (B.block 0 j B.rows n) (C.block 0 j C.rows n) 0 ls
    columnTiles A B C ls (j + n) ns

/-- Loop over the tiles of rows from row `i`. -/
def rowTiles [Add α] [Mul α] (A B : MatV α) (C : Mat) (ls ns : List Nat) :
    Nat → List Nat → Prog α Unit
  | _, [] => pure ()
  | i, m :: ms => do
    columnTiles (A.block i 0 m A.cols) B (C.block i 0 m C.cols) ls 0 ns
    rowTiles A B C ls ns (i + m) ms

theorem innerTiles_ends [Add α] [Mul α] {A B : MatV α} {C : Mat} {a b : Nat → Nat → α}
    (hr : C.rows = A.rows) (hi : A.cols = B.rows) (hc : C.cols = B.cols) (hu : C.Unique)
    (hAC : Apart A.toMat.Cell C.Cell) (hBC : Apart B.toMat.Cell C.Cell) (ls : List Nat) (k : Nat)
    (h : Heap α) (e : Nat → Nat → α) (hA : A.Holds h a) (hB : B.Holds h b) (hC : C.Holds h e)
    (hk : k + ls.sum ≤ A.cols) :
    Ends (innerTiles A B C k ls) h fun _ h' => C.Becomes h h' fun i j =>
      leftSum (e i j) ls.sum fun l => a i (k + l) * b (k + l) j := by
  induction ls generalizing k h e with
  | nil =>
    rw [innerTiles, ends_pure]
    exact Mat.BecomesOn.refl hC
  | cons l ls ih =>
    rw [List.sum_cons] at hk
    rw [innerTiles, ends_bind]
    refine (C54_gemm_update (A.block 0 k A.rows l) (B.block k 0 l B.cols) C.view C h _ _ e
      (hA.block (by omega) (by omega)) (hB.block (by omega) (by omega)) hC.asView
      (fun i j hi hj _ => ⟨_, hC i j hi hj trivial⟩) hr rfl hc le_rfl le_rfl hu
      (fun p hp => hAC p (MatV.block_cell (by omega) (by omega) hp))
      (fun p hp => hBC p (MatV.block_cell (by omega) (by omega) hp))
      fun i j i' j' hi hj hi' hj' e => hu i j i' j' hi hj trivial hi' hj' trivial e).mono
      fun _ h2 hb2 => ?_
    refine (ih (k + l) h2 _ (hA.of_onlyChanges hAC hb2.2) (hB.of_onlyChanges hBC hb2.2) hb2.1
      (by omega)).mono fun _ h3 hb3 => ?_
    have hb : C.Becomes h h3 _ := ⟨hb3.1, fun p hp => (hb3.2 p hp).trans (hb2.2 p hp)⟩
    refine Mat.BecomesOn.congr hb fun i j _ _ _ => ?_
    rw [List.sum_cons, leftSum_add]
    simp only [MatV.block, Nat.zero_add, Nat.add_assoc]

theorem columnTiles_ends [Add α] [Mul α] {A B : MatV α} {C : Mat} {a b : Nat → Nat → α}
    (hr : C.rows = A.rows) (hi : A.cols = B.rows) (hc : C.cols = B.cols) (hu : C.Unique)
    (hAC : Apart A.toMat.Cell C.Cell) (hBC : Apart B.toMat.Cell C.Cell) (ls : List Nat)
    (hl : ls.sum = A.cols) (ns : List Nat) (j : Nat)
    (h : Heap α) (e : Nat → Nat → α) (hA : A.Holds h a) (hB : B.Holds h b)
    (hC : C.HoldsOn h (fun _ c => j ≤ c) e) (hj : j + ns.sum = C.cols) :
    Ends (columnTiles A B C ls j ns) h fun _ h' =>
      C.BecomesOn h h' (fun _ c => j ≤ c) fun r c =>
        leftSum (e r c) A.cols fun l => a r l * b l c := by
  induction ns generalizing j h with
  | nil =>
    rw [columnTiles, ends_pure]
    rw [List.sum_nil] at hj
    exact ⟨fun r c _ hc hjc => absurd hjc (by omega), fun _ _ => rfl⟩
  | cons n ns ih =>
    rw [List.sum_cons] at hj
    rw [columnTiles, ends_bind]
    have hCt : (C.block 0 j C.rows n).Holds h fun r c => e r (j + c) := by
      intro r c hr hc _
      have := hC r (j + c) hr (by simp only [Mat.block] at hc; omega) (by omega)
      simp only [Mat.block, Nat.zero_add]
      exact this
    refine (innerTiles_ends (A := A) (B := B.block 0 j B.rows n) (C := C.block 0 j C.rows n)
      hr hi rfl (hu.block (by omega) (by omega))
      (fun p hp hq => hAC p hp (Mat.block_cell (by omega) (by omega) hq))
      (fun p hp hq => hBC p (MatV.block_cell (by omega) (by omega) hp)
        (Mat.block_cell (by omega) (by omega) hq)) ls 0 h _ hA
      (hB.block (by omega) (by omega)) hCt (by omega)).mono fun _ h2 hb2 => ?_
    have o2 : OnlyChanges C.Cell h h2 := fun p hp => hb2.2 p fun hq =>
      hp (Mat.block_cell (by omega) (by omega) hq)
    have hne : ∀ r c, r < C.rows → c < C.cols → j + n ≤ c →
        ¬ (C.block 0 j C.rows n).Cell (C.addr r c) := by
      rintro r c hr hc hjc ⟨r', c', hr', hc', _, e⟩
      simp only [Mat.block] at hr' hc' e
      have := hu _ _ _ _ (by omega) (by omega) trivial hr hc trivial e
      omega
    have hC2 : C.HoldsOn h2 (fun _ c => j + n ≤ c) e := fun r c hr hc hjc => by
      rw [hb2.2 _ (hne r c hr hc hjc)]
      exact hC r c hr hc (by omega)
    refine (ih (j + n) h2 (hA.of_onlyChanges hAC o2) (hB.of_onlyChanges hBC o2) hC2
      (by omega)).mono fun _ h3 hb3 => ⟨?_, ?_⟩
    · intro r c hr hc hjc
      by_cases hcn : j + n ≤ c
      · exact hb3.1 r c hr hc hcn
      · rw [hb3.2]
        · have := hb2.1 r (c - j) hr (by simp only [Mat.block]; omega) trivial
          simp only [Mat.block, Nat.zero_add, show j + (c - j) = c by omega, hl] at this
          exact this
        · rintro ⟨r', c', hr', hc', hjc', e⟩
          have := hu _ _ _ _ hr' hc' trivial hr hc trivial e
          omega
    · intro p hp
      rw [hb3.2, hb2.2]
      · rintro ⟨r, c, hr, hc, _, e⟩
        simp only [Mat.block, Nat.zero_add] at hr hc e
        exact hp ⟨r, j + c, hr, by omega, by omega, e⟩
      · rintro ⟨r, c, hr, hc, hjc, e⟩
        exact hp ⟨r, c, hr, hc, by omega, e⟩

theorem rowTiles_ends [Add α] [Mul α] {A B : MatV α} {C : Mat} {a b : Nat → Nat → α}
    (hr : C.rows = A.rows) (hi : A.cols = B.rows) (hc : C.cols = B.cols) (hu : C.Unique)
    (hAC : Apart A.toMat.Cell C.Cell) (hBC : Apart B.toMat.Cell C.Cell) (ls ns : List Nat)
    (hl : ls.sum = A.cols) (hn : ns.sum = C.cols) (ms : List Nat) (i : Nat)
    (h : Heap α) (e : Nat → Nat → α) (hA : A.Holds h a) (hB : B.Holds h b)
    (hC : C.HoldsOn h (fun r _ => i ≤ r) e) (hm : i + ms.sum = C.rows) :
    Ends (rowTiles A B C ls ns i ms) h fun _ h' =>
      C.BecomesOn h h' (fun r _ => i ≤ r) fun r c =>
        leftSum (e r c) A.cols fun l => a r l * b l c := by
  induction ms generalizing i h with
  | nil =>
    rw [rowTiles, ends_pure]
    rw [List.sum_nil] at hm
    exact ⟨fun r c hr _ hjc => absurd hjc (by omega), fun _ _ => rfl⟩
  | cons m ms ih =>
    rw [List.sum_cons] at hm
    rw [rowTiles, ends_bind]
    have hCt : (C.block i 0 m C.cols).HoldsOn h (fun _ c => 0 ≤ c) fun r c => e (i + r) c := by
      intro r c hr hc _
      have := hC (i + r) c (by simp only [Mat.block] at hr; omega) hc (by omega)
      simp only [Mat.block, Nat.zero_add]
      exact this
    refine (columnTiles_ends (A := A.block i 0 m A.cols) (B := B) (C := C.block i 0 m C.cols)
      rfl hi hc (hu.block (by omega) (by omega))
      (fun p hp hq => hAC p (MatV.block_cell (by omega) (by omega) hp)
        (Mat.block_cell (by omega) (by omega) hq))
      (fun p hp hq => hBC p hp (Mat.block_cell (by omega) (by omega) hq)) ls hl ns 0 h _
      (hA.block (by omega) (by omega)) hB hCt (by simp only [Mat.block]; omega)).mono
      fun _ h2 hb2 => ?_
    have o2 : OnlyChanges C.Cell h h2 := fun p hp => hb2.2 p fun ⟨r, c, hr, hc, _, e⟩ => by
      simp only [Mat.block, Nat.zero_add] at hr hc e
      exact hp ⟨i + r, c, by omega, hc, trivial, e⟩
    have hne : ∀ r c, r < C.rows → c < C.cols → i + m ≤ r →
        ¬ (C.block i 0 m C.cols).CellOn (fun _ c => 0 ≤ c) (C.addr r c) := by
      rintro r c hr hc hjc ⟨r', c', hr', hc', _, e⟩
      simp only [Mat.block] at hr' hc' e
      have := hu _ _ _ _ (by omega) (by omega) trivial hr hc trivial e
      omega
    have hC2 : C.HoldsOn h2 (fun r _ => i + m ≤ r) e := fun r c hr hc hjc => by
      rw [hb2.2 _ (hne r c hr hc hjc)]
      exact hC r c hr hc (by omega)
    refine (ih (i + m) h2 (hA.of_onlyChanges hAC o2) (hB.of_onlyChanges hBC o2) hC2
      (by omega)).mono fun _ h3 hb3 => ⟨?_, ?_⟩
    · intro r c hr hc hjc
      by_cases hcn : i + m ≤ r
      · exact hb3.1 r c hr hc hcn
      · rw [hb3.2]
        · have := hb2.1 (r - i) c (by simp only [Mat.block]; omega) hc (by omega)
          simp only [Mat.block, MatV.block, Nat.zero_add, show i + (r - i) = r by omega] at this
          exact this
        · rintro ⟨r', c', hr', hc', hjc', e⟩
          have := hu _ _ _ _ hr' hc' trivial hr hc trivial e
          omega
    · intro p hp
      rw [hb3.2, hb2.2]
      · rintro ⟨r, c, hr, hc, _, e⟩
        simp only [Mat.block, Nat.zero_add] at hr hc e
        exact hp ⟨i + r, c, by omega, hc, by omega, e⟩
      · rintro ⟨r, c, hr, hc, hjc, e⟩
        exact hp ⟨r, c, hr, hc, by omega, e⟩

/-- **C73** `matrix_product(A, B, C, C)` tile by tile, for all sizes of tiles: the same bits as one
call. -/
theorem C73_gemm_tiles [Add α] [Mul α] (A B : MatV α) (C : Mat) (h : Heap α)
    (a b : Nat → Nat → α) (ms ns ls : List Nat) (hA : A.Holds h a) (hB : B.Holds h b)
    (hC : C.Alloc h) (hr : C.rows = A.rows) (hi : A.cols = B.rows) (hc : C.cols = B.cols)
    (hu : C.Unique) (hAC : Apart A.toMat.Cell C.Cell) (hBC : Apart B.toMat.Cell C.Cell)
    (hms : ms.sum = C.rows) (hns : ns.sum = C.cols) (hls : ls.sum = A.cols) :
    Ends (gemmUpdate A B C.view C) h fun _ h1 =>
      Ends (rowTiles A B C ls ns 0 ms) h fun _ h2 => h1 = h2 := by
  classical
  have hC' : C.Holds h fun i j =>
      if p : i < C.rows ∧ j < C.cols then (hC i j p.1 p.2 trivial).choose else a 0 0 := by
    intro i j hi hj _
    simp only [hi, hj, and_self, dif_pos]
    exact (hC i j hi hj trivial).choose_spec
  refine (C54_gemm_update A B C.view C h a b _ hA hB hC'.asView hC hr hi hc le_rfl le_rfl hu hAC
    hBC fun i j i' j' hi hj hi' hj' e => hu i j i' j' hi hj trivial hi' hj' trivial e).mono
    fun _ h1 hb1 => ?_
  refine (rowTiles_ends hr hi hc hu hAC hBC ls ns hls hns ms 0 h _ hA hB
    (fun r c hr hc _ => hC' r c hr hc trivial) (by omega)).mono fun _ h2 hb2 => ?_
  refine hb1.unique ⟨fun r c hr hc _ => hb2.1 r c hr hc (by omega), fun p hp => hb2.2 p ?_⟩
    fun _ _ _ _ => rfl
  rintro ⟨r, c, hr, hc, _, e⟩
  exact hp ⟨r, c, hr, hc, trivial, e⟩

example : Ends (gemmUpdate (A.view : MatV Term) B.view C.view C) (heap Term) fun _ h1 =>
    Ends (rowTiles (A.view : MatV Term) B.view C [1, 1, 1] [2, 1] 0 [2, 1]) (heap Term)
      fun _ h2 => h1 = h2 :=
  C73_gemm_tiles _ _ _ _ _ _ _ _ _ (mholdsV bA) (mholdsV bB) (malloc bC) rfl rfl rfl
    (by view_facts) (by view_facts) (by view_facts) rfl rfl rfl

/-! ## Blocked triangular solves -/

theorem leftDiff_add [Sub α] (s : α) (m n : Nat) (t : Nat → α) :
    leftDiff s (m + n) t = leftDiff (leftDiff s m t) n fun k => t (m + k) := by
  induction n with
  | zero => rfl
  | succ n ih => rw [← Nat.add_assoc, leftDiff, leftDiff, ih]

theorem leftSum_eq_leftDiff [Add α] [Sub α] {s : α} {n : Nat} {t t' : Nat → α}
    (e : ∀ s k, k < n → s + t k = s - t' k) : leftSum s n t = leftDiff s n t' := by
  induction n with
  | zero => rfl
  | succ n ih => rw [leftSum, leftDiff, ih fun s k hk => e s k (by omega), e _ n (by omega)]

theorem leftDiff_eq_sub [AddCommGroup α] (s : α) (n : Nat) (t : Nat → α) :
    leftDiff s n t = s - ∑ k ∈ range n, t k := by
  induction n with
  | zero => simp [leftDiff]
  | succ n ih => rw [leftDiff, ih, sum_range_succ, sub_add_eq_sub_sub]

/-- **C73** `triangular_matrix_vector_solve(A, lower_triangle, d, b, x)` in two blocks: solve for
the first `k` unknowns, subtract what they contribute to the other equations, solve these.  The same
bits, if adding a product with `m1` ("minus one") is subtracting the product. -/
theorem C73_trsv_lower_blocks [Add α] [Sub α] [Mul α] [Div α] (m1 : α)
    (hm : ∀ s p q : α, s + m1 * p * q = s - p * q) (A : MatV α) (d : Diag)
    (B : VecV α) (X : Vec) (h : Heap α) (a : Nat → Nat → α) (b : Nat → α) (n k : Nat)
    (hA : A.HoldsOn h (triRegion .lower d) a) (hB : B.Holds h b) (hX : X.Alloc h)
    (hr : A.rows = n) (hc : A.cols = n) (hext : X.ext = n) (hBe : n ≤ B.ext) (hu : X.Unique)
    (hAX : Apart (A.toMat.CellOn (triRegion .lower d)) X.Cell) (hBX : B.toVec.Aligned X)
    (hk : k ≤ n) :
    Ends (trsv (· / ·) A .lower d B X) h fun _ h1 => Ends (do
        trsv (· / ·) (A.block 0 0 k k) .lower d (B.slice 0 k) (X.slice 0 k)
        gemvUpdate ((A.block k 0 (n - k) k).scaled m1) (X.slice 0 k).view (B.slice k (n - k))
          (X.slice k (n - k))
        trsv (· / ·) (A.block k k (n - k) (n - k)) .lower d (X.slice k (n - k)).view
          (X.slice k (n - k))) h fun _ h2 => h1 = h2 := by
  have in11 : ∀ {i j}, i < k → j < k → triRegion .lower d i j → triRegion .lower d (0 + i) (0 + j) :=
    fun _ _ hij => by rwa [Nat.zero_add, Nat.zero_add]
  have in22 : ∀ {i j}, triRegion .lower d i j → triRegion .lower d (k + i) (k + j) := by
    intro i j hij
    exact ⟨by have := hij.1; simp only [Triangle.region] at *; omega,
      fun hd e => hij.2 hd (by omega)⟩
  have in21 : ∀ {i j}, j < k → triRegion .lower d (k + i) (0 + j) := fun hj =>
    ⟨by simp only [Triangle.region]; omega, fun _ => by omega⟩
  have x1 : ∀ p, (X.slice 0 k).Cell p → X.Cell p := fun p => Vec.slice_cell (by omega)
  have x2 : ∀ p, (X.slice k (n - k)).Cell p → X.Cell p := fun p => Vec.slice_cell (by omega)
  have x12 : Apart (X.slice 0 k).Cell (X.slice k (n - k)).Cell := by
    rintro p ⟨i, hi, e⟩ ⟨j, hj, e'⟩
    simp only [Vec.slice] at hi hj e e'
    have := hu _ _ (by omega) (by omega) (e.trans e'.symm)
    omega
  have a11 : ∀ p, (A.block 0 0 k k).toMat.CellOn (triRegion .lower d) p →
      A.toMat.CellOn (triRegion .lower d) p := by
    rintro p ⟨i, j, hi, hj, hij, e⟩
    simp only [MatV.block] at hi hj e
    exact ⟨0 + i, 0 + j, by omega, by omega, in11 hi hj hij, e⟩
  have a22 : ∀ p, (A.block k k (n - k) (n - k)).toMat.CellOn (triRegion .lower d) p →
      A.toMat.CellOn (triRegion .lower d) p := by
    rintro p ⟨i, j, hi, hj, hij, e⟩
    simp only [MatV.block] at hi hj e
    exact ⟨k + i, k + j, by omega, by omega, in22 hij, e⟩
  have a21 : ∀ p, ((A.block k 0 (n - k) k).scaled m1).toMat.Cell p →
      A.toMat.CellOn (triRegion .lower d) p := by
    rintro p ⟨i, j, hi, hj, _, e⟩
    simp only [MatV.block, MatV.scaled] at hi hj e
    exact ⟨k + i, 0 + j, by omega, by omega, in21 hj, e⟩
  refine (C54_trsv A .lower d B X h a b hA hB hX (by omega) (by omega) (by omega) hu hAX hBX).mono
    fun _ h1 ⟨v, hb1, hv⟩ => ?_
  rw [ends_bind]
  refine (C54_trsv (A.block 0 0 k k) .lower d (B.slice 0 k) (X.slice 0 k) h
    (fun i j => a (0 + i) (0 + j)) (fun i => b (0 + i))
    (fun i j hi hj hij => hA _ _ (by simp only [MatV.block] at hi; omega)
      (by simp only [MatV.block] at hj; omega) (in11 hi hj hij))
    (hB.slice (by omega)) (hX.slice (by omega)) rfl rfl le_rfl (hu.slice (by omega))
    (fun p hp hq => hAX p (a11 p hp) (x1 p hq)) ?_).mono fun _ h2 ⟨v1, hb2, hv1⟩ => ?_
  · intro i j hi hj e
    simp only [VecV.slice, Vec.slice] at hi hj e
    have := hBX _ _ (by omega) (by omega) e
    omega
  have o2 : OnlyChanges X.Cell h h2 := fun p hp => hb2.2 p fun hq => hp (x1 p hq)
  have hA2 : A.HoldsOn h2 (triRegion .lower d) a := hA.of_onlyChanges hAX o2
  have hB2 : (B.slice k (n - k)).Holds h2 fun i => b (k + i) := by
    refine (hB.slice (by omega)).of_onlyChanges ?_ hb2.2
    rintro p ⟨i, hi, e⟩ ⟨j, hj, e'⟩
    simp only [VecV.slice, Vec.slice] at hi hj e e'
    have := hBX _ _ (by omega) (by omega) (e.trans e'.symm)
    omega
  have hX2 : (X.slice k (n - k)).Alloc h2 :=
    (hX.slice (by omega)).of_onlyChanges (fun p hp hq => x12 p hq hp) hb2.2
  rw [ends_bind]
  refine (C54_gemv_update ((A.block k 0 (n - k) k).scaled m1) (X.slice 0 k).view
    (B.slice k (n - k)) (X.slice k (n - k)) h2 (fun i j => m1 * a (k + i) (0 + j)) v1 _ ?_
    hb2.1.asView hB2 hX2 rfl le_rfl le_rfl (hu.slice (by omega))
    (fun p hp hq => hAX p (a21 p hp) (x2 p hq)) (fun p hp hq => x12 p hp hq) ?_).mono
    fun _ h3 hb3 => ?_
  · intro i j hi hj _
    simp only [MatV.block, MatV.scaled] at hi hj
    obtain ⟨w, hw, e⟩ := hA2 (k + i) (0 + j) (by omega) (by omega) (in21 hj)
    exact ⟨w, hw, by simp only [MatV.block, MatV.scaled, e]⟩
  · intro i j hi hj e
    simp only [VecV.slice, Vec.slice] at hi hj e
    have := hBX _ _ (by omega) (by omega) e
    omega
  have o3 : OnlyChanges X.Cell h2 h3 := fun p hp => hb3.2 p fun hq => hp (x2 p hq)
  have hA3 : A.HoldsOn h3 (triRegion .lower d) a := hA2.of_onlyChanges hAX o3
  refine (C54_trsv (A.block k k (n - k) (n - k)) .lower d (X.slice k (n - k)).view
    (X.slice k (n - k)) h3 (fun i j => a (k + i) (k + j)) _
    (fun i j hi hj hij => hA3 _ _ (by simp only [MatV.block] at hi; omega)
      (by simp only [MatV.block] at hj; omega) (in22 hij))
    hb3.1.asView hb3.1.alloc rfl rfl le_rfl (hu.slice (by omega))
    (fun p hp hq => hAX p (a22 p hp) (x2 p hq))
    (fun i j hi hj e => hu.slice (by omega) i j hi hj e)).mono fun _ h4 ⟨v2, hb4, hv2⟩ => ?_
  refine hb1.unique (g := fun i => if i < k then v1 i else v2 (i - k)) ⟨?_, fun p hp => ?_⟩ ?_
  · intro i hi
    by_cases hik : i < k
    · simp only [hik, if_true]
      have hcell : (X.slice 0 k).Cell (X.addr i) := ⟨i, hik, by simp only [Vec.slice, Nat.zero_add]⟩
      rw [hb4.2 _ (x12 _ hcell), hb3.2 _ (x12 _ hcell)]
      have := hb2.1 i hik
      simp only [Vec.slice, Nat.zero_add] at this
      exact this
    · simp only [hik, if_false]
      have := hb4.1 (i - k) (by simp only [Vec.slice]; omega)
      simp only [Vec.slice, show k + (i - k) = i by omega] at this
      exact this
  · rw [hb4.2 p fun hq => hp (x2 p hq), o3 p hp, o2 p hp]
  · intro i hi
    have hv' : ∀ i, i < n → v i = subRow (· / ·) .lower d n a b v i := fun i hi => by
      rw [hv i (by omega), subRow_eq, hc]
    refine subRow_unique (w := fun i => if i < k then v1 i else v2 (i - k)) hv' (fun i hi => ?_) i
      (by omega)
    rw [subRow_eq]
    by_cases hik : i < k
    · simp only [hik, if_true]
      have e := hv1 i hik
      simp only [Nat.zero_add] at e
      rw [e]
      unfold solveRow
      simp only
      rw [leftDiff_congr fun j hj => ?_]
      rw [if_pos (by omega)]
    · simp only [hik, if_false]
      have e := hv2 (i - k) (by simp only [MatV.block]; omega)
      simp only [show k + (i - k) = i by omega, Nat.zero_add] at e
      rw [e, leftSum_eq_leftDiff fun s j _ => hm s _ _]
      unfold solveRow
      simp only [MatV.block, MatV.scaled]
      have e2 : leftDiff (b i) i (fun j => a i j * if j < k then v1 j else v2 (j - k)) =
          leftDiff (leftDiff (b i) k fun j => a i j * v1 j) (i - k)
            fun j => a i (k + j) * v2 j := by
        have e3 := leftDiff_add (b i) k (i - k)
          fun j => a i j * if j < k then v1 j else v2 (j - k)
        rw [show k + (i - k) = i by omega] at e3
        rw [e3]
        rw [leftDiff_congr (n := k) (t' := fun j => a i j * v1 j) fun j hj => by rw [if_pos hj]]
        exact leftDiff_congr fun j _ => by
          rw [if_neg (by omega), show k + j - k = j by omega]
      rw [e2]

/-- **C73** `triangular_matrix_vector_solve(A, upper_triangle, d, b, x)` in two blocks: solve for
the last unknowns, subtract what they contribute to the first `k` equations, solve these.  Exact
arithmetic: the subtractions come in another order than in one call. -/
theorem C73_trsv_upper_blocks [Field α] (A : MatV α) (d : Diag)
    (B : VecV α) (X : Vec) (h : Heap α) (a : Nat → Nat → α) (b : Nat → α) (n k : Nat)
    (hA : A.HoldsOn h (triRegion .upper d) a) (hB : B.Holds h b) (hX : X.Alloc h)
    (hr : A.rows = n) (hc : A.cols = n) (hext : X.ext = n) (hBe : n ≤ B.ext) (hu : X.Unique)
    (hAX : Apart (A.toMat.CellOn (triRegion .upper d)) X.Cell) (hBX : B.toVec.Aligned X)
    (hk : k ≤ n) :
    Ends (trsv (· / ·) A .upper d B X) h fun _ h1 => Ends (do
        trsv (· / ·) (A.block k k (n - k) (n - k)) .upper d (B.slice k (n - k)) (X.slice k (n - k))
        gemvUpdate ((A.block 0 k k (n - k)).scaled (-1)) (X.slice k (n - k)).view (B.slice 0 k)
          (X.slice 0 k)
        trsv (· / ·) (A.block 0 0 k k) .upper d (X.slice 0 k).view (X.slice 0 k)) h
      fun _ h2 => h1 = h2 := by
  have in11 : ∀ {i j}, triRegion .upper d i j → triRegion .upper d (0 + i) (0 + j) :=
    fun hij => by rwa [Nat.zero_add, Nat.zero_add]
  have in22 : ∀ {i j}, triRegion .upper d i j → triRegion .upper d (k + i) (k + j) := by
    intro i j hij
    exact ⟨by have := hij.1; simp only [Triangle.region] at *; omega,
      fun hd e => hij.2 hd (by omega)⟩
  have in12 : ∀ {i j}, i < k → triRegion .upper d (0 + i) (k + j) := fun hi =>
    ⟨by simp only [Triangle.region]; omega, fun _ => by omega⟩
  have x1 : ∀ p, (X.slice 0 k).Cell p → X.Cell p := fun p => Vec.slice_cell (by omega)
  have x2 : ∀ p, (X.slice k (n - k)).Cell p → X.Cell p := fun p => Vec.slice_cell (by omega)
  have x12 : Apart (X.slice 0 k).Cell (X.slice k (n - k)).Cell := by
    rintro p ⟨i, hi, e⟩ ⟨j, hj, e'⟩
    simp only [Vec.slice] at hi hj e e'
    have := hu _ _ (by omega) (by omega) (e.trans e'.symm)
    omega
  have x21 : Apart (X.slice k (n - k)).Cell (X.slice 0 k).Cell := fun p hp hq => x12 p hq hp
  have a11 : ∀ p, (A.block 0 0 k k).toMat.CellOn (triRegion .upper d) p →
      A.toMat.CellOn (triRegion .upper d) p := by
    rintro p ⟨i, j, hi, hj, hij, e⟩
    simp only [MatV.block] at hi hj e
    exact ⟨0 + i, 0 + j, by omega, by omega, in11 hij, e⟩
  have a22 : ∀ p, (A.block k k (n - k) (n - k)).toMat.CellOn (triRegion .upper d) p →
      A.toMat.CellOn (triRegion .upper d) p := by
    rintro p ⟨i, j, hi, hj, hij, e⟩
    simp only [MatV.block] at hi hj e
    exact ⟨k + i, k + j, by omega, by omega, in22 hij, e⟩
  have a12 : ∀ p, ((A.block 0 k k (n - k)).scaled (-1)).toMat.Cell p →
      A.toMat.CellOn (triRegion .upper d) p := by
    rintro p ⟨i, j, hi, hj, _, e⟩
    simp only [MatV.block, MatV.scaled] at hi hj e
    exact ⟨0 + i, k + j, by omega, by omega, in12 hi, e⟩
  refine (C54_trsv A .upper d B X h a b hA hB hX (by omega) (by omega) (by omega) hu hAX hBX).mono
    fun _ h1 ⟨v, hb1, hv⟩ => ?_
  rw [ends_bind]
  refine (C54_trsv (A.block k k (n - k) (n - k)) .upper d (B.slice k (n - k)) (X.slice k (n - k)) h
    (fun i j => a (k + i) (k + j)) (fun i => b (k + i))
    (fun i j hi hj hij => hA _ _ (by simp only [MatV.block] at hi; omega)
      (by simp only [MatV.block] at hj; omega) (in22 hij))
    (hB.slice (by omega)) (hX.slice (by omega)) rfl rfl le_rfl (hu.slice (by omega))
    (fun p hp hq => hAX p (a22 p hp) (x2 p hq)) ?_).mono fun _ h2 ⟨v2, hb2, hv2⟩ => ?_
  · intro i j hi hj e
    simp only [VecV.slice, Vec.slice] at hi hj e
    have := hBX _ _ (by omega) (by omega) e
    omega
  have o2 : OnlyChanges X.Cell h h2 := fun p hp => hb2.2 p fun hq => hp (x2 p hq)
  have hA2 : A.HoldsOn h2 (triRegion .upper d) a := hA.of_onlyChanges hAX o2
  have hB2 : (B.slice 0 k).Holds h2 fun i => b (0 + i) := by
    refine (hB.slice (by omega)).of_onlyChanges ?_ hb2.2
    rintro p ⟨i, hi, e⟩ ⟨j, hj, e'⟩
    simp only [VecV.slice, Vec.slice] at hi hj e e'
    have := hBX _ _ (by omega) (by omega) (e.trans e'.symm)
    omega
  have hX2 : (X.slice 0 k).Alloc h2 := (hX.slice (by omega)).of_onlyChanges x12 hb2.2
  rw [ends_bind]
  refine (C54_gemv_update ((A.block 0 k k (n - k)).scaled (-1)) (X.slice k (n - k)).view
    (B.slice 0 k) (X.slice 0 k) h2 (fun i j => -1 * a (0 + i) (k + j)) v2 _ ?_
    hb2.1.asView hB2 hX2 rfl le_rfl le_rfl (hu.slice (by omega))
    (fun p hp hq => hAX p (a12 p hp) (x1 p hq)) x21 ?_).mono fun _ h3 hb3 => ?_
  · intro i j hi hj _
    simp only [MatV.block, MatV.scaled] at hi hj
    obtain ⟨w, hw, e⟩ := hA2 (0 + i) (k + j) (by omega) (by omega) (in12 hi)
    exact ⟨w, hw, by simp only [MatV.block, MatV.scaled, e]⟩
  · intro i j hi hj e
    simp only [VecV.slice, Vec.slice] at hi hj e
    have := hBX _ _ (by omega) (by omega) e
    omega
  have o3 : OnlyChanges X.Cell h2 h3 := fun p hp => hb3.2 p fun hq => hp (x1 p hq)
  have hA3 : A.HoldsOn h3 (triRegion .upper d) a := hA2.of_onlyChanges hAX o3
  refine (C54_trsv (A.block 0 0 k k) .upper d (X.slice 0 k).view
    (X.slice 0 k) h3 (fun i j => a (0 + i) (0 + j)) _
    (fun i j hi hj hij => hA3 _ _ (by simp only [MatV.block] at hi; omega)
      (by simp only [MatV.block] at hj; omega) (in11 hij))
    hb3.1.asView hb3.1.alloc rfl rfl le_rfl (hu.slice (by omega))
    (fun p hp hq => hAX p (a11 p hp) (x1 p hq))
    (fun i j hi hj e => hu.slice (by omega) i j hi hj e)).mono fun _ h4 ⟨v1, hb4, hv1⟩ => ?_
  refine hb1.unique (g := fun i => if i < k then v1 i else v2 (i - k)) ⟨?_, fun p hp => ?_⟩ ?_
  · intro i hi
    by_cases hik : i < k
    · simp only [hik, if_true]
      have := hb4.1 i hik
      simp only [Vec.slice, Nat.zero_add] at this
      exact this
    · simp only [hik, if_false]
      have hcell : (X.slice k (n - k)).Cell (X.addr i) :=
        ⟨i - k, by simp only [Vec.slice]; omega,
          by simp only [Vec.slice, show k + (i - k) = i by omega]⟩
      rw [hb4.2 _ (x21 _ hcell), hb3.2 _ (x21 _ hcell)]
      have := hb2.1 (i - k) (by simp only [Vec.slice]; omega)
      simp only [Vec.slice, show k + (i - k) = i by omega] at this
      exact this
  · rw [hb4.2 p fun hq => hp (x1 p hq), o3 p hp, o2 p hp]
  · intro i hi
    have hv' : ∀ i, i < n → v i = subRow (· / ·) .upper d n a b v i := fun i hi => by
      rw [hv i (by omega), subRow_eq, hc]
    refine subRow_unique (w := fun i => if i < k then v1 i else v2 (i - k)) hv' (fun i hi => ?_) i
      (by omega)
    rw [subRow_eq]
    by_cases hik : i < k
    · simp only [hik, if_true]
      have e := hv1 i hik
      simp only [Nat.zero_add] at e
      rw [e, leftSum_eq_leftDiff (t' := fun j => a i (k + j) * v2 j) fun s j _ => by ring]
      unfold solveRow
      simp only [MatV.block, MatV.scaled]
      have e2 : leftDiff (b i) (n - 1 - i)
            (fun j => a i (i + 1 + j) * if i + 1 + j < k then v1 (i + 1 + j)
              else v2 (i + 1 + j - k)) =
          leftDiff (leftDiff (b i) (n - k) fun j => a i (k + j) * v2 j) (k - 1 - i)
            fun j => a i (i + 1 + j) * v1 (i + 1 + j) := by
        rw [show n - 1 - i = (k - 1 - i) + (n - k) by omega, leftDiff_add]
        rw [leftDiff_congr (n := k - 1 - i) (t' := fun j => a i (i + 1 + j) * v1 (i + 1 + j))
          fun j hj => by rw [if_pos (by omega)]]
        rw [leftDiff_congr (n := n - k) (t' := fun j => a i (k + j) * v2 j) fun j hj => by
          rw [if_neg (by omega), show i + 1 + (k - 1 - i + j) - k = j by omega,
            show i + 1 + (k - 1 - i + j) = k + j by omega]]
        simp only [leftDiff_eq_sub]
        ring
      rw [e2]
    · simp only [hik, if_false]
      have e := hv2 (i - k) (by simp only [MatV.block]; omega)
      simp only [show k + (i - k) = i by omega] at e
      rw [e]
      unfold solveRow
      simp only [MatV.block]
      rw [show n - k - 1 - (i - k) = n - 1 - i by omega]
      rw [leftDiff_congr (n := n - 1 - i)
        (t' := fun j => a i (i + 1 + j) * if i + 1 + j < k then v1 (i + 1 + j)
              else v2 (i + 1 + j - k)) fun j _ => by
        rw [if_neg (by omega), show k + (i - k + 1 + j) = i + 1 + j by omega,
          show i - k + 1 + j = i + 1 + j - k by omega]]

example : Ends (trsv (· / ·) (A.view : MatV ℚ) .lower .explicit y.view x) (heap ℚ) fun _ h1 =>
    Ends (do
      trsv (· / ·) ((A.view : MatV ℚ).block 0 0 2 2) .lower .explicit ((y.view : VecV ℚ).slice 0 2)
        (x.slice 0 2)
      gemvUpdate (((A.view : MatV ℚ).block 2 0 1 2).scaled (-1)) (x.slice 0 2).view
        ((y.view : VecV ℚ).slice 2 1) (x.slice 2 1)
      trsv (· / ·) ((A.view : MatV ℚ).block 2 2 1 1) .lower .explicit (x.slice 2 1).view
        (x.slice 2 1)) (heap ℚ) fun _ h2 => h1 = h2 :=
  C73_trsv_lower_blocks (-1) (fun s p q => by ring) _ _ _ _ _ _ _ 3 2
    (mholdsV bA) (holdsV by_) (alloc bx) rfl rfl rfl le_rfl
    (by view_facts) (by view_facts) (by view_facts) (by decide)

example : Ends (trsv (· / ·) (A.view : MatV ℚ) .upper .explicit y.view x) (heap ℚ) fun _ h1 =>
    Ends (do
      trsv (· / ·) ((A.view : MatV ℚ).block 2 2 1 1) .upper .explicit ((y.view : VecV ℚ).slice 2 1)
        (x.slice 2 1)
      gemvUpdate (((A.view : MatV ℚ).block 0 2 2 1).scaled (-1)) (x.slice 2 1).view
        ((y.view : VecV ℚ).slice 0 2) (x.slice 0 2)
      trsv (· / ·) ((A.view : MatV ℚ).block 0 0 2 2) .upper .explicit (x.slice 0 2).view
        (x.slice 0 2)) (heap ℚ) fun _ h2 => h1 = h2 :=
  C73_trsv_upper_blocks _ _ _ _ _ _ _ 3 2
    (mholdsV bA) (holdsV by_) (alloc bx) rfl rfl rfl le_rfl
    (by view_facts) (by view_facts) (by view_facts) (by decide)

/-! ## The index of the largest element -/

/-- **C73** `vector_idx_abs_max(x)` from the results `r1` and `r2` for two parts: `r1` unless the
element found in the second part is larger. -/
theorem C73_idx_abs_max (sizeMax : Nat) (x : VecV ℝ) (h : Heap ℝ) (f : Nat → ℝ) (k : Nat)
    (hx : x.Holds h f) (hk0 : 0 < k) (hk : k < x.ext) :
    Ends (vectorIdxAbsMax sizeMax x) h fun r _ =>
      Ends (vectorIdxAbsMax sizeMax (x.slice 0 k)) h fun r1 _ =>
        Ends (vectorIdxAbsMax sizeMax (x.slice k (x.ext - k))) h fun r2 _ =>
          r = if |f r1| < |f (k + r2)| then k + r2 else r1 := by
  refine (C06_idx_abs_max_real sizeMax x h f hx (by omega)).mono fun r _ hr => ?_
  refine (C06_idx_abs_max_real sizeMax (x.slice 0 k) h _ (hx.slice (by omega))
    (by simp only [VecV.slice]; omega)).mono fun r1 _ hr1 => ?_
  refine (C06_idx_abs_max_real sizeMax (x.slice k (x.ext - k)) h _ (hx.slice (by omega))
    (by simp only [VecV.slice]; omega)).mono fun r2 _ hr2 => ?_
  obtain ⟨⟨r_lt, r_max, r_first⟩, -⟩ := hr
  obtain ⟨⟨r1_lt, r1_max, r1_first⟩, -⟩ := hr1
  obtain ⟨⟨r2_lt, r2_max, r2_first⟩, -⟩ := hr2
  simp only [VecV.slice, Nat.zero_add] at r1_lt r1_max r1_first r2_lt r2_max r2_first
  have m1 : |f r1| ≤ |f r| := r_max r1 (by omega)
  have m2 : |f (k + r2)| ≤ |f r| := r_max _ (by omega)
  have ge : r < k → |f r| ≤ |f r1| := fun hrk => r1_max r hrk
  have ge' : k ≤ r → |f r| ≤ |f (k + r2)| := fun hrk => by
    have := r2_max (r - k) (by omega)
    rwa [show k + (r - k) = r by omega] at this
  split_ifs with hlt
  · have hkr : k ≤ r := by
      by_contra hc
      have := ge (by omega)
      linarith
    rcases Nat.lt_trichotomy r (k + r2) with e | e | e
    · have := r2_first (r - k) (by omega)
      rw [show k + (r - k) = r by omega] at this
      linarith
    · exact e
    · have := r_first _ e
      have := ge' hkr
      linarith
  · have hr1k : ¬ r1 < r := fun e => by
      have h1 := r_first r1 e
      by_cases hrk : r < k
      · have := ge hrk
        linarith
      · have := ge' (by omega)
        linarith
    rcases Nat.lt_trichotomy r r1 with e | e | e
    · have := r1_first r e
      linarith
    · exact e
    · exact absurd e hr1k

example : Ends (vectorIdxAbsMax 255 (x.view : VecV ℝ)) (heap ℝ) fun r _ =>
    Ends (vectorIdxAbsMax 255 ((x.view : VecV ℝ).slice 0 2)) (heap ℝ) fun r1 _ =>
      Ends (vectorIdxAbsMax 255 ((x.view : VecV ℝ).slice 2 1)) (heap ℝ) fun r2 _ =>
        r = if |vals ℝ x r1| < |vals ℝ x (2 + r2)| then 2 + r2 else r1 :=
  C73_idx_abs_max _ _ _ _ 2 (holdsV bx) (by decide) (by decide)

end StdBLAS
